import Verif.Model.SpanOps
/-! C22: joining spans gives the least span that covers them. -/
namespace SqlParse

/-- `a` covers `b`. -/
def Covers (a b : Span) : Prop := a.start ≤ b.start ∧ b.stop ≤ a.stop

/-- `s` is the least span that covers all of `l`. -/
def LeastCover (l : List Span) (s : Span) : Prop := (∀ x ∈ l, Covers s x) ∧ ∀ c, (∀ x ∈ l, Covers c x) → Covers c s

/-- There is at most one least cover. -/
theorem LeastCover.unique {l : List Span} {s t : Span} (h : LeastCover l s) (h' : LeastCover l t) : s = t := by
  have h1 := h.2 t h'.1
  have h2 := h'.2 s h.1
  cases s; cases t
  simp only [Covers] at h1 h2
  simp only [Span.mk.injEq]
  omega

/-- **C22** (two spans). -/
theorem C22_join (a b : Span) : LeastCover [a, b] (joinOpt a (some b)) := by
  constructor
  · intro x hx
    rcases List.mem_cons.1 hx with rfl | hx
    · simp only [Covers, joinOpt]; omega
    · rcases List.mem_cons.1 hx with rfl | hx
      · simp only [Covers, joinOpt]; omega
      · cases hx
  · intro c hc
    have h1 := hc a (by simp)
    have h2 := hc b (by simp)
    simp only [Covers, joinOpt] at *
    omega

/-- **C22** (laws): joining is associative, commutative and idempotent, also when spans are missing; a missing span is
neutral. -/
theorem C22_laws (a b c : Option Span) : optJoin (optJoin a b) c = optJoin a (optJoin b c) ∧ optJoin a b = optJoin b a ∧
    optJoin a a = a ∧ optJoin none a = a ∧ optJoin a none = a := by
  refine ⟨?_, ?_, ?_, ?_, ?_⟩
  · cases a <;> cases b <;> cases c <;> simp [optJoin, joinOpt] <;> omega
  · cases a <;> cases b <;> simp [optJoin, joinOpt] <;> omega
  · cases a <;> simp [optJoin, joinOpt]
  · cases a <;> simp [optJoin]
  · cases a <;> simp [optJoin, joinOpt]

theorem leastCover_cons {l : List Span} {s : Span} (h : LeastCover l s) (a : Span) : LeastCover (a :: l) (joinOpt a (some s)) := by
  obtain ⟨h1, h2⟩ := h
  constructor
  · intro x hx
    rcases List.mem_cons.1 hx with rfl | hx
    · simp only [Covers, joinOpt]; omega
    · have := h1 x hx
      simp only [Covers, joinOpt] at *; omega
  · intro c hc
    have g1 := hc a (by simp)
    have g2 := h2 c fun x hx => hc x (by simp [hx])
    simp only [Covers, joinOpt] at *
    omega

theorem foldl_optJoin (l : List (Option Span)) (a : Option Span) : l.foldl optJoin a = optJoin a (vecSpan l) := by
  unfold vecSpan
  induction l generalizing a with
  | nil => exact (C22_laws a none none).2.2.2.2.symm
  | cons b l ih =>
    simp only [List.foldl_cons]
    rw [ih, ih (optJoin none b), (C22_laws b none none).2.2.2.1, (C22_laws a b _).1]

theorem vecSpan_cons (a : Option Span) (l : List (Option Span)) : vecSpan (a :: l) = optJoin a (vecSpan l) := by
  show (a :: l).foldl optJoin none = _
  rw [List.foldl_cons, foldl_optJoin, (C22_laws a none none).2.2.2.1]

/-- The spans that are there. -/
def present (l : List (Option Span)) : List Span := l.filterMap id

/-- **C22** (lists): the span of a list is the least span that covers the spans of its elements; it is missing iff no
element has a span. -/
theorem C22_list (l : List (Option Span)) :
    match vecSpan l with
    | some s => LeastCover (present l) s
    | none => present l = [] := by
  induction l with
  | nil => rfl
  | cons a l ih =>
    rw [vecSpan_cons]
    cases a with
    | none =>
      simp only [optJoin]
      simpa [present] using ih
    | some a =>
      simp only [optJoin]
      have hp : present (some a :: l) = a :: present l := rfl
      rw [hp]
      split at ih
      · next s hs => rw [hs]; exact leastCover_cons ih a
      · next hs =>
        rw [hs, ih]
        constructor
        · intro x hx
          simp only [List.mem_singleton] at hx
          subst hx
          exact ⟨Nat.le_refl _, Nat.le_refl _⟩
        · intro c hc
          exact hc a (by simp)

/-- **C22** (pairs and triples). -/
theorem C22_tuples (a : Span) (b c : Option Span) : LeastCover (a :: present [b]) (pairSpan a b) ∧
    LeastCover (a :: present [b, c]) (tripleSpan a b c) := by
  have h1 := C22_list [some a, b]
  have h2 := C22_list [some a, b, c]
  exact ⟨h1, h2⟩

/-! The model of `span()` for syntax trees (`Ast.spanRes`) uses the same operations. -/

/-- No panic. -/
def SpanRes.toOpt : SpanRes → Option Span
  | .some s => Option.some s
  | _ => Option.none

theorem C22_ast_list (l : List Ast) (h : ∀ a ∈ l, a.spanRes ≠ .panic) :
    (Ast.list l).spanRes ≠ .panic ∧ (Ast.list l).spanRes.toOpt = vecSpan (l.map fun a => a.spanRes.toOpt) := by
  have key : ∀ i, spanResList [] i l ≠ .panic ∧ (spanResList [] i l).toOpt = vecSpan (l.map fun a => a.spanRes.toOpt) := by
    induction l with
    | nil => intro i; simp [spanResList, SpanRes.toOpt, vecSpan]
    | cons a l ih =>
      intro i
      obtain ⟨h1, h2⟩ := ih (fun b hb => h b (by simp [hb])) (i + 1)
      have h3 := h a (by simp)
      simp only [spanResList, List.map_cons, vecSpan_cons, ← h2]
      clear h2 ih h
      simp only [List.contains_nil, Bool.false_eq_true, if_false]
      generalize a.spanRes = x at *
      generalize spanResList [] (i + 1) l = y at *
      cases x <;> cases y <;> simp [SpanRes.join, SpanRes.toOpt, optJoin, joinOpt, joinSpan] at *
  have := key 0
  simpa [Ast.spanRes] using this

example : vecSpan [none, some ⟨5, 9⟩, some ⟨2, 3⟩, none, some ⟨7, 12⟩] = some ⟨2, 12⟩ := by decide

end SqlParse
