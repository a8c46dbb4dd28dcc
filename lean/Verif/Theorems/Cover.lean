import Verif.Theorems.Span
import Verif.Proofs.Examples
/-! C32: the span of an AST value covers what is stored in it. -/
namespace SqlParse

/-- The fields that the `span()` implementations leave out, by position: the locking clause of SELECT, CASCADE of
DROP TABLE, the column list of INSERT, the parameters and RETURNS of CREATE FUNCTION, IF NOT EXISTS of CREATE INDEX. -/
def LeftOut (k : Kind) (i : Nat) : Prop :=
  (k = .Select ∧ i = 11) ∨ (k = .DropTable ∧ i = 5) ∨ (k = .InsertReplace ∧ i = 4) ∨
  (k = .CreateFunction ∧ (i = 5 ∨ i = 6)) ∨ (k = .CreateIndex ∧ i = 4)

/-- The span is stored in the value, and not only in a field that is left out. -/
inductive Ast.Shown : Ast → Span → Prop where
  | span (s : Span) : Ast.Shown (.span s) s
  | ident (v : List Char) (s : Span) : Ast.Shown (.ident v s) s
  | sstring (v : List Char) (s : Span) : Ast.Shown (.sstring v s) s
  | some (a : Ast) (s : Span) (h : Ast.Shown a s) : Ast.Shown (.some a) s
  | list (l : List Ast) (a : Ast) (s : Span) (hm : a ∈ l) (h : Ast.Shown a s) : Ast.Shown (.list l) s
  | node (k : Kind) (fs : List Ast) (i : Nat) (a : Ast) (s : Span) (hm : fs[i]? = Option.some a) (hi : ¬ LeftOut k i)
      (h : Ast.Shown a s) : Ast.Shown (.node k fs) s

theorem kindOmit_iff (k : Kind) (i : Nat) : (kindOmit k).contains i = true ↔ LeftOut k i := by
  unfold kindOmit LeftOut
  by_cases h1 : k = .Select
  · subst h1; simp
  by_cases h2 : k = .DropTable
  · subst h2; simp
  by_cases h3 : k = .InsertReplace
  · subst h3; simp
  by_cases h4 : k = .CreateFunction
  · subst h4; simp
  by_cases h5 : k = .CreateIndex
  · subst h5; simp
  simp [h1, h2, h3, h4, h5]

/-- `r` is the least cover of the spans with `P`. -/
def LeastP (P : Span → Prop) : SpanRes → Prop
  | .some s => (∀ t, P t → Covers s t) ∧ ∀ c, (∀ t, P t → Covers c t) → Covers c s
  | .none => ∀ t, ¬ P t
  | .panic => True

theorem leastP_join {P Q R : Span → Prop} {x y : SpanRes} (hp : LeastP P x) (hq : LeastP Q y) (h : ∀ t, R t ↔ P t ∨ Q t) :
    LeastP R (x.join y) := by
  cases x <;> cases y <;> simp only [SpanRes.join, LeastP, joinSpan] at *
  · intro t ht; exact ((h t).1 ht).elim (hp t) (hq t)
  · refine ⟨fun t ht => ?_, fun c hc => ?_⟩
    · rcases (h t).1 ht with h | h
      · exact absurd h (hp t)
      · exact hq.1 t h
    · exact hq.2 c fun t ht => hc t ((h t).2 (.inr ht))
  · refine ⟨fun t ht => ?_, fun c hc => ?_⟩
    · rcases (h t).1 ht with h | h
      · exact hp.1 t h
      · exact absurd h (hq t)
    · exact hp.2 c fun t ht => hc t ((h t).2 (.inl ht))
  · refine ⟨fun t ht => ?_, fun c hc => ?_⟩
    · rcases (h t).1 ht with h | h
      · have := hp.1 t h
        simp only [Covers] at *; omega
      · have := hq.1 t h
        simp only [Covers] at *; omega
    · have h1 := hp.2 c fun t ht => hc t ((h t).2 (.inl ht))
      have h2 := hq.2 c fun t ht => hc t ((h t).2 (.inr ht))
      simp only [Covers] at *; omega

theorem leastP_congr {P Q : Span → Prop} {x : SpanRes} (hp : LeastP P x) (h : ∀ t, Q t ↔ P t) : LeastP Q x := by
  have : Q = P := funext fun t => propext (h t)
  rwa [this]

mutual
theorem spanRes_least : ∀ a : Ast, LeastP a.Shown a.spanRes
  | .span s => by
    simp only [Ast.spanRes, LeastP]
    exact ⟨fun t ht => by cases ht; exact ⟨Nat.le_refl _, Nat.le_refl _⟩, fun c hc => hc s (.span s)⟩
  | .str _ => by simp only [Ast.spanRes, LeastP]; intro t ht; cases ht
  | .nat _ => by simp only [Ast.spanRes, LeastP]; intro t ht; cases ht
  | .bool _ => by simp only [Ast.spanRes, LeastP]; intro t ht; cases ht
  | .ident v s => by
    simp only [Ast.spanRes, LeastP]
    exact ⟨fun t ht => by cases ht; exact ⟨Nat.le_refl _, Nat.le_refl _⟩, fun c hc => hc s (.ident v s)⟩
  | .sstring v s => by
    simp only [Ast.spanRes, LeastP]
    exact ⟨fun t ht => by cases ht; exact ⟨Nat.le_refl _, Nat.le_refl _⟩, fun c hc => hc s (.sstring v s)⟩
  | .binop _ => by simp only [Ast.spanRes, LeastP]; intro t ht; cases ht
  | .unop _ => by simp only [Ast.spanRes, LeastP]; intro t ht; cases ht
  | .none => by simp only [Ast.spanRes, LeastP]; intro t ht; cases ht
  | .some a => by
    simp only [Ast.spanRes]
    exact leastP_congr (spanRes_least a) fun t => ⟨fun h => by cases h; assumption, .some a t⟩
  | .list l => by
    simp only [Ast.spanRes]
    refine leastP_congr (spanResList_least [] 0 l) fun t => ⟨fun h => ?_, fun ⟨i, a, hm, _, h⟩ => .list l a t (List.mem_of_getElem? hm) h⟩
    cases h with
    | list l a s hm h =>
      obtain ⟨i, hi⟩ := List.getElem?_of_mem hm
      exact ⟨i, a, hi, rfl, h⟩
  | .node k fs => by
    have h : LeastP (Ast.node k fs).Shown (spanResList (kindOmit k) 0 fs) := by
      refine leastP_congr (spanResList_least (kindOmit k) 0 fs) fun t => ⟨fun h => ?_, fun ⟨i, a, hm, hi, h⟩ => ?_⟩
      · cases h with
        | node k fs i a s hm hi h =>
          refine ⟨i, a, hm, ?_, h⟩
          have := mt (kindOmit_iff k i).1 hi
          simpa using this
      · refine .node k fs i a t hm ?_ h
        intro hl
        have := (kindOmit_iff k i).2 hl
        simp_all
    simp only [Ast.spanRes]
    split
    · next he =>
      rw [he] at h
      split
      · exact trivial
      · exact h
    · exact h
theorem spanResList_least : ∀ (om : List Nat) (i : Nat) (l : List Ast),
    LeastP (fun t => ∃ j a, l[j]? = some a ∧ om.contains (i + j) = false ∧ a.Shown t) (spanResList om i l)
  | om, i, [] => by simp [spanResList, LeastP]
  | om, i, a :: l => by
    have ih := spanResList_least om (i + 1) l
    have iha := spanRes_least a
    simp only [spanResList]
    split
    · next ho =>
      refine leastP_congr ih fun t => ⟨fun ⟨j, b, hj, hc, hb⟩ => ?_, fun ⟨j, b, hj, hc, hb⟩ => ⟨j + 1, b, by simpa using hj, by rw [← hc]; congr 1; omega, hb⟩⟩
      cases j with
      | zero => rw [Nat.add_zero, ho] at hc; cases hc
      | succ j => exact ⟨j, b, by simpa using hj, by rw [← hc]; congr 1; omega, hb⟩
    · next ho =>
      refine leastP_join iha ih fun t => ⟨fun ⟨j, b, hj, hc, hb⟩ => ?_, fun h => ?_⟩
      · cases j with
        | zero => simp at hj; subst hj; exact .inl hb
        | succ j => exact .inr ⟨j, b, by simpa using hj, by rw [← hc]; congr 1; omega, hb⟩
      · rcases h with h | ⟨j, b, hj, hc, hb⟩
        · exact ⟨0, a, rfl, by simpa using ho, h⟩
        · exact ⟨j + 1, b, by simpa using hj, by rw [← hc]; congr 1; omega, hb⟩
end

/-- **C32** (what holds): when a value has a span, it is the least span that covers all the spans stored in it, apart
from those in the fields that are left out; a value without span stores none.  Missing: the fields that are left out
(see `C32_violated`). -/
theorem C32_least_cover_partial (a : Ast) :
    (∀ s, a.spanRes = .some s → (∀ t, a.Shown t → Covers s t) ∧ ∀ c, (∀ t, a.Shown t → Covers c t) → Covers c s) ∧
    (a.spanRes = .none → ∀ t, ¬ a.Shown t) := by
  have h := spanRes_least a
  refine ⟨fun s hs => ?_, fun hs => ?_⟩ <;> rw [hs] at h <;> exact h

/-- The kinds that leave out a field. -/
def leavesOut : List Kind := [.Select, .DropTable, .InsertReplace, .CreateFunction, .CreateIndex]

theorem has_shown {a b : Ast} (h : a.Has b) (hk : ∀ k fs, a.Has (.node k fs) → k ∉ leavesOut) {s : Span} (hb : b.Shown s) :
    a.Shown s := by
  induction h with
  | refl a => exact hb
  | some a b _ ih => exact .some a s (ih (fun k fs h => hk k fs (.some _ _ h)) hb)
  | list l a b hm _ ih => exact .list l a s hm (ih (fun k fs h => hk k fs (.list _ _ _ hm h)) hb)
  | node k fs a b hm _ ih =>
    obtain ⟨i, hi⟩ := List.getElem?_of_mem hm
    refine .node k fs i a s hi ?_ (ih (fun k' fs' h => hk k' fs' (.node _ _ _ _ hm h)) hb)
    have := hk k fs (.refl _)
    simp only [leavesOut, List.mem_cons, List.not_mem_nil, or_false, not_or] at this
    obtain ⟨h1, h2, h3, h4, h5⟩ := this
    simp [LeftOut, h1, h2, h3, h4, h5]

/-- **C32** (in full for values without the five kinds of nodes that leave out a field): the span covers every span
stored anywhere in the value. -/
theorem C32_covers_partial (a : Ast) (hk : ∀ k fs, a.Has (.node k fs) → k ∉ leavesOut) (s : Span)
    (h : a.spanRes = .some s) (t : Span) (ht : a.HasSpan t) : Covers s t := by
  have key := ((C32_least_cover_partial a).1 s h).1
  rcases ht with ht | ⟨v, ht⟩ | ⟨v, ht⟩
  · exact key t (has_shown ht hk (.span t))
  · exact key t (has_shown ht hk (.ident v t))
  · exact key t (has_shown ht hk (.sstring v t))

/-- Test for a stored span that is not covered. -/
def uncovered (s : Span) : Ast → Bool
  | .span t => decide (t.start < s.start) || decide (s.stop < t.stop)
  | .ident _ t => decide (t.start < s.start) || decide (s.stop < t.stop)
  | .sstring _ t => decide (t.start < s.start) || decide (s.stop < t.stop)
  | _ => false

/-- Test for a value with a span that does not cover a stored span. -/
def sticksOut (a : Ast) : Bool :=
  match a.spanRes with
  | .some s => a.find (uncovered s)
  | _ => false

theorem sticksOut_spec {a : Ast} (h : sticksOut a = true) : ∃ s t, a.spanRes = .some s ∧ a.HasSpan t ∧ ¬ Covers s t := by
  unfold sticksOut at h
  split at h
  · next s hs =>
    obtain ⟨b, h1, h2⟩ := Ast.find_has a h
    unfold uncovered at h2
    split at h2
    · next t => exact ⟨s, t, hs, .inl h1, by simp at h2; simp only [Covers]; omega⟩
    · next v t => exact ⟨s, t, hs, .inr (.inl ⟨v, h1⟩), by simp at h2; simp only [Covers]; omega⟩
    · next v t => exact ⟨s, t, hs, .inr (.inr ⟨v, h1⟩), by simp at h2; simp only [Covers]; omega⟩
    · cases h2
  · cases h

/-- The statement returned for `src` stores a span that its own span does not cover, and no issue is reported. -/
def SticksOut (src : List Char) (opts : Opts) : Prop :=
  ∃ v s t, Api.one.Returns true src ⟨src, []⟩ opts (some v) [] ∧ v.ast.spanRes = .some s ∧ v.ast.HasSpan t ∧ ¬ Covers s t

theorem sticksOut_of_test {src : List Char} {opts : Opts} (n : Nat)
    (h : (match Api.one.run n true src ⟨src, []⟩ opts with
      | .ret (some v) [] => sticksOut v.ast
      | _ => false) = true) : SticksOut src opts := by
  split at h
  · next v hr =>
    obtain ⟨s, t, h1, h2, h3⟩ := sticksOut_spec h
    exact ⟨v, s, t, ⟨n, hr⟩, h1, h2, h3⟩
  · cases h

/-- **C32** (violated by the pinned code): the span of a SELECT does not cover its locking clause, the span of a
DROP TABLE does not cover its CASCADE. -/
theorem C32_violated :
    SticksOut c!"SELECT `a` FROM `b` FOR UPDATE" {} ∧ SticksOut c!"DROP TABLE a CASCADE" { dialect := .postgreSQL } :=
  ⟨sticksOut_of_test 40 (by decide +kernel), sticksOut_of_test 40 (by decide +kernel)⟩

/-- Non-vacuity: a DELETE, without the five kinds; its span is that of the whole text. -/
example : ∃ v, Api.one.Returns true c!"DELETE FROM `a` WHERE `b` IN (1, 2)" ⟨c!"DELETE FROM `a` WHERE `b` IN (1, 2)", []⟩ {} (some v) [] ∧
    (decide (v.ast.spanRes = .some ⟨0, 34⟩) && !v.ast.find fun b => match b with | .node k _ => leavesOut.contains k | _ => false) = true := by
  obtain ⟨a, is, h1, h2⟩ := returns_of_test (api := .one) (n := 40) (checked := true) (src := c!"DELETE FROM `a` WHERE `b` IN (1, 2)")
    (iss := ⟨c!"DELETE FROM `a` WHERE `b` IN (1, 2)", []⟩) (opts := {})
    (f := fun a is => match a, is with
      | some v, [] => decide (v.ast.spanRes = .some ⟨0, 34⟩) && !v.ast.find fun b => match b with | .node k _ => leavesOut.contains k | _ => false
      | _, _ => false) (by decide +kernel)
  split at h2
  · next v => exact ⟨v, h1, h2⟩
  · cases h2

end SqlParse
