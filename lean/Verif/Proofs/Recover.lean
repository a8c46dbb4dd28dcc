import Verif.Spec.Recover
import Verif.Theorems.Grammar
/-!
Running programs on tokens with mistakes: `PI c p ts a ts' x` says that the program succeeds with `a`, adds Errors for the mistakes `x`, and leaves
the tokens `ts'`; `FI c p ts ts' x` that it fails and does so.
-/
namespace SqlParse

/-- The state `s` has the tokens `ts` before it, and its positions are in the source that the issues are about. -/
structure AtI (c : Env) (is : List Issue) (s : St) (ts : List Tk) : Prop extends At c is s ts where
  binv : BInv s
  isrc : s.issueSrc = s.lx.src

/-- The program fails. -/
def Fails {α : Type} (p : Prog α) (s : St) (s' : St) : Prop := ∃ n, p.run n s = .err s'

/-- On the tokens `ts` the program succeeds with `a`, adds the mistakes `x`, leaves the tokens `ts'`. -/
def PI (c : Env) {α : Type} (p : Prog α) (ts : List Tk) (a : α) (ts' : List Tk) (x : List Mistake) : Prop :=
  ∀ is s, AtI c is s ts → ∃ s' y, Yields p s a s' ∧ AtI c (is ++ y) s' ts' ∧ Reports1 x y

/-- On the tokens `ts` the program fails, adds the mistakes `x`, leaves the tokens `ts'`. -/
def FI (c : Env) {α : Type} (p : Prog α) (ts : List Tk) (ts' : List Tk) (x : List Mistake) : Prop :=
  ∀ is s, AtI c is s ts → ∃ s' y, Fails p s s' ∧ AtI c (is ++ y) s' ts' ∧ Reports1 x y

theorem Reports1.nil : Reports1 [] [] := rfl
theorem Reports1.app {x x' : List Mistake} {y y' : List Issue} (h : Reports1 x y) (h' : Reports1 x' y') : Reports1 (x ++ x') (y ++ y') := by
  unfold Reports1 at *
  rw [List.map_append, List.map_append, h, h']

theorem AtI.same {c c' : Env} {is : List Issue} {s s' : St} {ts ts' : List Tk} (h : AtI c is s ts) {α : Type} {p : Prog α} {n : Nat} {o : Out α} (hr : p.run n s = o)
    {is' : List Issue} (hs' : At c' is' s' ts') (ho : (∃ a, o = .ok a s') ∨ o = .err s') : AtI c' is' s' ts' := by
  have hg := run_good n p s h.binv
  rw [hr] at hg
  have : BInv s' ∧ Mono s s' := by
    rcases ho with ⟨a, rfl⟩ | rfl <;> exact hg
  exact ⟨hs', this.1, by rw [this.2.isrc, this.2.src, h.isrc]⟩

section
variable {α β σ : Type} {c : Env} {ts ts1 ts2 tl r : List Tk} {t : Token} {sp : Span} {x x' : List Mistake}

theorem P.toI {p : Prog α} {a : α} (h : P c p ts a ts1) : PI c p ts a ts1 [] := by
  intro is s hs
  obtain ⟨s', h1, h2⟩ := h is s hs.toAt
  have h1c := h1
  obtain ⟨n, h1'⟩ := h1
  exact ⟨s', [], h1c, by rw [List.append_nil]; exact hs.same h1' h2 (.inl ⟨_, rfl⟩), .nil⟩

theorem PI.bind {p : Prog α} {f : α → Prog β} {a : α} {b : β} (h1 : PI c p ts a ts1 x) (h2 : PI c (f a) ts1 b ts2 x') : PI c (p >>= f) ts b ts2 (x ++ x') := by
  intro is s hs
  obtain ⟨s1, y1, g1, g2, g3⟩ := h1 is s hs
  obtain ⟨s2, y2, k1, k2, k3⟩ := h2 _ s1 g2
  exact ⟨s2, y1 ++ y2, g1.bind k1, by rw [← List.append_assoc]; exact k2, g3.app k3⟩

/-- First without mistakes. -/
theorem PI.pre {p : Prog α} {f : α → Prog β} {a : α} {b : β} (h1 : P c p ts a ts1) (h2 : PI c (f a) ts1 b ts2 x) : PI c (p >>= f) ts b ts2 x :=
  PI.bind h1.toI h2

/-- Then without mistakes. -/
theorem PI.post {p : Prog α} {f : α → Prog β} {a : α} {b : β} (h1 : PI c p ts a ts1 x) (h2 : P c (f a) ts1 b ts2) : PI c (p >>= f) ts b ts2 x := by
  have := PI.bind h1 h2.toI
  rwa [List.append_nil] at this

theorem fails_mono {p : Prog α} {s s' : St} {n n' : Nat} (h : p.run n s = .err s') (hn : n ≤ n') : p.run n' s = .err s' := by
  rcases run_le hn p s with h1 | h1
  · rw [h] at h1; cases h1
  · rw [← h1, h]

theorem Fails.bindL {p : Prog α} {f : α → Prog β} {s s1 : St} (h : Fails p s s1) : Fails (p >>= f) s s1 := by
  obtain ⟨n, h⟩ := h
  refine ⟨n, ?_⟩
  unfold Prog.run at *
  show runWith _ _ (Prog.bind p f) s = _
  conv => lhs; unfold runWith
  rw [h]

theorem Fails.bindR {p : Prog α} {f : α → Prog β} {s s1 s2 : St} {a : α} (h : Yields p s a s1) (h2 : Fails (f a) s1 s2) : Fails (p >>= f) s s2 := by
  obtain ⟨n1, h1⟩ := h
  obtain ⟨n2, h2⟩ := h2
  refine ⟨max n1 n2, ?_⟩
  have e1 := run_mono h1 (Nat.le_max_left n1 n2)
  have e2 := fails_mono h2 (Nat.le_max_right n1 n2)
  unfold Prog.run at *
  rw [runWith_bind e1, e2]

theorem Fails.tryP {p : Prog α} {s s1 : St} (h : Fails p s s1) : Yields (.tryP p) s none s1 := by
  obtain ⟨n, h⟩ := h
  refine ⟨n, ?_⟩
  unfold Prog.run at *
  conv => lhs; unfold runWith
  rw [h]

theorem FI.bindL {p : Prog α} {f : α → Prog β} (h : FI c p ts ts1 x) : FI c (p >>= f) ts ts1 x := by
  intro is s hs
  obtain ⟨s1, y, g1, g2, g3⟩ := h is s hs
  exact ⟨s1, y, g1.bindL, g2, g3⟩

theorem FI.pre {p : Prog α} {f : α → Prog β} {a : α} (h : P c p ts a ts1) (h2 : FI c (f a) ts1 ts2 x) : FI c (p >>= f) ts ts2 x := by
  intro is s hs
  obtain ⟨s1, y1, g1, g2, g3⟩ := h.toI is s hs
  obtain ⟨s2, y2, k1, k2, k3⟩ := h2 _ s1 g2
  exact ⟨s2, y1 ++ y2, .bindR g1 k1, by rw [← List.append_assoc]; exact k2, g3.app k3⟩

theorem FI.tryP {p : Prog α} (h : FI c p ts ts1 x) : PI c (.tryP p) ts none ts1 x := by
  intro is s hs
  obtain ⟨s1, y, g1, g2, g3⟩ := h is s hs
  exact ⟨s1, y, g1.tryP, g2, g3⟩

theorem PI.tryP {p : Prog α} {a : α} (h : PI c p ts a ts1 x) : PI c (.tryP p) ts (some a) ts1 x := by
  intro is s hs
  obtain ⟨s1, y, g1, g2, g3⟩ := h is s hs
  exact ⟨s1, y, g1.tryP, g2, g3⟩

theorem PI.call {f : Fn α} {a : α} (h : PI c (body f) ts a ts1 x) : PI c (.call f) ts a ts1 x := by
  intro is s hs
  obtain ⟨s1, y, g1, g2, g3⟩ := h is s hs
  exact ⟨s1, y, g1.call, g2, g3⟩

theorem PI.done {body : σ → Prog (Step σ β)} {z : σ} {b : β} (h : PI c (body z) ts (.done b) ts1 x) : PI c (.loop body z) ts b ts1 x := by
  intro is s hs
  obtain ⟨s1, y, g1, g2, g3⟩ := h is s hs
  exact ⟨s1, y, g1.done, g2, g3⟩

theorem PI.cont {body : σ → Prog (Step σ β)} {z z' : σ} {b : β} (h : PI c (body z) ts (.cont z') ts1 x) (hr : PI c (.loop body z') ts1 b ts2 x') :
    PI c (.loop body z) ts b ts2 (x ++ x') := by
  intro is s hs
  obtain ⟨s1, y1, g1, g2, g3⟩ := h is s hs
  obtain ⟨s2, y2, k1, k2, k3⟩ := hr _ s1 g2
  exact ⟨s2, y1 ++ y2, g1.cont k1, by rw [← List.append_assoc]; exact k2, g3.app k3⟩

/-- An Error at the current token. -/
theorem PI.err {m : Msg} : PI c (SqlParse.err m sp) ((t, sp) :: tl) () ((t, sp) :: tl) [(m, sp)] := by
  intro is s hs
  obtain ⟨tl', h1, h2⟩ := hs.cur
  injection h1 with h1 h3
  injection h1 with h4 h5
  have hb := hs.binv.tok.bounds
  obtain ⟨seg, hseg⟩ := slice_isSome hb.1 hb.2.1 hb.2.2.1
  have hr : (SqlParse.err m sp).run 0 s = .ok () { s with issues := s.issues ++ [⟨.error, m, sp, seg, []⟩] } := by
    unfold SqlParse.err Prog.run
    rw [runWith_op]
    show St.issue s _ _ _ _ = _
    unfold St.issue
    rw [h5, hs.isrc, hseg]
    rfl
  have hat : At c (is ++ [⟨.error, m, sp, seg, []⟩]) { s with issues := s.issues ++ [⟨.error, m, sp, seg, []⟩] } ((t, sp) :: tl) :=
    ⟨⟨hs.opts, hs.quiet, hs.delim, hs.permit, by rw [← hs.issues], hs.cur⟩, hs.num⟩
  exact ⟨_, _, ⟨0, hr⟩, hs.same hr hat (.inl ⟨_, rfl⟩), rfl⟩

theorem PI.expectedError {w : Wanted} : PI c (expectedError w) ((t, sp) :: tl) () ((t, sp) :: tl) [(.expected w, sp)] := PI.pre P.curS PI.err

theorem FI.throw : FI c (.throw : Prog α) ts ts [] := by
  intro is s hs
  exact ⟨s, [], ⟨0, by unfold Prog.run runWith; rfl⟩, by rw [List.append_nil]; exact hs, .nil⟩

theorem FI.bindR {p : Prog α} {f : α → Prog β} {a : α} (h : PI c p ts a ts1 x) (h2 : FI c (f a) ts1 ts2 x') : FI c (p >>= f) ts ts2 (x ++ x') := by
  intro is s hs
  obtain ⟨s1, y1, g1, g2, g3⟩ := h is s hs
  obtain ⟨s2, y2, k1, k2, k3⟩ := h2 _ s1 g2
  exact ⟨s2, y1 ++ y2, .bindR g1 k1, by rw [← List.append_assoc]; exact k2, g3.app k3⟩

theorem FI.call {f : Fn α} (h : FI c (body f) ts ts1 x) : FI c (.call f) ts ts1 x := by
  intro is s hs
  obtain ⟨s1, y, ⟨n, g1⟩, g2, g3⟩ := h is s hs
  refine ⟨s1, y, ⟨n + 1, ?_⟩, g2, g3⟩
  unfold Prog.run at *
  conv => lhs; unfold runWith
  unfold runFn
  exact g1

theorem FI.expected {w : Wanted} : FI c (expectedFailure w : Prog α) ((t, sp) :: tl) ((t, sp) :: tl) [(.expected w, sp)] := FI.bindR PI.expectedError FI.throw

theorem FI.errHere {m : String} : FI c (errHere m : Prog α) ((t, sp) :: tl) ((t, sp) :: tl) [(.plain m, sp)] := FI.pre P.curS (FI.bindR PI.err FI.throw)

/-! ### Skipping tokens -/

/-- The rounds of `recover`. -/
def recoverBody (success : Token → Bool) (br : List Token) : Prog (Step (List Token) Unit) := do
    let t ← curT
    if br.isEmpty && success t then return .done ()
    else if t = .eof then .throw
    else do
      let d ← Prog.op .delim
      if t = d then .throw
      else do
        next
        return .cont (
          if t = .lParen ∨ t = .lBracket ∨ t = .lBrace then t :: br
          else if t = .rBrace then popTo .lBrace br
          else if t = .rBracket then popTo .lBracket br
          else if t = .rParen then popTo .lParen br
          else br)

theorem p_skip1 {success : Token → Bool} {br br' : List Token} (hd : ∀ p, c.data.after p = none) (hs : Skippable c (t, sp)) (hq : br = [] → success t = false)
    (hb : br' = if t = .lParen ∨ t = .lBracket ∨ t = .lBrace then t :: br
          else if t = .rBrace then popTo .lBrace br
          else if t = .rBracket then popTo .lBracket br
          else if t = .rParen then popTo .lParen br
          else br) : P c (recoverBody success br) ((t, sp) :: tl) (.cont br') tl := by
  subst hb
  refine P.bind P.curT (p_iteF ?_ (p_iteF hs.eof (P.bind P.delim (p_iteF hs.delim (P.bind (P.nextA hs.eof hs.arg (hd _)) (P.ret _))))))
  cases br with
  | nil => simp [hq rfl]
  | cons _ _ => simp

theorem p_skip {success stop : Token → Bool} {junk : List Tk} (hd : ∀ p, c.data.after p = none) (h : Nested c stop junk) :
    ∀ {br : List Token} {r r' : List Tk}, (br = [] → ∀ t, stop t = false → success t = false) → P c (.loop (recoverBody success) br) r () r' →
      P c (.loop (recoverBody success) br) (junk ++ r) () r' := by
  induction h with
  | nil => intro br r r' _ h; exact h
  | @tok stop t sp ts hs hb hq h ih =>
    intro br r r' hst hr
    refine P.cont (p_skip1 hd hs (fun hbr => hst hbr t hq) ?_) (ih hst hr)
    simp only [Token.isBracket, Bool.or_eq_false_iff, decide_eq_false_iff_not] at hb
    obtain ⟨⟨⟨⟨⟨h1, h2⟩, h3⟩, h4⟩, h5⟩, h6⟩ := hb
    simp [h1, h2, h3, h4, h5, h6]
  | @group stop t u sp sp' ts ts' hb hs hs' hq h h' ih ih' =>
    intro br r r' hst hr
    refine P.cont (y := t :: br) (p_skip1 hd hs (fun hbr => hst hbr t hq) ?_) ?_
    · cases hb <;> simp
    · show P c _ ((ts ++ (u, sp') :: ts') ++ r) () r'
      rw [List.append_assoc]
      refine ih (br := t :: br) (by simp) ?_
      refine P.cont (y := br) (p_skip1 hd hs' (by simp) ?_) (ih' hst hr)
      cases hb <;> simp [popTo]

/-- `recover` goes through tokens in which the brackets match. -/
theorem p_recover {success : Token → Bool} {junk : List Tk} (hd : ∀ p, c.data.after p = none) (h : Nested c success junk) (hr : Next (fun t => success t = true) r) :
    P c (recover success) (junk ++ r) () r := by
  show P c (.loop (recoverBody success) []) (junk ++ r) () r
  refine p_skip hd h (fun _ _ h => h) ?_
  obtain ⟨t, sp, tl, rfl, hx⟩ := hr.elim
  exact P.done (P.bind P.curT (p_iteT (by simp [hx]) (P.ret _)))

/-! ### Lists with recovery -/

theorem endsItem_eq : Token.endsItem = isRParenComma := by
  funext t
  simp [Token.endsItem, isRParenComma, Bool.or_comm]

theorem f_recovered {name : String} {item : Prog α} {junk : List Tk} (hd : ∀ p, c.data.after p = none) (h : FI c item ts (junk ++ r) x)
    (hj : Nested c Token.endsItem junk) (hr : Next (fun t => t.endsItem = true) r) : PI c (recovered name isRParenComma item) ts none r x := by
  rw [endsItem_eq] at hj hr
  refine PI.post h.tryP (P.bind (a := ()) (P.bind (p_recover hd hj hr) ?_) (P.ret _))
  obtain ⟨t, sp, tl, rfl, hx⟩ := hr.elim
  exact P.bind P.curT (p_when_f (by simp [hx]))

theorem x_recovered {name : String} {item : Prog α} {a : α} {junk : List Tk} (hd : ∀ p, c.data.after p = none) (h : P c item ts a ((t, sp) :: (junk ++ r)))
    (hj : Nested c Token.endsItem ((t, sp) :: junk)) (hr : Next (fun t => t.endsItem = true) r) :
    PI c (recovered name isRParenComma item) ts (some a) r [(.expected name, sp)] := by
  have ht : t.endsItem = false := by cases hj <;> assumption
  rw [endsItem_eq] at hj hr ht
  refine PI.pre h.tryP (PI.post (a := ()) (PI.pre (p_when_no (e := c)) (PI.pre P.curT ?_)) (P.ret _))
  rw [show Prog.when (!isRParenComma t) (do SqlParse.expectedError name; recover isRParenComma) = (do SqlParse.expectedError name; recover isRParenComma) by
    simp [Prog.when, ht]]
  exact PI.post PI.expectedError (p_recover hd hj hr)

end

section
variable {e : Env} {ts ts1 ts2 tl r r1 : List Tk} {t : Token} {sp : Span} {x x' : List Mistake}

theorem f_type (ht : NoType e t) : FI e typeOf ((t, sp) :: tl) ((t, sp) :: tl) [(.expected "type", sp)] := by
  refine FI.pre P.curT ?_
  cases t with
  | ident v k =>
    obtain ⟨h1, h2, h3, hpg⟩ := ht v k rfl
    have hp : decide (e.opts.dialect = .postgreSQL) = false := by simp [hpg]
    have g1 := lookup_none h1
    have g2 := lookup_none h2
    simp only [plainTypes, widthTypes, List.mem_cons, List.not_mem_nil, or_false, forall_eq_or_imp, forall_eq] at g1 g2
    simp only [otherTypes, List.mem_cons, List.not_mem_nil, or_false, not_or] at h3
    obtain ⟨a1, a2, a3, a4, a5, a6, a7, a8⟩ := g1
    obtain ⟨b1, b2, b3, b4, b5, b6, b7, b8, b9, b10, b11, b12, b13, b14, b15, b16, b17, b18⟩ := g2
    obtain ⟨c1, c2, c3, c4, c5, c6, c7, c8, c9⟩ := h3
    simp only [Token.isKw, a1, a2, a3, a4, a5, a6, a7, a8, b1, b2, b3, b4, b5, b6, b7, b8, b9, b10, b11, b12, b13, b14, b15, b16,
      b17, b18, c1, c2, c3, c4, c5, c6, c7, c8, c9, decide_false, Bool.false_eq_true, if_false]
    refine FI.pre P.isPg ?_
    rw [hp]
    exact FI.expected
  | _ => exact FI.expected

theorem f_noName (ht : NoName t) : FI e createDefinition ((t, sp) :: tl) ((t, sp) :: tl) [(.expected "identifier", sp)] := by
  refine FI.pre P.curT ?_
  cases t with
  | ident v k => exact absurd rfl (ht v k)
  | _ => exact FI.expected

theorem f_noType {v : List Char} {k : Keyword} {sp' : Span} {i : Ast} (hi : Idn e ((.ident v k, sp') :: ts) i ((t, sp) :: tl)) (ht : NoType e t) :
    FI e createDefinition ((.ident v k, sp') :: ts) ((t, sp) :: tl) [(.expected "type", sp)] := by
  have hn : (Token.ident v k).isKw .CONSTRAINT = false := hi.notKw (k := .CONSTRAINT) (by decide)
  refine FI.pre P.curT ?_
  rw [if_neg (by simp [hn])]
  exact FI.pre (p_ident hi) (FI.bindL (FI.bindL (f_type ht)))

theorem pi_defn (hd : ∀ p, e.data.after p = none) {l : List Ast} (h : DefnE e ts l x r) :
    ∃ o : Option Ast, o.toList = l ∧ PI e (recovered "')' or ','" isRParenComma createDefinition) ts o r x := by
  cases h with
  | @right _ _ a h hr => exact ⟨some a, rfl, (p_recovered (p_defn h) (by rw [endsItem_eq] at hr; exact hr)).toI⟩
  | noName hj hr h ht => exact ⟨none, rfl, f_recovered hd (by rw [h]; exact f_noName ht) hj hr⟩
  | noType hi hj hr h ht =>
    refine ⟨none, rfl, f_recovered hd ?_ hj hr⟩
    rw [h] at hi ⊢
    exact f_noType hi ht
  | @extra _ _ _ a _ _ h hj hr => exact ⟨some a, rfl, x_recovered hd (p_defn h) hj hr⟩

theorem pi_recLoop {item : Prog Ast} {R : List Tk → List Ast → List Mistake → List Tk → Prop} {l : List Ast}
    (hR : ∀ {ts l x r}, R ts l x r → ∃ o : Option Ast, o.toList = l ∧ PI e (recovered "')' or ','" isRParenComma item) ts o r x) (h : ListE R ts l x r) :
    ∀ acc : List Ast, PI e (.loop (fun acc => do
    let r ← recovered "')' or ','" isRParenComma item
    let t ← curT
    if t = .rParen then return .done (acc ++ r.toList)
    else do
      let _ ← ctk .comma
      return .cont (acc ++ r.toList)) acc) ts (acc ++ l) r x := by
  induction h with
  | one h =>
    intro acc
    obtain ⟨o, rfl, hp⟩ := hR h
    exact PI.done (PI.post hp (P.bind P.curT (p_iteT rfl (P.ret _))))
  | @cons ts r1 r c l l' x x' h hl ih =>
    intro acc
    obtain ⟨o, rfl, hp⟩ := hR h
    have := ih (acc ++ o.toList)
    rw [List.append_assoc] at this
    exact PI.cont (PI.post hp (P.bind P.curT (p_iteF (by simp) (P.bind p_ctk_comma (P.ret _))))) this

/-! ### Options of a table -/

theorem f_tblOpt (ht : ∀ k ∈ tblOptWords, t.isKw k = false) (hs : Skippable e (t, sp)) :
    FI e tableOption ((t, sp) :: tl) ((t, sp) :: tl) [(.expected "table option or delimiter", sp)] := by
  refine FI.pre P.cur ?_
  dsimp only
  rw [if_neg (by simp [ht .ENGINE (by decide)]), if_neg (by simp [ht .DEFAULT (by decide)]), if_neg (by simp [ht .CHARSET (by decide)]),
    if_neg (by simp [ht .COLLATE (by decide)]), if_neg (by simp [ht .ROW_FORMAT (by decide)]), if_neg (by simp [ht .COMMENT (by decide)]),
    if_neg (by simp [ht .STRICT (by decide)])]
  refine FI.pre P.delim ?_
  rw [if_neg (by have := hs.eof; have := hs.delim; simp_all)]
  exact FI.expected

theorem pi_optsBefore {l : List Ast} (h : OptsBefore e ts l ((t, sp) :: tl)) (ht : ∀ k ∈ tblOptWords, t.isKw k = false) (hs : Skippable e (t, sp)) :
    ∀ acc, PI e (accFrom tableOption acc) ts (false, acc ++ l) ((t, sp) :: tl) [(.expected "table option or delimiter", sp)] := by
  generalize hq : (t, sp) :: tl = q at h
  induction h with
  | nil =>
    intro acc
    subst hq
    rw [List.append_nil]
    exact PI.done (PI.post (FI.tryP (FI.bindL (f_tblOpt ht hs))) (P.ret _))
  | @cons ts r1 r a l h hl ih =>
    intro acc
    have := ih hq (acc ++ [a])
    rw [List.append_assoc] at this
    exact PI.cont (z' := acc ++ [a]) (x := []) (P.toI (P.bind (a := some (.cont (acc ++ [a]))) (P.tryP (P.bind (p_tblOpt h) (P.ret _))) (P.ret _))) this

theorem pi_tblOpts (hd : ∀ p, e.data.after p = none) {l : List Ast} (h : TblOptsE e ts l x r) :
    PI e (recoveredAcc "delimiter" (fun t => decide (t = .eof) || decide (t = e.delim)) (accMany tableOption)) ts l r x := by
  cases h with
  | right h => exact (p_tblOpts h).toI
  | @extra junk _ _ t sp h ht hj hr =>
    have hs : Skippable e (t, sp) := by cases hj <;> assumption
    refine PI.post (pi_optsBefore h ht hs []) (P.bind (a := ()) (ts1 := r) (P.bind (p_recover hd (junk := (t, sp) :: junk) hj hr) ?_) (P.ret _))
    obtain ⟨t, sp, tl, rfl, hx⟩ := hr.elim
    exact P.bind P.curT (p_when_f (by simp [hx]))

theorem pi_table (hd : ∀ p, e.data.after p = none) {v : SAst} (h : TableE e ts v x r) : PI e parseCreate ts v r x := by
  cases h with
  | @mk t t' c s lp rp ts r1 r2 r3 r4 _ os ine q ds l x x' h ho h' hi hq hn hds hl =>
    refine PI.pre (P.ckw h) (PI.pre (p_crOpts ho) ?_)
    obtain ⟨v, rfl⟩ := isKw_iff h'
    refine PI.pre P.curT ?_
    rw [if_neg (by simp [Token.isKw]; decide), if_pos (by simp [Token.isKw])]
    refine PI.post (PI.pre (P.ckw h') (PI.pre (a := (ine, q)) (ts1 := (.lParen, lp) :: r3) (p_recoveredAcc (p_tableName hi hq) (by exact rfl)) ?_)) (P.ret _)
    refine PI.pre p_ctk_lParen (PI.bind (a := ds) (ts1 := (.rParen, rp) :: r4) ?_ (PI.pre p_ctk_rParen (PI.pre P.delim (PI.post (pi_tblOpts hd hl) (P.ret _)))))
    obtain ⟨t, sp, tl, rfl, hx⟩ := hn.elim
    refine PI.pre P.curT ?_
    rw [if_neg hx]
    exact pi_recLoop (fun h => pi_defn hd h) hds []

theorem TableE.first {v : SAst} (h : TableE e ts v x r) : Starts .CREATE ts := by
  cases h with
  | mk h => exact starts_of h

/-! ### INSERT -/

theorem f_ident (ht : NoIdent e t) : FI e ident ((t, sp) :: tl) ((t, sp) :: tl) [(.expected "identifier", sp)] := by
  refine FI.pre P.cur ?_
  cases t with
  | ident v k => exact absurd rfl (ht.1 v k)
  | doubleQuotedString v =>
    have hp : decide (e.opts.dialect = .postgreSQL) = false := by simp [ht.2 v rfl]
    refine FI.pre P.isPg ?_
    rw [hp]
    exact FI.expected
  | _ => exact FI.expected

theorem f_expr (ht : NoExpr t) : FI e expr ((t, sp) :: tl) ((t, sp) :: tl) [(.plain "Expected expression", sp)] := by
  refine FI.call (FI.pre (a := []) (ts1 := (t, sp) :: tl) (P.done ?_) FI.errHere)
  rcases ht with rfl | rfl
  all_goals
    refine P.bind P.curT ?_
    skipIfs
    exact P.bind P.listHack (by skipIfs; exact P.ret _)

/-- The rounds of `parenItems`. -/
def itemsFrom (item : Prog Ast) (acc : List Ast) : Prog (Bool × List Ast) := accLoop (fun acc => do
    let i ← item
    let m ← skips .comma
    return (if m then .cont (acc ++ [i]) else .done (acc ++ [i]))) acc

theorem p_itemsFrom {item : Prog Ast} {l : List Ast} (h : CommaL (P e item) ts l r) : ∀ acc, P e (itemsFrom item acc) ts (true, acc ++ l) r := by
  induction h with
  | one h hr =>
    intro acc
    exact p_accDone (P.bind h (P.bind (n_skips_no hr) (P.ret _)))
  | @cons ts r1 q a sp l h hl ih =>
    intro acc
    have := ih (acc ++ [a])
    rw [List.append_assoc] at this
    exact p_accCont (P.bind h (P.bind p_skips_comma (P.ret _))) this

theorem pi_itemsBefore {item : Prog Ast} {R : List Tk → Ast → List Tk → Prop} {l : List Ast} (hR : ∀ {ts a r}, R ts a r → P e item ts a r) (hf : FI e item r r x)
    (h : Before R ts l r) : ∀ acc, PI e (itemsFrom item acc) ts (false, acc ++ l) r x := by
  induction h with
  | nil =>
    intro acc
    rw [List.append_nil]
    exact PI.done (PI.post (FI.tryP (FI.bindL hf)) (P.ret _))
  | @cons ts r1 r a sp l h hl ih =>
    intro acc
    have := ih hf (acc ++ [a])
    rw [List.append_assoc] at this
    exact PI.cont (z' := acc ++ [a]) (x := []) (P.toI (P.bind (a := some (.cont (acc ++ [a]))) (P.tryP (P.bind (hR h) (P.bind p_skips_comma (P.ret _)))) (P.ret _))) this

theorem pi_parenItems (hd : ∀ p, e.data.after p = none) {item : Prog Ast} {R : List Tk → Ast → List Tk → Prop} {F : Token → Prop} {m : Msg} {l : List Ast}
    (hR : ∀ {ts a r}, R ts a r → P e item ts a r) (hF : ∀ {t sp tl}, F t → FI e item ((t, sp) :: tl) ((t, sp) :: tl) [(m, sp)])
    (h : ParenE e R F m ts l x r) : ∃ lp ts' rp, ts = (.lParen, lp) :: ts' ∧ PI e (parenItems item ")") ts' l ((.rParen, rp) :: r) x := by
  cases h with
  | right h =>
    cases h with
    | mk h => exact ⟨_, _, _, rfl, (p_parenItems (CommaL.map hR h)).toI⟩
  | @extra ts junk _ _ t lp rp sp h hj =>
    refine ⟨_, _, rp, rfl, ?_⟩
    have ht : isRParen t = false := by
      cases hj with
      | tok _ _ hq => exact hq
      | group _ _ _ hq => exact hq
    refine PI.pre (a := (true, l)) (p_itemsFrom (CommaL.map hR h) []) (PI.post (a := ()) (PI.pre (p_when_no (e := e)) (PI.pre P.curT ?_)) (P.ret _))
    rw [show Prog.when (!isRParen t) (do SqlParse.expectedError ")"; recover isRParen) = (do SqlParse.expectedError ")"; recover isRParen) by
      simp [Prog.when, ht]]
    exact PI.post PI.expectedError (p_recover hd (junk := (t, sp) :: junk) hj (by exact rfl))
  | @missing ts junk _ tl _ t lp rp sp h hj h' ht =>
    refine ⟨_, _, rp, rfl, ?_⟩
    refine PI.post (a := (false, l)) (pi_itemsBefore hR (by rw [h']; exact hF ht) h []) (P.bind (a := ()) (ts1 := (.rParen, rp) :: r) (P.bind (p_recover hd hj (by exact rfl)) ?_) (P.ret _))
    exact P.bind P.curT (p_when_f rfl)

theorem pi_cols (hd : ∀ p, e.data.after p = none) {l : List Ast} (h : ColsE e ts l x r) : PI e insertColumns ts l r x := by
  cases h with
  | none h => exact P.toI (P.bind (n_stk_no h) (P.ret _))
  | some h =>
    obtain ⟨lp, ts', rp, rfl, hp⟩ := pi_parenItems hd p_ident (fun h => f_ident h) h
    exact PI.pre (P.stk (by simp) (by simp [marker, Token.isKw])) (PI.post hp (P.bind p_ctk_rParen (P.ret _)))

theorem pi_row (hd : ∀ p, e.data.after p = none) {l : List Ast} (h : RowE e ts l x r) : PI e valuesRow ts l r x := by
  obtain ⟨lp, ts', rp, rfl, hp⟩ := pi_parenItems (item := expr) hd ex_p (fun h => f_expr h) h
  exact PI.pre p_ctk_lParen (PI.post hp (P.bind p_ctk_rParen (P.ret _)))

theorem pi_rows (hd : ∀ p, e.data.after p = none) {l : List (List Ast)} (h : RowsE e ts l x r) : PI e (commaList valuesRow) ts l r x := by
  suffices hg : ∀ acc : List (List Ast), PI e (.loop (fun acc => do
    let a ← valuesRow
    let m ← skips .comma
    return (if m then .cont (acc ++ [a]) else .done (acc ++ [a]))) acc) ts (acc ++ l) r x from hg []
  induction h with
  | one h hr =>
    intro acc
    exact PI.done (PI.post (pi_row hd h) (P.bind (n_skips_no hr) (P.ret _)))
  | @cons ts r1 r sp l ls x x' h hl ih =>
    intro acc
    have := ih (acc ++ [l])
    rw [List.append_assoc] at this
    exact PI.cont (PI.post (pi_row hd h) (P.bind p_skips_comma (P.ret _))) this

theorem insertFlags_ok {fl : List Ast} {K : Kind} (h : insertTypeWords.lookup t.kw = some K) (hf : Flags insertFlagWords ts fl r)
    (hr : t.isKw .REPLACE = true → ∀ f ∈ fl, ∀ s : Span, f ≠ nd% InsertReplaceFlag_HighPriority [s] ∧ f ≠ nd% InsertReplaceFlag_Ignore [s]) :
    P e (checkInsertFlags (decide ((Ast.node K [.span sp]).kind? = some .InsertReplaceType_Insert)) fl) r () r := by
  refine p_checkInsertFlags ?_
  intro hk f hff
  have hK : t.isKw .REPLACE = true := by
    have hm := lookup_mem h
    have hw := (lookup_isKw (by decide) h).1
    simp only [insertTypeWords, List.mem_cons, Prod.mk.injEq, List.not_mem_nil, or_false] at hm
    rcases hm with ⟨-, rfl⟩ | ⟨h1, -⟩
    · simp [Ast.kind?] at hk
    · rwa [h1] at hw
  obtain ⟨K', s, rfl⟩ := flags_mem hf f hff
  have hx := hr hK _ hff s
  constructor
  · intro hc
    simp only [Ast.kind?, Option.some.injEq] at hc
    subst hc
    exact hx.1 rfl
  · intro hc
    simp only [Ast.kind?, Option.some.injEq] at hc
    subst hc
    exact hx.2 rfl

theorem pi_ins (hd : ∀ p, e.data.after p = none) {v : SAst} (h : InsE e ts v x r) : ∃ a, v = ⟨a⟩ ∧ PI e parseInsertReplace ts a r x := by
  cases h with
  | @mk t t' sp s ts r1 r2 r3 r4 r5 r6 _ K fl cols into tb rows on ret x x' h hf hr hi ht hc hv hb ho hret =>
    refine ⟨_, rfl, PI.pre (p_consNode (by decide) h) (PI.pre (P.ret _) (PI.pre (p_flags (by decide) hf) (PI.pre (insertFlags_ok h hf hr)
      (PI.pre (p_optK hi) (PI.pre (p_qualifiedName ht) (PI.bind (pi_cols hd hc) (PI.post (a := (some (s, rows), none, none)) (ts1 := r5) ?_ (P.bind (p_insOn ho)
      (P.bind (p_returning hret) (P.ret _))))))))))⟩
    have hp := pi_rows hd hb
    rcases hv with h | h
    all_goals
      obtain ⟨v, rfl⟩ := isKw_iff h
      refine PI.pre P.curT ?_
      rw [if_neg (by simp [Token.isKw]; decide), if_pos (by simp [Token.isKw])]
      exact PI.pre (p_consKw h) (PI.post hp (P.ret _))

theorem InsE.first {v : SAst} (h : InsE e ts v x r) : Starts .INSERT ts ∨ Starts .REPLACE ts := by
  cases h with
  | mk h =>
    have hw := (lookup_isKw (by decide) h).1
    have hm := lookup_mem h
    simp only [insertTypeWords, List.mem_cons, Prod.mk.injEq, List.not_mem_nil, or_false] at hm
    rcases hm with ⟨h1, -⟩ | ⟨h1, -⟩
    · rw [h1] at hw; exact .inl (starts_of hw)
    · rw [h1] at hw; exact .inr (starts_of hw)

theorem pi_statement (hd : ∀ p, e.data.after p = none) {v : SAst} (h : StmE e ts v x r) : PI e (.call .statement) ts (some v) r x := by
  cases h with
  | table h =>
    have hp := pi_table hd h
    obtain ⟨w, s, tl, rfl⟩ := h.first
    exact PI.call (PI.pre P.curT (PI.pre P.permit (PI.post hp (P.ret _))))
  | insert h =>
    obtain ⟨a, rfl, hp⟩ := pi_ins hd h
    rcases h.first with ⟨w, s, tl, rfl⟩ | ⟨w, s, tl, rfl⟩
    · exact PI.call (PI.pre P.curT (PI.pre P.permit (PI.post hp (P.ret _))))
    · exact PI.call (PI.pre P.curT (PI.pre P.permit (PI.post hp (P.ret _))))

theorem pi_stm (hd : ∀ p, e.data.after p = none) {v : SAst} (h : StmX e ts v x r) : PI e (.call .statement) ts (some v) r x := by
  cases h with
  | right h => exact (stm_p h).toI
  | wrong h => exact pi_statement hd h

theorem pi_single (hd : ∀ p, e.data.after p = none) {v : Option SAst} (h : OneE e ts v x) : ∃ r, PI e singleStatement ts v r x := by
  cases h with
  | stmt h => exact ⟨_, PI.post (pi_stm hd h).tryP (P.bind P.curT (P.bind (p_when_no (e := e)) (P.ret _)))⟩
  | @extra _ tl v x t sp h ht =>
    refine ⟨(t, sp) :: tl, PI.bind (pi_stm hd h).tryP (PI.pre P.curT (PI.post (a := ()) ?_ (P.ret _)))⟩
    rw [show decide (t ≠ .eof) = true by simpa using ht]
    exact PI.expectedError
  | none h => exact ⟨_, PI.pre (P.tryP (p_noStmt (r := (_, _) :: _) h)) (PI.post PI.expectedError (P.ret _))⟩

/-! ### Scripts -/

theorem stmX_begins {is : List Issue} {s : St} {v : SAst}
    (hd : e.delim = .semiColon ∨ e.delim = .doubleDollar) (ha : At e is s ((t, sp) :: tl)) (h : StmX e ((t, sp) :: tl) v x r) :
    t ≠ e.delim ∧ t ≠ .eof ∧ t.isKw .DELIMITER = false := by
  cases h with
  | right h => exact stm_begins hd ha h
  | wrong h =>
    have : ∃ w k, t = .ident w k ∧ k ≠ .DELIMITER := by
      cases h with
      | table h => obtain ⟨w, s, tl, h⟩ := h.first; cases h; exact ⟨_, _, rfl, by decide⟩
      | insert h => rcases h.first with ⟨w, s, tl, h⟩ | ⟨w, s, tl, h⟩ <;> (cases h; exact ⟨_, _, rfl, by decide⟩)
    obtain ⟨w, k, rfl, hk⟩ := this
    exact ⟨by rcases hd with h | h <;> rw [h] <;> simp, by simp, by simpa [Token.isKw] using hk⟩

/-- One round of `skipToDelim`. -/
def toDelimBody (_ : Unit) : Prog (Step Unit Bool) := do
    next
    let t ← curT
    let d ← Prog.op .delim
    if t = d then return .done false
    else if t = .eof then return .done true
    else return .cont ()

theorem p_toDelim (hd : ∀ p, e.data.after p = none) {junk : List Tk} {s : Span} : ∀ {t sp}, (∀ q ∈ (t, sp) :: junk, Skippable e q) →
    P e skipToDelim ((t, sp) :: (junk ++ (e.delim, s) :: r)) false ((e.delim, s) :: r) := by
  induction junk with
  | nil =>
    intro t sp hj
    have h := hj (t, sp) (by simp)
    exact P.done (body := toDelimBody) (P.bind (P.nextA h.eof h.arg (hd _)) (P.bind P.curT (P.bind P.delim (p_iteT rfl (P.ret _)))))
  | cons q junk ih =>
    obtain ⟨t', sp'⟩ := q
    intro t sp hj
    have h := hj (t, sp) (by simp)
    have h' := hj (t', sp') (by simp)
    exact P.cont (body := toDelimBody) (y := ()) (P.bind (P.nextA h.eof h.arg (hd _)) (P.bind P.curT (P.bind P.delim (p_iteF h'.delim (p_iteF h'.eof (P.ret _))))))
      (ih fun q hq => hj q (List.mem_cons_of_mem _ hq))

theorem p_toDelimEof (hd : ∀ p, e.data.after p = none) (he : Token.eof ≠ e.delim) {junk : List Tk} {s : Span} : ∀ {t sp}, (∀ q ∈ (t, sp) :: junk, Skippable e q) →
    P e skipToDelim ((t, sp) :: (junk ++ [(.eof, s)])) true [(.eof, s)] := by
  induction junk with
  | nil =>
    intro t sp hj
    have h := hj (t, sp) (by simp)
    exact P.done (body := toDelimBody) (P.bind (P.nextA h.eof h.arg (hd _)) (P.bind P.curT (P.bind P.delim (p_iteF he (p_iteT rfl (P.ret _))))))
  | cons q junk ih =>
    obtain ⟨t', sp'⟩ := q
    intro t sp hj
    have h := hj (t, sp) (by simp)
    have h' := hj (t', sp') (by simp)
    exact P.cont (body := toDelimBody) (y := ()) (P.bind (P.nextA h.eof h.arg (hd _)) (P.bind P.curT (P.bind P.delim (p_iteF h'.delim (p_iteF h'.eof (P.ret _))))))
      (ih fun q hq => hj q (List.mem_cons_of_mem _ hq))

/-- At the end of the source there is nothing more. -/
theorem next_at_eof {is : List Issue} {st : St} {s : Span} (h : AtI e is st [(.eof, s)]) : ∃ st', st.next = .ok () st' ∧ st'.token = .eof ∧ st'.delim = e.delim ∧ st'.issues = is := by
  obtain ⟨tl, h1, h2⟩ := h.cur
  injection h1 with h1 h3
  injection h1 with h4 h5
  subst h3
  have hp : st.peeked = none := by
    cases hp : st.peeked with
    | none => rfl
    | some p =>
      have := (h.binv.peek p.1 p.2 hp).2.2.2
      rw [← h4] at this
      cases this
  obtain ⟨a, w, b, g1, g2, g3, g4, g5, -⟩ := h.binv.tok
  rw [← h4] at g4 g5
  have hw := g5.1 rfl
  subst hw
  obtain ⟨-, rfl⟩ := g4
  obtain ⟨⟨pre, k1, k2⟩, -⟩ := h.binv.lex
  have hpos := h.binv.pos
  have k3 : st.lx.rest = [] := by
    have : blen a = blen st.lx.src := by rw [g1]; simp
    have k4 : blen st.lx.src = blen pre + blen st.lx.rest := by rw [k1, blen_append]
    have : blen st.lx.rest = 0 := by simp only [blen_nil, Nat.add_zero] at g3; omega
    exact blen_eq_zero.1 this
  have hn : st.lx.nextToken st.checked = .ok .eof ⟨blen st.lx.src, blen st.lx.src⟩ { st.lx with pos := blen st.lx.src, rest := [] } := by
    simp [Lexer.nextToken, nextLoop, k3]
  unfold St.next
  rw [hp]
  dsimp only
  rw [hn]
  exact ⟨_, rfl, rfl, h.delim, h.issues⟩

/-- From `s` on the loop returns `l`, after what it has already, and adds Errors for the mistakes `x`. -/
def GoesI (is : List Issue) (s : St) (l : List SAst) (x : List Mistake) : Prop :=
  ∃ b s1, Yields skipDelims s b s1 ∧ ∀ acc, ∃ o s2 s' y, Yields (stepRest acc b) s1 o s2 ∧ s'.issues = is ++ y ∧ Reports1 x y ∧
    ((o = .done (acc ++ l) ∧ s2 = s') ∨ ∃ acc', o = .cont acc' ∧ Yields (.loop statementsStep acc') s2 (acc ++ l) s')

theorem GoesI.loop {is : List Issue} {s : St} {l : List SAst} (h : GoesI is s l x) (acc : List SAst) :
    ∃ s' y, Yields (.loop statementsStep acc) s (acc ++ l) s' ∧ s'.issues = is ++ y ∧ Reports1 x y := by
  obtain ⟨b, s1, h1, h2⟩ := h
  obtain ⟨o, s2, s', y, h3, h4, h5, ⟨rfl, rfl⟩ | ⟨acc', rfl, h6⟩⟩ := h2 acc
  · exact ⟨_, y, Yields.done (by rw [step_eq]; exact h1.bind h3), h4, h5⟩
  · exact ⟨_, y, Yields.cont (by rw [step_eq]; exact h1.bind h3) h6, h4, h5⟩

/-- A round that goes on. -/
theorem GoesI.round {is : List Issue} {s : St} {l l' : List SAst} (hn : t ≠ e.delim) (ha : AtI e is s ((t, sp) :: tl))
    (h : ∀ acc, PI e (stepRest acc (decide (t = .eof))) ((t, sp) :: tl) (.cont (acc ++ l)) r x)
    (ih : ∀ is s, AtI e is s r → GoesI is s l' x') : GoesI is s (l ++ l') (x ++ x') := by
  obtain ⟨s1, y1, h1, h2, h2'⟩ := (p_noDelims hn).toI is s ha
  cases y1 with
  | cons a b => cases h2'
  | nil =>
    rw [List.append_nil] at h2
    refine ⟨_, s1, h1, fun acc => ?_⟩
    obtain ⟨s2, y, h3, h4, h5⟩ := h acc is s1 h2
    obtain ⟨s4, y', h6, h7, h8⟩ := (ih _ s2 h4).loop (acc ++ l)
    exact ⟨_, s2, s4, y ++ y', h3, by rw [← List.append_assoc]; exact h7, h5.app h8, .inr ⟨_, rfl, by rw [← List.append_assoc]; exact h6⟩⟩

/-- The last round. -/
theorem GoesI.final {is : List Issue} {s : St} {l : List SAst} (hn : t ≠ e.delim) (ha : AtI e is s ((t, sp) :: tl))
    (h : ∀ acc is s, AtI e is s ((t, sp) :: tl) → ∃ s' y, Yields (stepRest acc (decide (t = .eof))) s (.done (acc ++ l)) s' ∧ s'.issues = is ++ y ∧ Reports1 x y) :
    GoesI is s l x := by
  obtain ⟨s1, y1, h1, h2, h2'⟩ := (p_noDelims hn).toI is s ha
  cases y1 with
  | cons a b => cases h2'
  | nil =>
    rw [List.append_nil] at h2
    refine ⟨_, s1, h1, fun acc => ?_⟩
    obtain ⟨s2, y, h3, h4, h5⟩ := h acc is s1 h2
    exact ⟨_, s2, s2, y, h3, h4, h5, .inl ⟨rfl, rfl⟩⟩

theorem pi_top (hd : ∀ p, e.data.after p = none) {v : SAst} (h : StmX e ts v x r) : PI e topStatement ts v r x :=
  PI.post (pi_stm hd h) (P.ret _)

theorem f_top (h : NoStmt e t) : FI e topStatement ((t, sp) :: tl) ((t, sp) :: tl) [(.expected "Statement", sp)] :=
  FI.pre (p_noStmt (by exact h)) FI.expected

theorem p_afterDelim (hd : ∀ p, e.data.after p = none) (hD : e.delim = .semiColon ∨ e.delim = .doubleDollar) {acc : List SAst} {s : Span} :
    P e (afterDelim acc false) ((e.delim, s) :: r) acc r := by
  have hne : e.delim ≠ .eof := by rcases hD with h | h <;> rw [h] <;> simp
  have hm : marker e.opts e.delim = false := by rcases hD with h | h <;> rw [h] <;> rfl
  exact P.bind P.delim (P.bind (P.tryP (P.ctk hne hm (hd _))) (P.ret _))

theorem pi_finish (hd : ∀ p, e.data.after p = none) (hD : e.delim = .semiColon ∨ e.delim = .doubleDollar) {acc : List SAst} {s : Span} {v : Option SAst}
    {junk : List Tk} (hv : ∀ w, v = some w → takesData w = false) (hj : ∀ q ∈ (t, sp) :: junk, Skippable e q) :
    PI e (finishStatement acc v) ((t, sp) :: (junk ++ (e.delim, s) :: r)) (.cont (acc ++ v.toList)) r (if v.isSome then [(.expected (.tok e.delim), sp)] else []) := by
  have h := hj (t, sp) (by simp)
  refine PI.pre P.curT (PI.pre P.delim ?_)
  refine PI.post (a := false) (ts1 := (e.delim, s) :: r) ?_ ?_
  · rw [if_pos (by simpa using h.delim)]
    refine PI.post (a := ()) (ts1 := (t, sp) :: (junk ++ (e.delim, s) :: r)) ?_ (p_toDelim hd hj)
    cases v with
    | none => exact (P.ret _).toI
    | some w => exact PI.expectedError
  · rw [if_neg (by simp)]
    refine P.bind (a := acc ++ v.toList) (ts1 := r) ?_ (P.ret _)
    cases v with
    | none => exact p_afterDelim hd hD
    | some w =>
      have := hv w rfl
      rw [takesData_eq] at this
      simp only [this]
      exact p_afterDelim hd hD

theorem pi_finishEof (hd : ∀ p, e.data.after p = none) (hD : e.delim = .semiColon ∨ e.delim = .doubleDollar) {acc : List SAst} {s : Span} {v : Option SAst}
    {junk : List Tk} (hj : ∀ q ∈ (t, sp) :: junk, Skippable e q) :
    PI e (finishStatement acc v) ((t, sp) :: (junk ++ [(.eof, s)])) (.done (acc ++ v.toList)) [(.eof, s)] (if v.isSome then [(.expected (.tok e.delim), sp)] else []) := by
  have h := hj (t, sp) (by simp)
  refine PI.pre P.curT (PI.pre P.delim ?_)
  refine PI.post (a := true) (ts1 := [(.eof, s)]) ?_ ?_
  · rw [if_pos (by simpa using h.delim)]
    refine PI.post (a := ()) (ts1 := (t, sp) :: (junk ++ [(.eof, s)])) ?_ (p_toDelimEof hd (by rcases hD with h | h <;> rw [h] <;> simp) hj)
    cases v with
    | none => exact (P.ret _).toI
    | some w => exact PI.expectedError
  · rw [if_pos rfl]
    exact P.ret _

/-- The program succeeds with `a` and adds the mistakes `x`; where it is then is not said. -/
def PIf (c : Env) {α : Type} (p : Prog α) (ts : List Tk) (a : α) (x : List Mistake) : Prop :=
  ∀ is s, AtI c is s ts → ∃ s' y, Yields p s a s' ∧ s'.issues = is ++ y ∧ Reports1 x y

theorem PI.toF {α : Type} {p : Prog α} {a : α} (h : PI e p ts a r x) : PIf e p ts a x := by
  intro is s hs
  obtain ⟨s1, y, h1, h2, h3⟩ := h is s hs
  exact ⟨s1, y, h1, h2.issues, h3⟩

theorem PIf.bind {α β : Type} {p : Prog α} {f : α → Prog β} {a : α} {b : β} (h1 : PI e p ts a r x) (h2 : PIf e (f a) r b x') : PIf e (p >>= f) ts b (x ++ x') := by
  intro is s hs
  obtain ⟨s1, y1, g1, g2, g3⟩ := h1 is s hs
  obtain ⟨s2, y2, k1, k2, k3⟩ := h2 _ s1 g2
  exact ⟨s2, y1 ++ y2, g1.bind k1, by rw [← List.append_assoc]; exact k2, g3.app k3⟩

theorem PIf.pre {α β : Type} {p : Prog α} {f : α → Prog β} {a : α} {b : β} (h1 : P e p ts a r) (h2 : PIf e (f a) r b x) : PIf e (p >>= f) ts b x :=
  PIf.bind h1.toI h2

theorem PIf.ret {α β : Type} {p : Prog α} {f : α → Prog β} {a : α} {b : β} (h1 : PIf e p ts a x) (h2 : f a = .ret b) : PIf e (p >>= f) ts b x := by
  intro is s hs
  obtain ⟨s1, y, g1, g2, g3⟩ := h1 is s hs
  exact ⟨s1, y, g1.bind (by rw [h2]; exact .ret _ _), g2, g3⟩

/-- Only the end is left. -/
theorem p_toDelim_atEof (hD : e.delim = .semiColon ∨ e.delim = .doubleDollar) {s : Span} : PIf e skipToDelim [(.eof, s)] true [] := by
  have hne : Token.eof ≠ e.delim := by rcases hD with h | h <;> rw [h] <;> simp
  intro is st ha
  obtain ⟨s2, k1, k2, k3, k4⟩ := next_at_eof ha
  refine ⟨s2, [], ?_, by rw [List.append_nil]; exact k4, .nil⟩
  refine Yields.done (body := toDelimBody) (Yields.bind (s1 := s2) (a := ()) (.op k1) ?_)
  refine Yields.bind (s1 := s2) (a := .eof) ?_ (Yields.bind (s1 := s2) (a := e.delim) (.op (by show Out.ok s2.delim s2 = _; rw [k3])) ?_)
  · exact Yields.bind (s1 := s2) (a := (s2.token, s2.span)) (.op rfl) (by rw [k2]; exact .ret _ _)
  · rw [if_neg hne, if_pos rfl]
    exact .ret _ _

theorem finish_atEof (hD : e.delim = .semiColon ∨ e.delim = .doubleDollar) {acc : List SAst} {s : Span} {v : SAst} :
    PIf e (finishStatement acc (some v)) [(.eof, s)] (.done (acc ++ [v])) [(.expected (.tok e.delim), s)] := by
  have hne : Token.eof ≠ e.delim := by rcases hD with h | h <;> rw [h] <;> simp
  refine PIf.pre P.curT (PIf.pre P.delim (PIf.ret (a := true) ?_ rfl))
  rw [if_pos hne]
  exact PIf.bind (a := ()) PI.expectedError (p_toDelim_atEof hD)

/-- The tokens of a statement are at least one. -/
theorem AtI.ne {is : List Issue} {s : St} (h : AtI e is s ts) : ∃ t sp tl, ts = (t, sp) :: tl := by
  obtain ⟨tl, h, -⟩ := h.cur
  exact ⟨_, _, _, h⟩

theorem scrE_goes {l : List SAst} (h : ScrE e ts l x) :
    (∀ p, e.data.after p = none) → (e.delim = .semiColon ∨ e.delim = .doubleDollar) → ∀ is s, AtI e is s ts → GoesI is s l x := by
  induction h with
  | @eof e sp =>
    intro hd hD is s ha
    have hne : Token.eof ≠ e.delim := by rcases hD with h | h <;> rw [h] <;> simp
    exact .final hne ha fun acc is s ha => ⟨s, [], by rw [List.append_nil]; exact .ret _ _, by rw [List.append_nil]; exact ha.issues, .nil⟩
  | @skip e sp ts l x h ih =>
    intro hd hD is s ha
    have hne : e.delim ≠ .eof := by rcases hD with h | h <;> rw [h] <;> simp
    have hm : marker e.opts e.delim = false := by rcases hD with h | h <;> rw [h] <;> rfl
    have hb : P e (do
        let t ← curT
        let d ← Prog.op .delim
        if t = d then do
          let _ ← consume
          return .cont ()
        else return .done (decide (t = .eof)) : Prog (Step Unit Bool)) ((e.delim, sp) :: ts) (.cont ()) ts :=
      P.bind P.curT (P.bind P.delim (p_iteT rfl (P.bind (P.consume hne hm (hd _)) (P.ret _))))
    obtain ⟨s0, y, g1, g2, g3⟩ := hb.toI is s ha
    cases y with
    | cons a b => cases g3
    | nil =>
      rw [List.append_nil] at g2
      obtain ⟨b, s1, h1, h2⟩ := ih hd hD is s0 g2
      exact ⟨b, s1, Yields.cont (y := ()) g1 h1, h2⟩
  | @delimiter e t d s s' ts l x h hd' hs ih =>
    intro hd hD is st ha
    have hne : t ≠ e.delim := by
      rintro rfl
      rcases hD with hD | hD <;> rw [hD] at h <;> cases h
    obtain ⟨s1, h1, h2⟩ := (p_noDelims hne) is st ha.toAt
    obtain ⟨n1, h1'⟩ := id h1
    have h2' := ha.same h1' h2 (.inl ⟨_, rfl⟩)
    obtain ⟨s2, h3, h4⟩ := (P.skw h (by decide)) is s1 h2
    obtain ⟨n3, h3'⟩ := id h3
    have h4' := h2'.same h3' h4 (.inl ⟨_, rfl⟩)
    have hdn : e.data s' = none := by
      have := hd (d, s')
      rcases hd' with rfl | rfl <;> simpa [Data.after] using this
    obtain ⟨s3, h5, h6⟩ := p_setDelimiter hd' hdn is s2 h4
    obtain ⟨n5, h5'⟩ := id h5
    have h6' := h4'.same h5' h6 (.inl ⟨_, rfl⟩)
    refine ⟨_, s1, h1, fun acc => ?_⟩
    obtain ⟨s4, y, h7, h8, h9⟩ := (ih hd hd' is s3 h6').loop acc
    refine ⟨.cont acc, s3, s4, y, ?_, h8, h9, .inr ⟨acc, rfl, h7⟩⟩
    unfold stepRest
    rw [if_neg (by have := isKw_ne_eof h; simpa using this)]
    exact Yields.bind h3 (Yields.bind h5 (.ret _ _))
  | @stmt e ts r s v l x x' h hc hs ih =>
    intro hd hD is st ha
    obtain ⟨t, sp, tl, rfl⟩ := ha.ne
    obtain ⟨hne, hne', hk⟩ := stmX_begins hD ha.toAt h
    refine .round (l := [v]) hne ha (fun acc => ?_) (ih hd hD)
    unfold stepRest
    rw [if_neg (by simpa using hne')]
    have hdn : e.data s = none := by
      have := hd (e.delim, s)
      rcases hD with hD | hD <;> rw [hD] at this <;> simpa [Data.after] using this
    exact PI.pre (P.skw_no hk) (PI.post (pi_top hd h).tryP (p_finish (acc := acc) (by rw [← takesData_eq]; exact hc) hD hdn))
  | @extra e ts r junk t' s sp' v l x x' h hj hc hs ih =>
    intro hd hD is st ha
    obtain ⟨t, sp, tl, rfl⟩ := ha.ne
    obtain ⟨hne, hne', hk⟩ := stmX_begins hD ha.toAt h
    rw [show x ++ ((.expected (.tok e.delim), sp') :: x') = (x ++ [(.expected (.tok e.delim), sp')]) ++ x' by simp]
    refine .round (l := [v]) hne ha (fun acc => ?_) (ih hd hD)
    unfold stepRest
    rw [if_neg (by simpa using hne')]
    exact PI.pre (P.skw_no hk) (PI.bind (pi_top hd h).tryP (pi_finish (v := some v) hd hD (fun w hw => by cases hw; exact hc) hj))
  | @last e ts junk s sp' t' v x h hj hh =>
    intro hd hD is st ha
    obtain ⟨t, sp, tl, rfl⟩ := ha.ne
    obtain ⟨hne, hne', hk⟩ := stmX_begins hD ha.toAt h
    refine .final hne ha (fun acc => ?_)
    unfold stepRest
    rw [if_neg (by simpa using hne')]
    refine PIf.pre (P.skw_no hk) (PIf.bind (pi_top hd h).tryP ?_)
    cases junk with
    | nil => cases hh; exact finish_atEof hD
    | cons q junk =>
      cases hh
      exact (pi_finishEof (v := some v) hd hD hj).toF
  | @none e r junk t s sp l x ht hk hj hs ih =>
    intro hd hD is st ha
    have hq := hj (t, sp) (by simp)
    refine .round (l := []) hq.delim ha (fun acc => ?_) (ih hd hD) (x := [(.expected "Statement", sp)])
    unfold stepRest
    rw [if_neg (by simpa using hq.eof)]
    exact PI.pre (P.skw_no hk) (PI.bind (x := [(.expected "Statement", sp)]) (x' := []) (f_top ht).tryP (pi_finish (v := none) hd hD (fun w hw => by cases hw) hj))
  | @noneLast e junk t s sp ht hk hj =>
    intro hd hD is st ha
    have hq := hj (t, sp) (by simp)
    refine .final hq.delim ha (fun acc => ?_) (x := [(.expected "Statement", sp)])
    unfold stepRest
    rw [if_neg (by simpa using hq.eof)]
    exact PIf.pre (P.skw_no hk) (PIf.bind (x := [(.expected "Statement", sp)]) (x' := []) (f_top ht).tryP (pi_finishEof (v := none) hd hD hj).toF)

end
end SqlParse
