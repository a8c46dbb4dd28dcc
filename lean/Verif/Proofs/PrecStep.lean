import Verif.Proofs.Prec
import Verif.Proofs.TermStmt
/-! One round of `parse_expression` is one item. -/
namespace SqlParse
variable {α β : Type} {R : ∀ α, Fn α → St → Out α} {n : Nat}

theorem errHere_run {m : String} {s s' : St} {a : α} : runWith R n (errHere m : Prog α) s ≠ .ok a s' := by
  intro h
  unfold errHere at h
  obtain ⟨_, _, -, h⟩ := bind_run h
  obtain ⟨_, _, -, h⟩ := bind_run h
  unfold runWith at h
  cases h

/-! ### What programs return -/

/-- Every result satisfies `Q`. -/
def Rets (Q : α → Prop) (p : Prog α) : Prop :=
  ∀ (R : ∀ α, Fn α → St → Out α) (n : Nat) (s : St) (a : α) (s' : St), runWith R n p s = .ok a s' → Q a

theorem rets_bind {Q : β → Prop} {p : Prog α} {f : α → Prog β} (h : ∀ a, Rets Q (f a)) : Rets Q (p >>= f) := by
  intro R n s b s' hr
  obtain ⟨a, s1, -, h2⟩ := bind_run hr
  exact h a R n s1 b s' h2

theorem rets_pure {Q : α → Prop} {a : α} (h : Q a) : Rets Q (pure a) := by
  intro R n s b s' hr
  cases hr
  exact h

theorem rets_ef {Q : α → Prop} {m : String} : Rets Q (expectedFailure m) := fun _ _ _ _ _ h => absurd h expectedFailure_run
theorem rets_eh {Q : α → Prop} {m : String} : Rets Q (errHere m) := fun _ _ _ _ _ h => absurd h errHere_run

/-- Not made by an operator. -/
def NotOp (a : Ast) : Prop := a.isOperation = false

macro "rets" : tactic =>
  `(tactic| repeat' (first | exact rets_ef | exact rets_eh | exact rets_pure rfl | refine rets_bind fun _ => ?_ | split))

theorem exprInterval_rets : Rets NotOp exprInterval := by unfold exprInterval; rets
theorem exprTimestampAdd_rets {sel : Prog Ast} : Rets NotOp (exprTimestampAdd sel) := by unfold exprTimestampAdd; rets
theorem exprTimestampDiff_rets {sel : Prog Ast} : Rets NotOp (exprTimestampDiff sel) := by unfold exprTimestampDiff; rets
theorem exprCast_rets {sel dt : Prog Ast} : Rets NotOp (exprCast sel dt) := by unfold exprCast; rets
theorem exprCount_rets {sel : Prog Ast} : Rets NotOp (exprCount sel) := by unfold exprCount; rets
theorem exprGroupConcat_rets {sel : Prog Ast} : Rets NotOp (exprGroupConcat sel) := by unfold exprGroupConcat; rets
theorem exprExtract_rets {sel : Prog Ast} : Rets NotOp (exprExtract sel) := by unfold exprExtract; rets
theorem parseFunction_rets {sel : Prog Ast} {t : Token} {sp : Span} : Rets NotOp (parseFunction sel t sp) := by
  unfold parseFunction; rets
theorem exprLeft_rets {sel : Prog Ast} : Rets NotOp (exprLeft sel) := by
  unfold exprLeft
  refine rets_bind fun _ => ?_
  refine rets_bind fun _ => parseFunction_rets
theorem exprWord_rets {sel : Prog Ast} : Rets NotOp (exprWord sel) := by
  unfold exprWord
  refine rets_bind fun _ => ?_
  refine rets_bind fun _ => ?_
  refine rets_bind fun _ => ?_
  split
  · exact parseFunction_rets
  · rets
theorem exprArg_rets : Rets NotOp exprArg := by unfold exprArg; rets
theorem exprListHack_rets : Rets NotOp exprListHack := by unfold exprListHack; rets
theorem exprDollar_rets {k : Nat} : Rets NotOp (exprDollar k) := by unfold exprDollar; rets
theorem exprExists_rets : Rets NotOp exprExists := by unfold exprExists; rets
theorem exprCase_rets : Rets NotOp exprCase := by unfold exprCase; rets
theorem exprVariable_rets : Rets NotOp exprVariable := by unfold exprVariable; rets
theorem string_rets : Rets NotOp string := by unfold string; rets

/-! ### The stack -/

/-- What the stack can be. -/
def StackOK (S : List TM) : Prop := Open S ∨ (Closed S ∧ ∀ p, TopRE p S)

/-- One round has read one item. -/
def ItemOK (inner : Bool) (S : List TM) (s : St) (st' : List RM) (s' : St) : Prop :=
  ∃ item S', st' = rms S' ∧ StackOK S' ∧ sitems S' = sitems S ++ [item] ∧
    ∀ l s'', Reads inner (topExpr st') s' l s'' → Reads inner (topExpr (rms S)) s (item :: l) s''

theorem Closed.top {S : List TM} (h : Closed S) : topExpr (rms S) = true := by
  obtain ⟨t, r, rfl, -⟩ := h
  rfl

theorem StackOK.closed {S : List TM} (h : StackOK S) (ht : topExpr (rms S) = true) : Closed S ∧ ∀ p, TopRE p S := by
  rcases h with h | h
  · rw [h.notExpr] at ht; cases ht
  · exact h

theorem StackOK.open {S : List TM} (h : StackOK S) (ht : topExpr (rms S) = false) : Open S := by
  rcases h with h | h
  · exact h
  · rw [h.1.top] at ht; cases ht

theorem reduce_top {p : Nat} {st st' : List RM} (h : reduce p st = .ok st') : topExpr st = true := by
  unfold reduce at h
  split at h
  · rfl
  · cases h

theorem shifted_run {r : Except String (List RM)} {x : Step (List RM) (List RM)} {s s' : St}
    (h : runWith R n (shifted r) s = .ok x s') : ∃ st', r = .ok st' ∧ x = .cont st' ∧ s' = s := by
  unfold shifted at h
  split at h
  · cases h; exact ⟨_, rfl, rfl, rfl⟩
  · exact absurd h errHere_run

theorem doBin_item {inner : Bool} {op : BinOp} {S : List TM} {s s' : St} {x : Step (List RM) (List RM)} (hS : StackOK S)
    (h : runWith R n (doBin op (rms S)) s = .ok x s') (ho : binTok inner s.token = some op) :
    ∃ st', x = .cont st' ∧ ItemOK inner S s st' s' := by
  obtain ⟨sp, s1, h1, h2⟩ := bind_run h
  obtain ⟨rfl, h1'⟩ := consume_ok h1
  obtain ⟨st', h3, rfl, rfl⟩ := shifted_run h2
  unfold shiftBinop at h3
  split at h3
  · next st1 h4 =>
    cases h3
    obtain ⟨hc, hr⟩ := hS.closed (reduce_top h4)
    obtain ⟨S1, g1, -, g3, g4⟩ := tshift_bin (sp := s.span) hc (hr op.priority)
    have g5 := reduce_rms g1
    rw [h4] at g5
    cases g5
    refine ⟨_, rfl, .bin op s.span, .bin op s.span :: S1, rfl, .inl g3, g4, ?_⟩
    intro l s'' hrd
    rw [hc.top]
    exact .bin ho h1' hrd
  · cases h3

theorem doUn_item {inner : Bool} {op : UnOp} {S : List TM} {s s' : St} {x : Step (List RM) (List RM)} (hS : StackOK S)
    (h : runWith R n (doUn op (rms S)) s = .ok x s') (ho : unTok inner s.token = some op) :
    ∃ st', x = .cont st' ∧ ItemOK inner S s st' s' := by
  obtain ⟨sp, s1, h1, h2⟩ := bind_run h
  obtain ⟨rfl, h1'⟩ := consume_ok h1
  obtain ⟨st', h3, rfl, rfl⟩ := shifted_run h2
  unfold shiftUnary at h3
  split at h3
  · cases h3
  · next ht =>
    cases h3
    have ht : topExpr (rms S) = false := by simpa using ht
    obtain ⟨-, g2, g3⟩ := tshift_un (op := op) (sp := s.span) (hS.open ht)
    refine ⟨_, rfl, .un op s.span, .un op s.span :: S, rfl, .inl g2, g3, ?_⟩
    intro l s'' hrd
    rw [ht]
    exact .un ho h1' hrd

theorem doExpr_item {inner : Bool} {p : Prog Ast} {S : List TM} {s s1 s' : St} {x : Step (List RM) (List RM)} (hS : StackOK S)
    (h : runWith R n (doExpr (rms S) p) s1 = .ok x s')
    (ho : ∀ e s2, runWith R n p s1 = .ok e s2 → s.token = .lParen ∨ e.isOperation = false)
    (hp : ∀ st', x = .cont st' → Passes s s') :
    ∃ st', x = .cont st' ∧ ItemOK inner S s st' s' := by
  obtain ⟨e, s2, h1, h2⟩ := bind_run h
  obtain ⟨st', h3, rfl, rfl⟩ := shifted_run h2
  unfold shiftExpr at h3
  split at h3
  · cases h3
  · next ht =>
    cases h3
    have ht : topExpr (rms S) = false := by simpa using ht
    obtain ⟨-, g2, g3⟩ := tshift_opd (e := e) (hS.open ht)
    refine ⟨_, rfl, .opd e, .expr (.leaf e) :: S, rfl, .inr ⟨g2, fun p o ho => by simp [PTree.rightEdge] at ho⟩, g3, ?_⟩
    intro l s'' hrd
    rw [ht]
    exact .opd ⟨ho e _ h1, hp _ rfl⟩ hrd

theorem doExpr_rets {inner : Bool} {p : Prog Ast} {S : List TM} {s s1 s' : St} {x : Step (List RM) (List RM)} (hS : StackOK S)
    (hp : ∀ st', x = .cont st' → Passes s s') (hq : Rets NotOp p) (h : runWith R n (doExpr (rms S) p) s1 = .ok x s') :
    ∃ st', x = .cont st' ∧ ItemOK inner S s st' s' :=
  doExpr_item hS h (fun _ _ he => .inr (hq _ _ _ _ _ he)) hp

theorem popLhs_run {m : String} {S : List TM} {s s' : St} {x : Ast × List RM} (hS : StackOK S) (h : runWith R n (popLhs m (rms S)) s = .ok x s') :
    s' = s ∧ Closed S ∧ ∃ t r, x = (t.ast, rms r) ∧ Open r ∧ t.WellPrec ∧ LE t r ∧ RE inPriority t ∧ Above inPriority r ∧
      sitems (.expr t :: r) = sitems S := by
  unfold popLhs at h
  split at h
  · next e r h4 =>
    cases h
    obtain ⟨hc, hr⟩ := hS.closed (reduce_top h4)
    obtain ⟨t, r', g1, g2, g3, g4, g5, g6, g7⟩ := treduce_ok hc (hr inPriority)
    have g8 := reduce_rms g1
    rw [h4] at g8
    cases g8
    exact ⟨rfl, hc, t, r', rfl, g2, g3, g4, g5, g6, g7⟩
  · exact absurd h errHere_run
  · exact absurd h errHere_run

theorem sameIss_moves {R : ∀ α, Fn α → St → Out α} {n : Nat} {k : Keyword} {s s' : St} {a : Span} (h : runWith R n (ckw k) s = .ok a s') :
    s.token.isKw k = true ∧ a = s.span ∧ Moves s s' := by
  refine ⟨(ckw_ok h).1, (ckw_ok h).2.1, ?_⟩
  change runWith R n (match s.token with
    | .ident v k' => if k' = k then (capsWarn v s.span >>= fun _ => consume) else expectedFailure (.kw k)
    | _ => expectedFailure (.kw k)) s = .ok a s' at h
  split at h
  · split at h
    · obtain ⟨u, s1, h1, h2⟩ := bind_run h
      exact ⟨s1, capsWarn_mayLog h1, (consume_ok h2).2⟩
    · exact absurd h expectedFailure_run
  · exact absurd h expectedFailure_run

/-- A postfix operator is put on the stack. -/
theorem post_item {inner : Bool} {S r : List TM} {t : PTree} {p : PostOp} {s s' : St} {st' : List RM} {e : Ast} (hc : Closed S)
    (g2 : Open r) (g3 : t.WellPrec) (g4 : LE t r) (g5 : RE inPriority t) (g6 : Above inPriority r)
    (g7 : sitems (.expr t :: r) = sitems S) (he : e = (PTree.post p t).ast) (h : shiftExpr e (rms r) = .ok st')
    (hrd : ∀ l s'', Reads inner true s' l s'' → Reads inner true s (.post p :: l) s'') : ItemOK inner S s st' s' := by
  subst he
  unfold shiftExpr at h
  rw [g2.notExpr] at h
  cases h
  refine ⟨.post p, .expr (.post p t) :: r, rfl, .inr ⟨⟨_, _, rfl, g2, ⟨g3, fun o ho => (level_le _ _).2 (g5 o ho)⟩, le_cons (o := .post) g4 g6 rfl⟩,
    fun p o ho => by simp [PTree.rightEdge] at ho⟩, ?_, ?_⟩
  · rw [← g7]; simp [sitems, PTree.inorder]
  · rw [hc.top]; exact hrd

theorem in_ast {t : PTree} {rhs : List Ast} {sp : Span} {neg : Bool} :
    (PTree.post (.isIn rhs sp neg) t).ast = nd% In [t.ast, rhs, sp, neg] := by
  have : toF rhs = Ast.list rhs := congrArg Ast.list (List.map_id rhs)
  rw [this]
  rfl

theorem exprIn_item {S : List TM} {s s' : St} {x : Step (List RM) (List RM)} (hS : StackOK S)
    (h : runWith R n (exprIn (rms S)) s = .ok x s') (hp : ∀ st', x = .cont st' → Passes s s') :
    ∃ st', x = .cont st' ∧ ItemOK false S s st' s' := by
  obtain ⟨y, s1, h1, h2⟩ := bind_run h
  obtain ⟨rfl, hc, t, r, rfl, g2, g3, g4, g5, g6, g7⟩ := popLhs_run hS h1
  obtain ⟨sp, s2, h3, h4⟩ := bind_run h2
  obtain ⟨k1, rfl, k3⟩ := sameIss_moves h3
  obtain ⟨rhs, s3, h5, h6⟩ := bind_run h4
  obtain ⟨st', h7, rfl, rfl⟩ := shifted_run h6
  exact ⟨st', rfl, post_item (p := .isIn rhs s1.span false) hc g2 g3 g4 g5 g6 g7 (by rw [in_ast]) h7 fun l s'' hrd => .isIn rfl k1 (hp _ rfl) hrd⟩

theorem exprIs_item {S : List TM} {s s' : St} {x : Step (List RM) (List RM)} (hS : StackOK S)
    (h : runWith R n (exprIs (rms S)) s = .ok x s') (hp : ∀ st', x = .cont st' → Passes s s') :
    ∃ st', x = .cont st' ∧ ItemOK false S s st' s' := by
  obtain ⟨y, s1, h1, h2⟩ := bind_run h
  obtain ⟨rfl, hc, t, r, rfl, g2, g3, g4, g5, g6, g7⟩ := popLhs_run hS h1
  obtain ⟨sp, s2, h3, h4⟩ := bind_run h2
  obtain ⟨k1, rfl, k3⟩ := sameIss_moves h3
  obtain ⟨⟨k, op⟩, s3, h5, h6⟩ := bind_run h4
  obtain ⟨st', h7, rfl, rfl⟩ := shifted_run h6
  exact ⟨st', rfl, post_item (p := .is k op) hc g2 g3 g4 g5 g6 g7 rfl h7 fun l s'' hrd => .is rfl k1 (hp _ rfl) hrd⟩

theorem exprNotIn_item {S : List TM} {s s' : St} {x : Step (List RM) (List RM)} (hS : StackOK S)
    (h : runWith R n (exprNotIn (rms S)) s = .ok x s') (hp : ∀ st', x = .cont st' → Passes s s') :
    ∃ st', x = .cont st' ∧ ItemOK false S s st' s' := by
  obtain ⟨y, s1, h1, h2⟩ := bind_run h
  obtain ⟨rfl, hc, t, r, rfl, g2, g3, g4, g5, g6, g7⟩ := popLhs_run hS h1
  obtain ⟨sp, s2, h3, h4⟩ := bind_run h2
  obtain ⟨k1, rfl, k3⟩ := sameIss_moves h3
  obtain ⟨t0, s3, h5, h6⟩ := bind_run h4
  cases h5
  split at h6
  · obtain ⟨sp, s4, h7, h8⟩ := bind_run h6
    obtain ⟨m1, rfl, m3⟩ := sameIss_moves h7
    obtain ⟨rhs, s5, -, h9⟩ := bind_run h8
    obtain ⟨st', h10, rfl, rfl⟩ := shifted_run h9
    exact ⟨st', rfl, post_item (p := .isIn rhs (joinSpan s2.span s1.span) true) hc g2 g3 g4 g5 g6 g7 (by rw [in_ast]) h10
      fun l s'' hrd => .notIn rfl k1 k3 m1 (hp _ rfl) hrd⟩
  · split at h6
    · next hl =>
      obtain ⟨sp, s4, h7, h8⟩ := bind_run h6
      obtain ⟨rfl, h7'⟩ := consume_ok h7
      obtain ⟨st', h10, rfl, rfl⟩ := shifted_run h8
      have hc' : Closed (.expr t :: r) := ⟨t, r, rfl, g2, g3, g4⟩
      obtain ⟨S1, e1, -, e3, e4⟩ := tshift_bin (op := .notLike) (sp := joinSpan s2.span s1.span) hc' g5
      have e5 : reduce BinOp.notLike.priority (.expr t.ast :: rms r) = .ok (rms S1) := reduce_rms e1
      unfold shiftBinop at h10
      rw [e5] at h10
      cases h10
      refine ⟨_, rfl, .bin .notLike (joinSpan s2.span s1.span), _ :: S1, rfl, .inl e3, by rw [e4, g7], ?_⟩
      intro l s'' hrd
      rw [hc.top]
      exact .notLike rfl k1 k3 hl h7' hrd
    · exact absurd h6 expectedFailure_run

/-! ### The round -/

theorem leftParen_looks {s s' : St} {b : Bool} (h : Op.run .leftParenAhead s = .ok b s') : Looks s s' := by
  simp only [Op.run] at h
  split at h
  · split at h
    · cases h; exact ⟨_, _, rfl⟩
    · split at h
      · cases h; exact ⟨_, _, rfl⟩
      · cases h
  · cases h; exact ⟨_, _, rfl⟩

/-- What one round does. -/
def RoundOK (inner : Bool) (S : List TM) (s : St) (x : Step (List RM) (List RM)) (s' : St) : Prop :=
  (∃ st', x = .cont st' ∧ ItemOK inner S s st' s') ∨ (x = .done (rms S) ∧ Looks s s')

theorem kw_tok {t : Token} {k : Keyword} (h : t.isKw k = true) : ∃ v, t = .ident v k := isKw_iff h

/-- Deal with a condition of the dispatch. -/
macro "tok" hc:ident : tactic => `(tactic| (
  simp only [Bool.and_eq_true, Bool.or_eq_true, Bool.not_eq_true', decide_eq_true_eq] at $hc:ident))

theorem bin_kw {k : Keyword} {op : BinOp} {s : St} (h : s.token.isKw k = true) (ho : binTok false (.ident [] k) = some op) :
    binTok false s.token = some op := by
  obtain ⟨v, hv⟩ := isKw_iff h
  rw [hv]
  exact ho

theorem bin_tok {t : Token} {op : BinOp} {s : St} (h : s.token = t) (ho : binTok false t = some op) :
    binTok false s.token = some op := by
  rw [h]; exact ho

theorem un_kw {inner : Bool} {k : Keyword} {op : UnOp} {s : St} (h : s.token.isKw k = true) (ho : unTok inner (.ident [] k) = some op) :
    unTok inner s.token = some op := by
  obtain ⟨v, hv⟩ := isKw_iff h
  rw [hv]
  exact ho

section
variable {inner : Bool} {op : BinOp} {S : List TM} {s s' : St} {x : Step (List RM) (List RM)} {k : Keyword} {t : Token}

theorem bin_or1 (hS : StackOK S) (h : runWith R n (doBin op (rms S)) s = .ok x s') (hc : s.token.isKw k = true ∧ inner = false)
    (h1 : binTok false (.ident [] k) = some op) : ∃ st', x = .cont st' ∧ ItemOK inner S s st' s' := by
  obtain ⟨hc, rfl⟩ := hc
  exact doBin_item hS h (bin_kw hc h1)

theorem bin_or2 (hS : StackOK S) (h : runWith R n (doBin op (rms S)) s = .ok x s') (hc : s.token = t ∧ inner = false)
    (h1 : binTok false t = some op) : ∃ st', x = .cont st' ∧ ItemOK inner S s st' s' := by
  obtain ⟨hc, rfl⟩ := hc
  exact doBin_item hS h (bin_tok hc h1)

theorem bin_or (hS : StackOK S) (h : runWith R n (doBin op (rms S)) s = .ok x s') (hc : (s.token.isKw k = true ∨ s.token = t) ∧ inner = false)
    (h1 : binTok false (.ident [] k) = some op) (h2 : binTok false t = some op) : ∃ st', x = .cont st' ∧ ItemOK inner S s st' s' := by
  obtain ⟨hc | hc, hi⟩ := hc
  · exact bin_or1 hS h ⟨hc, hi⟩ h1
  · exact bin_or2 hS h ⟨hc, hi⟩ h2
end

/-- Binary operator given by a token or keyword. -/
macro "dobin" hS:ident h:ident hc:ident : tactic => `(tactic| (
  simp only [Bool.and_eq_true, Bool.or_eq_true, Bool.not_eq_true', decide_eq_true_eq] at $hc:ident
  first
  | exact Or.inl (bin_or $hS $h $hc rfl rfl)
  | exact Or.inl (bin_or1 $hS $h $hc rfl)
  | exact Or.inl (bin_or2 $hS $h $hc rfl)
  | exact Or.inl (bin_or2 $hS $h ⟨($hc).1, ($hc).2.1⟩ rfl)))

theorem ite_run {c : Prop} [Decidable c] {p q : Prog α} {s : St} {o : Out α} (h : runWith R n (if c then p else q) s = o) :
    (c ∧ runWith R n p s = o) ∨ (¬ c ∧ runWith R n q s = o) := by
  by_cases hc : c
  · rw [if_pos hc] at h; exact .inl ⟨hc, h⟩
  · rw [if_neg hc] at h; exact .inr ⟨hc, h⟩

theorem exprStep_round {sel dt : Prog Ast} {inner : Bool} {S : List TM} {s s' : St} {x : Step (List RM) (List RM)} (hS : StackOK S)
    (h : runWith R n (exprStep sel dt inner (rms S)) s = .ok x s') (hp : ∀ st', x = .cont st' → Passes s s') :
    RoundOK inner S s x s' := by
  unfold exprStep at h
  replace h := bind_run h; obtain ⟨t, s1, h0, h⟩ := h
  cases h0
  replace h := ite_run h; rcases h with ⟨hc, h⟩ | ⟨-, h⟩
  · dobin hS h hc
  replace h := ite_run h; rcases h with ⟨hc, h⟩ | ⟨-, h⟩
  · dobin hS h hc
  replace h := ite_run h; rcases h with ⟨hc, h⟩ | ⟨-, h⟩
  · dobin hS h hc
  replace h := ite_run h; rcases h with ⟨hc, h⟩ | ⟨-, h⟩
  · dobin hS h hc
  replace h := ite_run h; rcases h with ⟨hc, h⟩ | ⟨-, h⟩
  · dobin hS h hc
  replace h := ite_run h; rcases h with ⟨hc, h⟩ | ⟨-, h⟩
  · dobin hS h hc
  replace h := ite_run h; rcases h with ⟨hc, h⟩ | ⟨-, h⟩
  · dobin hS h hc
  replace h := ite_run h; rcases h with ⟨hc, h⟩ | ⟨-, h⟩
  · dobin hS h hc
  replace h := ite_run h; rcases h with ⟨hc, h⟩ | ⟨-, h⟩
  · dobin hS h hc
  replace h := ite_run h; rcases h with ⟨hc, h⟩ | ⟨-, h⟩
  · dobin hS h hc
  replace h := ite_run h; rcases h with ⟨hc, h⟩ | ⟨-, h⟩
  · dobin hS h hc
  replace h := ite_run h; rcases h with ⟨hc, h⟩ | ⟨-, h⟩
  · dobin hS h hc
  replace h := ite_run h; rcases h with ⟨hc, h⟩ | ⟨-, h⟩
  · have hc : s.token = .ampersand := by simpa using hc
    exact .inl (doBin_item hS h (by rw [hc]; cases inner <;> rfl))
  replace h := ite_run h; rcases h with ⟨hc, h⟩ | ⟨-, h⟩
  · dobin hS h hc
  replace h := ite_run h; rcases h with ⟨hc, h⟩ | ⟨-, h⟩
  · tok hc
    obtain ⟨hc, rfl⟩ := hc
    exact .inl (doUn_item hS h (un_kw hc rfl))
  replace h := ite_run h; rcases h with ⟨hc, h⟩ | ⟨-, h⟩
  · tok hc
    obtain ⟨hc, rfl⟩ := hc
    exact .inl (doUn_item hS h (un_kw hc rfl))
  replace h := ite_run h; rcases h with ⟨hc, h⟩ | ⟨-, h⟩
  · tok hc
    obtain ⟨hc, rfl⟩ := hc
    exact .inl (doUn_item hS h (by rw [hc]; rfl))
  replace h := ite_run h; rcases h with ⟨hc, h⟩ | ⟨-, h⟩
  · tok hc
    exact .inl (doUn_item hS h (by rw [hc.1]; rfl))
  replace h := ite_run h; rcases h with ⟨hc, h⟩ | ⟨-, h⟩
  · dobin hS h hc
  replace h := ite_run h; rcases h with ⟨hc, h⟩ | ⟨-, h⟩
  · tok hc
    obtain ⟨hc, rfl⟩ := hc
    exact .inl (exprIn_item hS h hp)
  replace h := ite_run h; rcases h with ⟨hc, h⟩ | ⟨-, h⟩
  · tok hc
    obtain ⟨hc, rfl⟩ := hc
    exact .inl (exprIs_item hS h hp)
  replace h := ite_run h; rcases h with ⟨hc, h⟩ | ⟨-, h⟩
  · tok hc
    exact .inl (doUn_item hS h (un_kw hc.1 (by cases inner <;> rfl)))
  replace h := ite_run h; rcases h with ⟨hc, h⟩ | ⟨-, h⟩
  · tok hc
    obtain ⟨hc, rfl, -⟩ := hc
    exact .inl (exprNotIn_item hS h hp)
  replace h := ite_run h; rcases h with ⟨hc, h⟩ | ⟨-, h⟩
  · dobin hS h hc
  replace h := ite_run h; rcases h with ⟨-, h⟩ | ⟨-, h⟩
  · exact .inl (doExpr_rets hS hp exprInterval_rets h)
  replace h := ite_run h; rcases h with ⟨-, h⟩ | ⟨-, h⟩
  · exact .inl (doExpr_rets hS hp exprTimestampAdd_rets h)
  replace h := ite_run h; rcases h with ⟨-, h⟩ | ⟨-, h⟩
  · exact .inl (doExpr_rets hS hp exprTimestampDiff_rets h)
  replace h := ite_run h; rcases h with ⟨hc, h⟩ | ⟨-, h⟩
  · dobin hS h hc
  replace h := ite_run h; rcases h with ⟨hc, h⟩ | ⟨-, h⟩
  · dobin hS h hc
  replace h := ite_run h; rcases h with ⟨-, h⟩ | ⟨-, h⟩
  · exact .inl (doExpr_rets hS hp (by rets) h)
  replace h := ite_run h; rcases h with ⟨hc, h⟩ | ⟨-, h⟩
  · dobin hS h hc
  replace h := ite_run h; rcases h with ⟨-, h⟩ | ⟨-, h⟩
  · exact .inl (doExpr_rets hS hp (by rets) h)
  replace h := ite_run h; rcases h with ⟨-, h⟩ | ⟨-, h⟩
  · exact .inl (doExpr_rets hS hp (by rets) h)
  replace h := ite_run h; rcases h with ⟨-, h⟩ | ⟨-, h⟩
  · exact .inl (doExpr_rets hS hp (by rets) h)
  replace h := bind_run h; obtain ⟨lh, s1, h0, h⟩ := h
  cases h0
  replace h := ite_run h; rcases h with ⟨-, h⟩ | ⟨-, h⟩
  · exact .inl (doExpr_rets hS hp exprListHack_rets h)
  replace h := ite_run h; rcases h with ⟨-, h⟩ | ⟨-, h⟩
  · exact .inl (doExpr_rets hS hp string_rets h)
  split at h
  · exact .inl (doExpr_rets hS hp (by rets) h)
  · exact .inl (doExpr_rets hS hp (by rets) h)
  · replace h := bind_run h; obtain ⟨m, s1, h0, h⟩ := h
    cases h0
    split at h
    · exact .inl (doExpr_rets hS hp exprDollar_rets h)
    · cases h; exact .inr ⟨rfl, _, _, rfl⟩
  · replace h := bind_run h; obtain ⟨m, s1, h0, h⟩ := h
    cases h0
    split at h
    · exact .inl (doExpr_rets hS hp exprArg_rets h)
    · cases h; exact .inr ⟨rfl, _, _, rfl⟩
  · replace h := bind_run h; obtain ⟨m, s1, h0, h⟩ := h
    cases h0
    split at h
    · exact .inl (doExpr_rets hS hp exprArg_rets h)
    · cases h; exact .inr ⟨rfl, _, _, rfl⟩
  · next ht => exact .inl (doExpr_item hS h (fun _ _ _ => .inl ht) hp)
  · exact .inl (doExpr_rets hS hp exprVariable_rets h)
  · exact .inl (doExpr_rets hS hp exprVariable_rets h)
  · split at h
    · exact .inl (doExpr_rets hS hp exprCast_rets h)
    split at h
    · exact .inl (doExpr_rets hS hp exprCount_rets h)
    split at h
    · exact .inl (doExpr_rets hS hp exprGroupConcat_rets h)
    split at h
    · exact .inl (doExpr_rets hS hp exprExtract_rets h)
    replace h := bind_run h; obtain ⟨m, s1, h0, h⟩ := h
    have hl := leftParen_looks h0
    split at h
    · exact .inl (doExpr_rets hS hp exprLeft_rets h)
    split at h
    · exact .inl (doExpr_rets hS hp exprWord_rets h)
    split at h
    · exact .inl (doExpr_rets hS hp exprExists_rets h)
    split at h
    · exact .inl (doExpr_rets hS hp exprCase_rets h)
    · cases h; exact .inr ⟨rfl, hl⟩
  · cases h; exact .inr ⟨rfl, _, _, rfl⟩

/-! ### The loop -/

theorem mu_passes {s s' : St} (h : BInv s) (hm : mu s' < mu s) (hb : blen s'.lx.src = blen s.lx.src) : Passes s s' := by
  unfold mu at hm
  rw [hb] at hm
  refine ⟨?_, ?_⟩
  · intro ht
    have h3 := h.tok
    rw [ht] at h3
    have := eof_end h3
    simp [ht] at hm
    omega
  · by_cases ht : s'.token = .eof
    · exact .inr ht
    · left
      simp [ht] at hm
      split at hm <;> omega

/-- A round that goes on has read something. -/
theorem step_passes {inner : Bool} {st st' : List RM} {s s' : St} (hs : BInv s)
    (h : runWith (runFn n) n (exprStep parseSelect (parseDataType false) inner st) s = .ok (.cont st') s') : Passes s s' := by
  let N := max n (2 * mu s + 2)
  have hN : n ≤ N := Nat.le_max_left ..
  have hC : Calls (runFn N) N (mu s) := calls_of (Nat.le_max_right ..)
  have h1 := run_le hN (exprStep parseSelect (parseDataType false) inner st) s
  have h2 : runWith (runFn N) N (exprStep parseSelect (parseDataType false) inner st) s = .ok (.cont st') s' := by
    rcases h1 with h1 | h1
    · exact absurd (h1.symm.trans h) (by intro h; cases h)
    · exact h1.symm.trans h
  have h3 := exprStep_tm (m := false) (inner := inner) (st := st) (Tm.bot parseSelect_pr) (parseDataType_tm (P := Top) (b := false)) _ _ _ s hC hs trivial (by simp [Left])
  rw [h2] at h3
  have h4 := runWith_good (runFn_good n) n (exprStep parseSelect (parseDataType false) inner st) s hs
  rw [h] at h4
  exact mu_passes hs (h3 trivial) (by rw [h4.2.src])

theorem exprLoop_items {inner : Bool} {S : List TM} {s s' : St} {st : List RM} (hS : StackOK S) (hs : BInv s)
    (h : runWith (runFn n) n (.loop (exprStep parseSelect (parseDataType false) inner) (rms S)) s = .ok st s') :
    ∃ items S', st = rms S' ∧ StackOK S' ∧ sitems S' = sitems S ++ items ∧
      (topExpr st = true → Reads inner (topExpr (rms S)) s items s') := by
  replace h := loop_run h
  generalize hst : rms S = st0 at h
  induction h generalizing S with
  | @done x s b s' h =>
    subst hst
    rcases exprStep_round hS h (by intro _ h; cases h) with ⟨_, hx, -⟩ | ⟨hx, hl⟩
    · cases hx
    · cases hx
      exact ⟨[], S, rfl, hS, by simp, fun ht => by rw [ht]; exact .stop hl⟩
  | @cont x s y s1 b s' h _ ih =>
    subst hst
    have hp := step_passes hs h
    have hs1 := runWith_good (runFn_good n) n (exprStep parseSelect (parseDataType false) inner (rms S)) s hs
    rw [h] at hs1
    rcases exprStep_round hS h (fun _ _ => hp) with ⟨st', hx, item, S', rfl, h2, h3, h4⟩ | ⟨hx, -⟩
    · cases hx
      obtain ⟨items, S2, g1, g2, g3, g4⟩ := ih h2 hs1.1 rfl
      exact ⟨item :: items, S2, g1, g2, by rw [g3, h3]; simp, fun ht => h4 _ _ (g4 ht)⟩
    · cases hx

/-- `parse_expression`. -/
theorem expression_items {inner : Bool} {s s' : St} {e : Ast} (hs : BInv s)
    (h : (Prog.call (.expression inner)).run n s = .ok e s') :
    ∃ (items : List Item) (T : PTree), Reads inner false s items s' ∧ T.ast = e ∧ T.inorder = items ∧ T.WellPrec := by
  cases n with
  | zero => cases h
  | succ n =>
    change runWith (runFn n) n (parseExpression parseSelect (parseDataType false) inner) s = .ok e s' at h
    obtain ⟨st, s1, h1, h2⟩ := bind_run h
    obtain ⟨items, S, rfl, g2, g3, g4⟩ := exprLoop_items (S := []) (.inl .nil) hs h1
    split at h2
    · next e' hr =>
      cases h2
      have ht := reduce_top hr
      obtain ⟨hc, hre⟩ := g2.closed ht
      obtain ⟨t, r, k1, k2, k3, k4, k5, k6, k7⟩ := treduce_ok hc (hre 99999)
      have k8 := reduce_rms k1
      rw [hr] at k8
      cases r with
      | nil =>
        have k9 : e = t.ast := by
          have : Except.ok [RM.expr e] = (Except.ok [RM.expr t.ast] : Except String (List RM)) := k8
          simpa using this
        exact ⟨items, t, g4 ht, k9.symm, by simpa [sitems, g3] using k7, k3⟩
      | cons a r =>
        have : Except.ok [RM.expr e] = (Except.ok (.expr t.ast :: a.rm :: rms r) : Except String (List RM)) := k8
        simp at this
    · exact absurd h2 errHere_run
    · exact absurd h2 errHere_run

end SqlParse
