import Verif.Proofs.SoundQuery
import Verif.Proofs.StreamOps
/-! The converse direction of the grammar: expressions. -/
namespace SqlParse
set_option linter.unusedSectionVars false

section
variable {α β σ : Type} {n : Nat} [CallsS n] {c : Env} {ts r tl : List Tk} {t : Token} {sp : Span}

theorem exprOuterWith_d : D n c (exprOuterWith parseSelect) ts (Ou c ts) := by
  unfold exprOuterWith
  dw
  all_goals leaf

theorem exprParen_d : D n c exprParen ts (Pa c ts) := by
  unfold exprParen
  dw
  all_goals leaf

theorem timeUnit_d : D n c timeUnit ts (TimeUnit ts) := by
  unfold timeUnit
  refine d_curT fun t sp tl he => ?_
  subst he
  split
  · next u hu =>
    refine consume_db (solid_table hu rfl) (d_pure ?_)
    exact .mk (by rw [← tableFind_lookup]; exact hu)
  · exact d_errHere

theorem functionOf_d {v : List Char} {k : Keyword} :
    D n c (functionOf (.ident v k) sp) ts (fun f r => r = ts ∧ FunctionName v k f) := by
  unfold functionOf
  simp only
  split
  · next K hK =>
    refine d_pure ⟨rfl, ?_⟩
    rw [tableFind_lookup] at hK
    simp only [FunctionName, functionWords_eq, hK]
  · next hK =>
    rw [tableFind_lookup] at hK
    split
    · exact d_err
    · next hr => exact d_pure ⟨rfl, by simp only [FunctionName, functionWords_eq, hK]; simpa using hr⟩

/-- The call of a function after its name. -/
theorem parseFunction_d {v : List Char} {k : Keyword} (hn : nameWord c.opts v k ∨ k = .LEFT) :
    D n c (parseFunction parseSelect (.ident v k) sp) ts (fun a r => Od c ((.ident v k, sp) :: ts) a r) := by
  unfold parseFunction
  dw
  all_goals leaf

theorem intervalParts_d {acc : List Nat} {ws : List (List Char)} :
    D n c (intervalParts sp acc ws) ts (fun a r => r = ts ∧ ∃ l, a = acc ++ l ∧ ws.map parseI64 = l.map some) := by
  induction ws generalizing acc with
  | nil => exact d_ret ⟨rfl, [], by simp⟩
  | cons w ws ih =>
    unfold intervalParts
    split
    · next m hm =>
      refine ih.mono ?_
      rintro a r ⟨h1, l, h2, h3⟩
      exact ⟨h1, m :: l, by simp [h2], by simp [hm, h3]⟩
    · exact d_err

theorem intervalNumber_of {w : List Char} {k : Nat} (h : parseI64 w = some k) : IntervalNumber w k := by
  unfold parseI64 at h
  have key : ∀ ds : List Char, (w = ds ∨ w = '+' :: ds) →
      (if ds.isEmpty || !ds.all isDig || decide (i64Max < decVal ds) then none else some (decVal ds)) = some k → IntervalNumber w k := by
    intro ds hw h
    split at h
    · cases h
    · next hc =>
      simp only [Bool.or_eq_true, decide_eq_true_eq, not_or, Bool.not_eq_true', Bool.not_eq_false] at hc
      obtain ⟨⟨h1, h2⟩, h3⟩ := hc
      cases h
      refine ⟨ds, hw, ?_, ?_, rfl, ?_⟩
      · rintro rfl; simp at h1
      · intro ch hch
        have := List.all_eq_true.1 h2 ch hch
        simp [isDig] at this
        exact ⟨this.1, this.2⟩
      · simp [i64Max] at h3; omega
  split at h
  · exact key _ (.inr rfl) h
  · exact key _ (.inl rfl) h

/-- Splitting, from the left. -/
theorem splitBy_cases {p : Char → Bool} : ∀ v : List Char,
    ((∀ ch ∈ v, p ch = false) ∧ splitBy p v = [v]) ∨ ∃ w s v', v = w ++ s :: v' ∧ p s = true ∧ splitBy p v = w :: splitBy p v'
  | [] => .inl ⟨by simp, rfl⟩
  | ch :: v => by
    by_cases hp : p ch = true
    · exact .inr ⟨[], ch, v, rfl, hp, by simp [splitBy, hp]⟩
    · rcases splitBy_cases (p := p) v with ⟨h1, h2⟩ | ⟨w, s, v', h1, h2, h3⟩
      · exact .inl ⟨by simpa [hp] using h1, by simp [splitBy, hp, h2]⟩
      · exact .inr ⟨ch :: w, s, v', by simp [h1], h2, by simp [splitBy, hp, h3]⟩

theorem intervalText_of {v : List Char} {l : List Nat} (h : (splitBy isIntervalSep v).map parseI64 = l.map some) : IntervalText v l := by
  induction hl : v.length using Nat.strongRecOn generalizing v l with
  | ind m ih =>
    rcases splitBy_cases (p := isIntervalSep) v with ⟨h1, h2⟩ | ⟨w, s, v', h1, h2, h3⟩
    · rw [h2] at h
      cases l with
      | nil => simp at h
      | cons x l =>
        cases l with
        | nil => exact .one (intervalNumber_of (by simpa using h))
        | cons y l => simp at h
    · rw [h3] at h
      cases l with
      | nil => simp at h
      | cons x l =>
        simp only [List.map_cons, List.cons.injEq] at h
        subst h1
        refine .cons (intervalNumber_of h.1) ?_ (ih v'.length (by subst hl; simp; omega) h.2 rfl)
        simpa [isIntervalSep, or_assoc] using h2

theorem exprInterval_d (h : t.isKw .INTERVAL = true) : D n c exprInterval ((t, sp) :: tl) (Od c ((t, sp) :: tl)) := by
  unfold exprInterval intervalValue
  dw
  · next v _ hs _ hv _ _ hu => exact .intervalStr h (v := v.1) (sp' := v.2) hs (intervalText_of hv) hu
  · next v _ hs _ _ hu => exact .intervalInt h (n := v.1) (sp' := v.2) hs hu

theorem timestampArgs_d : D n c (timestampArgs parseSelect) ts (fun x r => ∃ u a b c1 r1 c2 r2, x = (u, a, b) ∧
    TimeUnit ts u ((.comma, c1) :: r1) ∧ Ou c r1 a ((.comma, c2) :: r2) ∧ Ou c r2 b r) := by
  unfold timestampArgs
  dw
  all_goals leaf

theorem exprTimestampAdd_d (h : t.isKw .TIMESTAMPADD = true) : D n c (exprTimestampAdd parseSelect) ((t, sp) :: tl) (Od c ((t, sp) :: tl)) := by
  unfold exprTimestampAdd
  dw
  all_goals leaf

theorem exprTimestampDiff_d (h : t.isKw .TIMESTAMPDIFF = true) : D n c (exprTimestampDiff parseSelect) ((t, sp) :: tl) (Od c ((t, sp) :: tl)) := by
  unfold exprTimestampDiff
  dw
  all_goals leaf

theorem castArgs_d : D n c (castArgs parseSelect (parseDataType false)) ts (fun x r => ∃ a s d t r1, x = (a, s, d) ∧
    Ou c ts a ((t, s) :: r1) ∧ t.isKw .AS = true ∧ DT c false r1 d r) := by
  unfold castArgs
  dw
  all_goals leaf

theorem exprCast_d : D n c (exprCast parseSelect (parseDataType false)) ts (Od c ts) := by
  unfold exprCast
  dw
  all_goals leaf

theorem exprCount_d : D n c (exprCount parseSelect) ts (Od c ts) := by
  unfold exprCount
  dw
  all_goals leaf

theorem exprGroupConcat_d : D n c (exprGroupConcat parseSelect) ts (Od c ts) := by
  unfold exprGroupConcat
  dw
  all_goals leaf

theorem extractArgs_d : D n c (extractArgs parseSelect) ts (fun x r => ∃ u s a t r1, x = (u, s, a) ∧
    TimeUnit ts u ((t, s) :: r1) ∧ t.isKw .FROM = true ∧ Ou c r1 a r) := by
  unfold extractArgs
  dw
  all_goals leaf

theorem exprExtract_d : D n c (exprExtract parseSelect) ts (Od c ts) := by
  unfold exprExtract
  dw
  all_goals leaf

theorem exprParens_d : D n c exprParens ts (Od c ts) := by
  unfold exprParens
  dw
  all_goals leaf

theorem exprExists_d : D n c exprExists ts (Od c ts) := by
  unfold exprExists
  dw
  all_goals leaf

theorem caseWhen_d : D n c caseWhen ts (fun a r => ∃ t t' w th ts' r1 x y, ts = (t, w) :: ts' ∧ t.isKw .WHEN = true ∧
    Ex c false ts' x ((t', th) :: r1) ∧ t'.isKw .THEN = true ∧ Ex c false r1 y r ∧ a = nd% When [w, x, th, y]) := by
  unfold caseWhen
  dw
  all_goals leaf

theorem caseBody_d : D n c caseBody ts (fun x r => x.1 = true ∧ ∃ r1, Whens c ts x.2.1 r1 ∧ OptKw .ELSE (Els c) r1 x.2.2 r) := by
  unfold caseBody
  refine d_bind (accLoop_d (I := fun acc r => ∀ l r', Whens c r l r' → Whens c ts (acc ++ l) r') (R := Whens c ts) (fun _ _ h => h) ?_) ?_
  · intro acc ts' hI
    dw
    next h1 h2 h3 t sp tl h4 =>
    cases hw : t.isKw .WHEN with
    | true =>
      simp only [if_true]
      intro l r' hl
      simpa using hI _ _ (.cons h1 h2 h3 h4 hl)
    | false =>
      simp only [Bool.false_eq_true, if_false]
      exact hI _ _ (.one h1 h2 h3 h4 hw)
  · rintro ⟨b, l⟩ r ⟨rfl, hw⟩
    dw
    all_goals dsimp only at *
    all_goals leaf

theorem exprCase_d : D n c exprCase ts (Od c ts) := by
  have hb : ∀ {ts m e}, D n c (recoveredAcc m e caseBody) ts (fun (x : List Ast × Option (Span × Ast)) r => (∃ r1, Whens c ts x.1 r1 ∧ OptKw .ELSE (Els c) r1 x.2 r) ∧ Next (fun t => e t = true) r) :=
    fun {ts m e} => recoveredAcc_d (R := fun (x : List Ast × Option (Span × Ast)) r => ∃ r1, Whens c ts x.1 r1 ∧ OptKw .ELSE (Els c) r1 x.2 r) caseBody_d
  unfold exprCase
  dw
  · refine d_bind hb ?_
    rintro ⟨l, el⟩ r ⟨⟨r1, h1, h2⟩, -⟩
    dw
    leaf
  · refine d_bind hb ?_
    rintro ⟨l, el⟩ r ⟨⟨r1, h1, h2⟩, -⟩
    dw
    leaf

theorem exprVariable_d : D n c exprVariable ts (Od c ts) := by
  unfold exprVariable
  refine d_bind (stk_d rfl) fun o r ho => ?_
  cases ho with
  | none h =>
    dw
    exact .sessionVar (by assumption)
  | some =>
    dw
    exact .globalVar (by assumption)

theorem identParts_d {a : Ast} : D n c (identParts a) ts (fun x r => ∃ l, x = a :: l ∧ Parts c ts l r) := by
  unfold identParts
  refine d_loop (I := fun acc r => ∃ m, acc = a :: m ∧ ∀ l r', Parts c r l r' → Parts c ts (m ++ l) r') ⟨[], rfl, fun _ _ h => h⟩ ?_
  rintro acc ts' ⟨m, rfl, hI⟩
  dw
  · next h _ => exact ⟨m, rfl, by simpa using hI _ _ (.nil h)⟩
  · exact ⟨_, rfl, fun l r' h => by simpa using hI _ _ (.star h)⟩
  · next hi => exact ⟨_, rfl, fun l r' h => by simpa using hI _ _ (.name hi h)⟩

theorem tokenToIdent_d {v : List Char} {k : Keyword} :
    D n c (tokenToIdent (.ident v k) sp) ts (fun a r => a = Ast.ident v sp ∧ r = ts ∧ k.reserved = false) := by
  unfold tokenToIdent
  simp only
  refine d_seq ?_
  split
  · exact d_err'
  · next hr =>
    have hr : k.reserved = false := by simpa using hr
    split
    · exact d_issueIf' (d_pure ⟨rfl, rfl, hr⟩)
    · exact d_ret (d_pure ⟨rfl, rfl, hr⟩)

theorem exprWord_d {v : List Char} {k : Keyword} (hn : nameWord c.opts v k) :
    D n c (exprWord parseSelect) ((.ident v k, sp) :: tl) (Od c ((.ident v k, sp) :: tl)) := by
  unfold exprWord
  dw
  · exact parseFunction_d (.inl hn)
  · next hp _ _ hf => exact .nullary (by rw [nullaryWords_eq, ← tableFind_lookup]; exact hf) hp
  · exact .name hn (by assumption) (by assumption) (by assumption)

theorem exprLeft_d {v : List Char} {k : Keyword} (hn : k = .LEFT) :
    D n c (exprLeft parseSelect) ((.ident v k, sp) :: tl) (Od c ((.ident v k, sp) :: tl)) := by
  unfold exprLeft
  dw
  exact parseFunction_d (.inr hn)

theorem inList_d : D n c inList ts (fun l r => ∃ lp ts' rp, ts = (.lParen, lp) :: ts' ∧ CommaL (Pa c) ts' l ((.rParen, rp) :: r)) := by
  unfold inList
  dw
  all_goals leaf

/-- The words after IS. -/
inductive IsW (op : Span) : List Tk → OAst × Span → List Tk → Prop where
  | is {t : Token} {sp : Span} {K : Kind} {r : List Tk} (h : isTable.lookup t.kw = some K) :
      IsW op ((t, sp) :: r) (⟨.node K []⟩, joinSpan sp op) r
  | isNot {n t : Token} {np sp : Span} {K : Kind} {r : List Tk} (hn : n.isKw .NOT = true) (h : isNotTable.lookup t.kw = some K) :
      IsW op ((n, np) :: (t, sp) :: r) (⟨.node K []⟩, joinSpan sp op) r

theorem isWord'_d {op : Span} : D n c (isWord' op) ts (IsW op ts) := by
  unfold isWord'
  dw
  all_goals leaf [lookup_kw]

/-! ### One round -/

/-- What one round of the loop of `parse_expression` has read. -/
def RoundD (c : Env) (inner : Bool) (S : List TM) (ts : List Tk) (x : Step (List RM) (List RM)) (r : List Tk) : Prop :=
  match x with
  | .cont st' => ∃ item S', st' = rms S' ∧ StackOK S' ∧ sitems S' = sitems S ++ [item] ∧
      ∀ l r', Its c inner (topExpr st') r l r' → Its c inner (topExpr (rms S)) ts (item :: l) r'
  | .done st' => st' = rms S ∧ r = ts ∧ (topExpr (rms S) = true → Stops c inner ts)

theorem shifted_d {x : Except String (List RM)} : D n c (shifted x) ts (fun y r => r = ts ∧ ∃ st, x = .ok st ∧ y = .cont st) := by
  unfold shifted
  split
  · exact d_pure ⟨rfl, _, rfl, rfl⟩
  · exact d_errHere

variable {inner : Bool} {S : List TM}

theorem solid_bin {op : BinOp} (h : binTok inner t = some op) : t.solid = true := by
  unfold binTok at h
  split at h
  · split at h
    · next h' => subst h'; rfl
    · cases h
  · split at h <;> first | rfl | cases h

theorem solid_un {op : UnOp} (h : unTok inner t = some op) : t.solid = true := by
  unfold unTok at h
  split at h <;> first | rfl | cases h

theorem doBin_d {op : BinOp} (hS : StackOK S) (ho : binTok inner t = some op) :
    D n c (doBin op (rms S)) ((t, sp) :: tl) (RoundD c inner S ((t, sp) :: tl)) := by
  unfold doBin
  refine consume_db (solid_bin ho) (shifted_d.mono ?_)
  rintro y r ⟨rfl, st, h, rfl⟩
  unfold shiftBinop at h
  split at h
  · next st1 h4 =>
    cases h
    obtain ⟨hc, hr⟩ := hS.closed (reduce_top h4)
    obtain ⟨S1, g1, -, g3, g4⟩ := tshift_bin (sp := sp) hc (hr op.priority)
    have g5 := reduce_rms g1
    rw [h4] at g5
    cases g5
    refine ⟨.bin op sp, .bin op sp :: S1, rfl, .inl g3, g4, ?_⟩
    intro l r' hl
    rw [hc.top]
    exact .bin ho hl
  · cases h

theorem doUn_d {op : UnOp} (hS : StackOK S) (ho : unTok inner t = some op) :
    D n c (doUn op (rms S)) ((t, sp) :: tl) (RoundD c inner S ((t, sp) :: tl)) := by
  unfold doUn
  refine consume_db (solid_un ho) (shifted_d.mono ?_)
  rintro y r ⟨rfl, st, h, rfl⟩
  unfold shiftUnary at h
  split at h
  · cases h
  · next ht =>
    cases h
    have ht : topExpr (rms S) = false := by simpa using ht
    obtain ⟨-, g2, g3⟩ := tshift_un (op := op) (sp := sp) (hS.open ht)
    refine ⟨.un op sp, .un op sp :: S, rfl, .inl g2, g3, ?_⟩
    intro l r' hl
    rw [ht]
    exact .un ho hl

theorem doExpr_d {p : Prog Ast} (hS : StackOK S) (hp : D n c p ts (Od c ts)) :
    D n c (doExpr (rms S) p) ts (RoundD c inner S ts) := by
  unfold doExpr
  refine d_bind hp fun e r he => shifted_d.mono ?_
  rintro y r ⟨rfl, st, h, rfl⟩
  unfold shiftExpr at h
  split at h
  · cases h
  · next ht =>
    cases h
    have ht : topExpr (rms S) = false := by simpa using ht
    obtain ⟨-, g2, g3⟩ := tshift_opd (e := e) (hS.open ht)
    refine ⟨.opd e, .expr (.leaf e) :: S, rfl, .inr ⟨g2, fun p o ho => by simp [PTree.rightEdge] at ho⟩, g3, ?_⟩
    intro l r' hl
    rw [ht]
    exact .opd he hl

theorem popLhs_d {m : String} (hS : StackOK S) : D n c (popLhs m (rms S)) ts (fun x r' => r' = ts ∧ Closed S ∧ ∃ t r, x = (t.ast, rms r) ∧ Open r ∧
    t.WellPrec ∧ LE t r ∧ RE inPriority t ∧ Above inPriority r ∧ sitems (.expr t :: r) = sitems S) := by
  unfold popLhs
  split
  · next e r h4 =>
    refine d_pure ⟨rfl, ?_⟩
    obtain ⟨hc, hr⟩ := hS.closed (reduce_top h4)
    obtain ⟨t, r', g1, g2, g3, g4, g5, g6, g7⟩ := treduce_ok hc (hr inPriority)
    have g8 := reduce_rms g1
    rw [h4] at g8
    cases g8
    exact ⟨hc, t, r', rfl, g2, g3, g4, g5, g6, g7⟩
  · exact d_errHere
  · exact d_errHere

/-- A postfix operator is put on the stack. -/
theorem post_d {rs : List TM} {T : PTree} {p : PostOp} {e : Ast} (hc : Closed S)
    (g2 : Open rs) (g3 : T.WellPrec) (g4 : LE T rs) (g5 : RE inPriority T) (g6 : Above inPriority rs)
    (g7 : sitems (.expr T :: rs) = sitems S) (he : e = (PTree.post p T).ast)
    (hi : ∀ l r', Its c inner true r l r' → Its c inner true ts (.post p :: l) r') :
    D n c (shifted (shiftExpr e (rms rs))) r (RoundD c inner S ts) := by
  refine shifted_d.mono ?_
  rintro y r ⟨rfl, st, h, rfl⟩
  subst he
  unfold shiftExpr at h
  rw [g2.notExpr] at h
  cases h
  refine ⟨.post p, .expr (.post p T) :: rs, rfl, .inr ⟨⟨_, _, rfl, g2, ⟨g3, fun o ho => (level_le _ _).2 (g5 o ho)⟩, le_cons (o := .post) g4 g6 rfl⟩,
    fun p o ho => by simp [PTree.rightEdge] at ho⟩, ?_, ?_⟩
  · rw [← g7]; simp [sitems, PTree.inorder]
  · rw [hc.top]; exact hi

theorem exprIn_d (hS : StackOK S) : D n c (exprIn (rms S)) ts (RoundD c false S ts) := by
  unfold exprIn
  refine d_bind (popLhs_d hS) ?_
  rintro _ r ⟨rfl, hc, T, rs, rfl, g2, g3, g4, g5, g6, g7⟩
  refine ckw_db fun t sp tl he hk => ?_
  subst he
  refine d_bind inList_d ?_
  rintro l r' ⟨lp, ts', rp, rfl, hl⟩
  refine post_d (p := .isIn l sp false) hc g2 g3 g4 g5 g6 g7 (by rw [in_ast]) ?_
  exact fun _ _ h => .isIn hk hl h

theorem exprIs_d (hS : StackOK S) : D n c (exprIs (rms S)) ts (RoundD c false S ts) := by
  unfold exprIs
  refine d_bind (popLhs_d hS) ?_
  rintro _ r ⟨rfl, hc, T, rs, rfl, g2, g3, g4, g5, g6, g7⟩
  refine ckw_db fun t sp tl he hk => ?_
  subst he
  refine d_bind isWord'_d ?_
  rintro ⟨k, op⟩ r' hw
  refine post_d (p := .is k op) hc g2 g3 g4 g5 g6 g7 rfl ?_
  intro _ _ h
  cases hw with
  | is h' => exact .is hk h' h
  | isNot hn h' => exact .isNot hk hn h' h

theorem exprNotIn_d (hS : StackOK S) : D n c (exprNotIn (rms S)) ts (RoundD c false S ts) := by
  unfold exprNotIn
  refine d_bind (popLhs_d hS) ?_
  rintro _ r ⟨rfl, hc, T, rs, rfl, g2, g3, g4, g5, g6, g7⟩
  refine ckw_db fun t sp tl he hk => ?_
  subst he
  refine d_curT fun t' sp' tl' he => ?_
  subst he
  refine d_ite (fun hi => ?_) fun _ => d_ite (fun hl => ?_) fun _ => d_expectedFailure
  · refine ckw_db fun t2 sp2 tl2 he hk2 => ?_
    cases he
    refine d_bind inList_d ?_
    rintro l r' ⟨lp, ts', rp, rfl, hl⟩
    refine post_d (p := .isIn l (joinSpan sp' sp) true) hc g2 g3 g4 g5 g6 g7 (by rw [in_ast]) ?_
    exact fun _ _ h => .notIn hk hi hl h
  · refine consume_db (solid_kw hl) (shifted_d.mono ?_)
    rintro y r ⟨rfl, st, h, rfl⟩
    have hc' : Closed (.expr T :: rs) := ⟨T, rs, rfl, g2, g3, g4⟩
    obtain ⟨S1, e1, -, e3, e4⟩ := tshift_bin (op := .notLike) (sp := joinSpan sp' sp) hc' g5
    have e5 : reduce BinOp.notLike.priority (.expr T.ast :: rms rs) = .ok (rms S1) := reduce_rms e1
    unfold shiftBinop at h
    rw [e5] at h
    cases h
    refine ⟨.bin .notLike (joinSpan sp' sp), _ :: S1, rfl, .inl e3, by rw [e4, g7], ?_⟩
    intro l s'' hrd
    rw [hc.top]
    exact .notLike hk hl hrd

theorem binTok_kw {k : Keyword} {op : BinOp} (h : t.isKw k = true) (hi : inner = false) (ho : binTok false (.ident [] k) = some op) :
    binTok inner t = some op := by
  subst hi
  obtain ⟨v, rfl⟩ := isKw_iff h
  exact ho

theorem unTok_kw {k : Keyword} {op : UnOp} (h : t.isKw k = true) (ho : unTok inner (.ident [] k) = some op) :
    unTok inner t = some op := by
  obtain ⟨v, rfl⟩ := isKw_iff h
  exact ho

set_option maxHeartbeats 1000000 in
theorem exprStep_d (hS : StackOK S) : D n c (exprStep parseSelect (parseDataType false) inner (rms S)) ts (RoundD c inner S ts) := by
  unfold exprStep
  refine d_curT fun t sp tl he => ?_
  subst he
  iterate 24
    refine d_ite ?_ ?_
    · intro hc
      simp only [Bool.and_eq_true, Bool.or_eq_true, Bool.not_eq_true', decide_eq_true_eq] at hc
      first
        | exact doBin_d hS (binTok_kw hc.1 hc.2 rfl)
        | exact doBin_d hS (by rw [hc.1, hc.2]; rfl)
        | exact doBin_d hS (by rw [hc]; cases inner <;> rfl)
        | exact doBin_d hS (hc.1.elim (fun h => binTok_kw h hc.2 rfl) fun h => by rw [h, hc.2]; rfl)
        | exact doUn_d hS (unTok_kw hc.1 (by rw [hc.2]; rfl))
        | exact doUn_d hS (by rw [hc.1, hc.2]; rfl)
        | exact doUn_d hS (by rw [hc.1]; rfl)
        | exact doUn_d hS (unTok_kw hc.1 rfl)
        | exact doBin_d hS (by rw [hc.1, hc.2.1]; rfl)
        | (obtain ⟨hc1, rfl⟩ := hc; exact exprIn_d hS)
        | (obtain ⟨hc1, rfl⟩ := hc; exact exprIs_d hS)
        | (obtain ⟨hc1, rfl, hc2⟩ := hc; exact exprNotIn_d hS)
    intro
  refine d_ite (fun h => doExpr_d hS (exprInterval_d h)) fun _ => ?_
  refine d_ite (fun h => doExpr_d hS (exprTimestampAdd_d h)) fun _ => ?_
  refine d_ite (fun h => doExpr_d hS (exprTimestampDiff_d h)) fun _ => ?_
  refine d_ite (fun h => ?_) fun _ => ?_
  · simp only [Bool.and_eq_true, Bool.not_eq_true', decide_eq_true_eq] at h
    exact doBin_d hS (by rw [h.1, h.2]; rfl)
  refine d_ite (fun h => ?_) fun _ => ?_
  · simp only [Bool.and_eq_true, Bool.not_eq_true', decide_eq_true_eq] at h
    exact doBin_d hS (by rw [h.1, h.2]; rfl)
  refine d_ite (fun h => ?_) fun _ => ?_
  · simp only [Bool.and_eq_true, Bool.not_eq_true', decide_eq_true_eq] at h
    refine doExpr_d hS (ctk_db (by decide) ?_)
    intro sp' tl' he
    cases he
    exact d_pure .star
  refine d_ite (fun h => ?_) fun _ => ?_
  · simp only [Bool.and_eq_true, Bool.not_eq_true', decide_eq_true_eq] at h
    exact doBin_d hS (by rw [h.1, h.2.1]; rfl)
  refine d_ite (fun h => doExpr_d hS (ckw_db ?_)) fun _ => ?_
  · intro t' sp' tl' he hk; cases he; exact d_pure (.true hk)
  refine d_ite (fun h => doExpr_d hS (ckw_db ?_)) fun _ => ?_
  · intro t' sp' tl' he hk; cases he; exact d_pure (.false hk)
  refine d_ite (fun h => doExpr_d hS (ckw_db ?_)) fun _ => ?_
  · intro t' sp' tl' he hk; cases he; exact d_pure (.null hk)
  have hsy : topExpr (rms S) = true → t ∈ opSyms → inner = true := by
    intro ht hm
    simp only [opSyms, List.mem_cons, List.not_mem_nil, or_false] at hm
    rcases hm with rfl | rfl | rfl | rfl | rfl | rfl | rfl | rfl | rfl | rfl | rfl | rfl | rfl | rfl | rfl | rfl | rfl <;> simp_all
  have hwd : topExpr (rms S) = true → ∀ k ∈ opWords, t.isKw k = true → inner = true := by
    intro ht k hm hk
    simp only [opWords, List.mem_cons, List.not_mem_nil, or_false] at hm
    rcases hm with rfl | rfl | rfl | rfl | rfl | rfl | rfl | rfl | rfl <;> simp_all
  have hex : ∀ k ∈ exprWords.take 6, t.isKw k = false := by
    intro k hm
    simp only [exprWords, List.take, List.mem_cons, List.not_mem_nil, or_false] at hm
    rcases hm with rfl | rfl | rfl | rfl | rfl | rfl <;> simp_all
  have hamp : t ≠ .ampersand := by
    intro h
    simp_all
  refine d_listHack ?_
  refine d_ite ?_ ?_
  · intro hc
    simp only [Bool.and_eq_true] at hc
    refine doExpr_d hS ?_
    unfold exprListHack
    refine d_cur fun t' sp' tl' he => ?_
    cases he
    obtain ⟨v, rfl⟩ := isKw_iff hc.1
    refine d_capsWarn ?_
    exact d_takeArg rfl (by simp [marker, Token.isKw, hc.2]) fun ha => d_pure (.list ha rfl)
  intro hlh
  refine d_ite (fun hc => doExpr_d hS (string_d.mono fun _ _ h => .str h)) fun hstr => ?_
  have hdone : (topExpr (rms S) = true → Stops c inner ((t, sp) :: tl)) →
      D n c (pure (Step.done (rms S)) : Prog (Step (List RM) (List RM))) ((t, sp) :: tl) (RoundD c inner S ((t, sp) :: tl)) :=
    fun h => d_pure ⟨rfl, rfl, h⟩
  split
  · exact doExpr_d hS (d_bind int_d fun _ _ h => d_pure (.integer h))
  · refine doExpr_d hS (d_bind float_d ?_)
    dw
    exact .float
  · refine d_arguments ?_
    refine d_ite (fun h => ?_) fun h => hdone fun _ => h
    refine doExpr_d hS ?_
    unfold exprDollar
    refine consume_db rfl (d_pure ?_)
    exact .dollar h
  · refine d_arguments ?_
    refine d_ite (fun h => ?_) fun h => hdone fun _ => h
    refine doExpr_d hS ?_
    unfold exprArg
    have hm : marker c.opts .questionMark = true := by simp [marker, h]
    exact d_takeArg rfl hm fun ha => d_pure (.arg ha rfl)
  · refine d_arguments ?_
    refine d_ite (fun h => ?_) fun h => hdone fun _ => h
    refine doExpr_d hS ?_
    unfold exprArg
    have hm : marker c.opts .percentS = true := by simp [marker, h]
    exact d_takeArg rfl hm fun ha => d_pure (.arg ha rfl)
  · exact doExpr_d hS exprParens_d
  · exact doExpr_d hS exprVariable_d
  · exact doExpr_d hS exprVariable_d
  · rename List Char => v
    rename Keyword => k
    refine d_ite (fun h => doExpr_d hS exprCast_d) fun h1 => ?_
    refine d_ite (fun h => doExpr_d hS exprCount_d) fun h2 => ?_
    refine d_ite (fun h => doExpr_d hS exprGroupConcat_d) fun h3 => ?_
    refine d_ite (fun h => doExpr_d hS exprExtract_d) fun h4 => ?_
    have hne : ∀ k' ∈ exprWords.take 6, k ≠ k' := by
      intro k' hm he
      have := hex k' hm
      simp [Token.isKw, he] at this
    have hin : k ∈ exprWords → k = .EXISTS ∨ k = .CASE := by
      intro hm
      simp only [exprWords, List.mem_cons, List.not_mem_nil, or_false] at hm
      rcases hm with h | h | h | h | h | h | h | h | h | h | h | h
      · exact absurd h (hne _ (by simp [exprWords]))
      · exact absurd h (hne _ (by simp [exprWords]))
      · exact absurd h (hne _ (by simp [exprWords]))
      · exact absurd h (hne _ (by simp [exprWords]))
      · exact absurd h (hne _ (by simp [exprWords]))
      · exact absurd h (hne _ (by simp [exprWords]))
      · exact absurd h h1
      · exact absurd h h2
      · exact absurd h h3
      · exact absurd h h4
      · exact .inl h
      · exact .inr h
    have hrest : (k = .LEFT → Next (· ≠ .lParen) tl) → D n c
        (if k.exprIdent = true then doExpr (rms S) (exprWord parseSelect)
         else if k = .EXISTS then doExpr (rms S) exprExists
         else if k = .CASE then doExpr (rms S) exprCase
         else pure (Step.done (rms S))) ((.ident v k, sp) :: tl) (RoundD c inner S ((.ident v k, sp) :: tl)) := by
      intro hl
      refine d_ite (fun h => doExpr_d hS (exprWord_d ⟨h, ?_, ?_, by simpa [marker, Token.isKw] using hlh⟩)) fun h5 => ?_
      · intro hm
        have : opWords.all (fun k => !k.exprIdent) = true := by decide +kernel
        have := List.all_eq_true.1 this k hm
        rw [h] at this
        cases this
      · intro hm
        rcases hin hm with rfl | rfl
        · exact absurd h (by decide +kernel)
        · exact absurd h (by decide +kernel)
      refine d_ite (fun h => doExpr_d hS exprExists_d) fun h6 => ?_
      refine d_ite (fun h => doExpr_d hS exprCase_d) fun h7 => ?_
      refine hdone fun ht => ⟨by simpa using h5, fun hm => (hin hm).elim h6 h7, fun hm => hwd ht k hm (by simp [Token.isKw]), hl⟩
    refine d_leftParenAhead ?_ ?_
    · rintro ⟨x, xs⟩ tl' rfl hL
      have hL : k = .LEFT := by simpa [Token.isKw] using hL
      refine d_ite (fun h => doExpr_d hS (exprLeft_d hL)) fun h => hrest fun _ => ?_
      simpa [Next] using h
    · intro hL
      have hL : k ≠ .LEFT := by simpa [Token.isKw] using hL
      exact d_ite (fun h => by cases h) fun h => hrest fun h => absurd h hL
  · refine hdone fun ht => ?_
    have := hsy ht
    clear hsy hwd hex hdone
    cases t <;> first
      | exact absurd rfl hamp
      | exact absurd rfl hstr
      | (refine Or.inl ?_; decide)
      | (refine Or.inr ⟨this ?_, ?_⟩ <;> decide)
      | simp_all

theorem parseExpression_d : D n c (parseExpression parseSelect (parseDataType false) inner) ts (Ex c inner ts) := by
  unfold parseExpression
  refine d_bind (R := fun st r => ∃ S, st = rms S ∧ StackOK S ∧ (topExpr st = true → Its c inner false ts (sitems S) r)) ?_ ?_
  · refine d_loop (I := fun st r => ∃ S, st = rms S ∧ StackOK S ∧ ∀ l r', Its c inner (topExpr st) r l r' → Its c inner false ts (sitems S ++ l) r')
      ⟨[], rfl, .inl .nil, fun _ _ h => h⟩ ?_
    rintro st ts' ⟨S, rfl, hS, hI⟩
    refine (exprStep_d hS).mono ?_
    rintro x r hx
    cases x with
    | cont st' =>
      obtain ⟨item, S', rfl, h1, h2, h3⟩ := hx
      refine ⟨S', rfl, h1, fun l r' hl => ?_⟩
      rw [h2, List.append_assoc]
      exact hI _ _ (h3 _ _ hl)
    | done st' =>
      obtain ⟨rfl, rfl, h⟩ := hx
      refine ⟨S, rfl, hS, fun ht => ?_⟩
      have := hI [] r
      rw [ht, List.append_nil] at this
      exact this (.stop (h ht))
  · rintro st r ⟨S, rfl, hS, hI⟩
    split
    · next e hr =>
      refine d_pure ?_
      have ht := reduce_top hr
      obtain ⟨hc, hre⟩ := hS.closed ht
      obtain ⟨t, r', k1, k2, k3, k4, k5, k6, k7⟩ := treduce_ok hc (hre 99999)
      have k8 := reduce_rms k1
      rw [hr] at k8
      cases r' with
      | nil =>
        have k9 : e = t.ast := by
          have : Except.ok [RM.expr e] = (Except.ok [RM.expr t.ast] : Except String (List RM)) := k8
          simpa using this
        subst k9
        have k7 : t.inorder = sitems S := by simpa [sitems] using k7
        have := hI ht
        rw [← k7] at this
        exact .mk this k3
      | cons a r' =>
        have : Except.ok [RM.expr e] = (Except.ok (.expr t.ast :: a.rm :: rms r') : Except String (List RM)) := k8
        simp at this
    · exact d_errHere
    · exact d_errHere

end
end SqlParse
