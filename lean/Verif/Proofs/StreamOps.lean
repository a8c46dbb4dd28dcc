import Verif.Proofs.StreamPhrases
import Verif.Proofs.PrecStep
/-! The operators of expressions, on streams of tokens. -/
namespace SqlParse

section
variable {α β σ : Type} {e : Env} {ts ts1 ts2 r r1 tl : List Tk} {t : Token} {sp : Span} {inner : Bool}

/-- One round of the loop of `parse_expression`. -/
abbrev round (inner : Bool) (st : List RM) : Prog (Step (List RM) (List RM)) := exprStep parseSelect (parseDataType false) inner st

/-- An operand is read in one round. -/
def POd (e : Env) (ts : List Tk) (a : Ast) (r : List Tk) : Prop :=
  ∀ inner st, topExpr st = false → P e (round inner st) ts (.cont (.expr a :: st)) r

theorem p_doExpr {p : Prog Ast} {a : Ast} {st : List RM} (ht : topExpr st = false) (h : P e p ts a r) :
    P e (doExpr st p) ts (.cont (.expr a :: st)) r := by
  refine P.bind h ?_
  unfold shiftExpr
  rw [ht]
  exact P.ret _

theorem p_doUn {op : UnOp} {st : List RM} (ht : topExpr st = false) (h : P e consume ts sp r) :
    P e (doUn op st) ts (.cont (.un op sp :: st)) r := by
  refine P.bind h ?_
  unfold shiftUnary
  rw [ht]
  exact P.ret _

theorem p_doBin {op : BinOp} {st st' : List RM} (ht : shiftBinop sp op st = .ok st') (h : P e consume ts sp r) :
    P e (doBin op st) ts (.cont st') r := by
  refine P.bind h ?_
  rw [ht]
  exact P.ret _

theorem p_consTk (ht : t ≠ .eof := by simp) (hm : marker e.opts t = false := by simp [marker, Token.isKw])
    (hd : e.data.after (t, sp) = none := by simp [Data.after]) : P e consume ((t, sp) :: tl) sp tl := P.consume ht hm hd

theorem p_un {op : UnOp} {st : List RM} (ho : unTok inner t = some op) (ht : topExpr st = false) :
    P e (round inner st) ((t, sp) :: tl) (.cont (.un op sp :: st)) tl := by
  unfold unTok at ho
  split at ho
  · cases ho
    refine P.bind P.curT ?_
    skipIfs
    refine p_iteT (by simp [ht]) ?_
    exact p_doUn ht p_consTk
  · cases inner with
    | true => cases ho
    | false =>
      cases ho
      refine P.bind P.curT ?_
      branch
      exact p_doUn ht p_consTk
  · next v k =>
    by_cases hk : k = .NOT
    · subst hk
      cases ho
      refine P.bind P.curT ?_
      skipIfs
      refine p_iteT (by simp [ht, Token.isKw]) ?_
      exact p_doUn ht (p_consKw kw_here)
    · rw [if_neg hk] at ho
      cases inner with
      | true => cases ho
      | false =>
        rw [if_neg (by simp)] at ho
        by_cases hb : k = .BINARY
        · subst hb
          cases ho
          refine P.bind P.curT ?_
          branch
          exact p_doUn ht (p_consKw kw_here)
        · rw [if_neg hb] at ho
          by_cases hc : k = .COLLATE
          · subst hc
            cases ho
            refine P.bind P.curT ?_
            branch
            exact p_doUn ht (p_consKw kw_here)
          · rw [if_neg hc] at ho; cases ho
  · cases ho

theorem p_bin {op : BinOp} {st st' : List RM} (ho : binTok inner t = some op) (ht : topExpr st = true) (hs : shiftBinop sp op st = .ok st') :
    P e (round inner st) ((t, sp) :: tl) (.cont st') tl := by
  unfold binTok at ho
  cases inner with
  | true =>
    simp only [if_true] at ho
    split at ho
    · next h =>
      subst h
      cases ho
      refine P.bind P.curT ?_
      branch
      exact p_doBin hs p_consTk
    · cases ho
  | false =>
    simp only [Bool.false_eq_true, if_false] at ho
    split at ho
    all_goals first
      | (cases ho; refine P.bind P.curT ?_; branch; exact p_doBin hs p_consTk)
      | skip
    · cases ho
      refine P.bind P.curT ?_
      skipIfs
      refine p_iteF (by simp [ht]) (p_iteT (by simp [ht]) ?_)
      exact p_doBin hs p_consTk
    · cases ho
      refine P.bind P.curT ?_
      skipIfs
      refine p_iteF (by simp [ht]) (p_iteT (by simp [ht]) ?_)
      exact p_doBin hs p_consTk
    · next v k =>
      by_cases h1 : k = .OR
      · subst h1; cases ho; refine P.bind P.curT ?_; branch; exact p_doBin hs (p_consKw kw_here)
      · rw [if_neg h1] at ho
        by_cases h1 : k = .XOR
        · subst h1; cases ho; refine P.bind P.curT ?_; branch; exact p_doBin hs (p_consKw kw_here)
        · rw [if_neg h1] at ho
          by_cases h1 : k = .AND
          · subst h1; cases ho; refine P.bind P.curT ?_; branch; exact p_doBin hs (p_consKw kw_here)
          · rw [if_neg h1] at ho
            by_cases h1 : k = .LIKE
            · subst h1; cases ho; refine P.bind P.curT ?_; branch; exact p_doBin hs (p_consKw kw_here)
            · rw [if_neg h1] at ho; cases ho
    · cases ho

/-- The rest of an expression: the items. -/
def PIts (e : Env) (inner after : Bool) (ts : List Tk) (l : List Item) (r : List Tk) : Prop :=
  ∀ st st', topExpr (rms st) = after → tshifts st l = some st' → P e (.loop (round inner) (rms st)) ts (rms st') r

theorem its_opd {a : Ast} {l : List Item} (h : POd e ts a r1) (hr : PIts e inner true r1 l r) : PIts e inner false ts (.opd a :: l) r := by
  intro st st' ht hs
  have hx : tshift st (.opd a) = some (.expr (.leaf a) :: st) := by
    cases st with
    | nil => rfl
    | cons m st => cases m <;> first | rfl | cases ht
  rw [tshifts, hx] at hs
  exact P.cont (h inner (rms st) ht) (hr (.expr (.leaf a) :: st) st' rfl hs)

theorem its_un {op : UnOp} {l : List Item} (ho : unTok inner t = some op) (hr : PIts e inner false ts l r) :
    PIts e inner false ((t, sp) :: ts) (.un op sp :: l) r := by
  intro st st' ht hs
  have hx : tshift st (.un op sp) = some (.un op sp :: st) := by
    cases st with
    | nil => rfl
    | cons m st => cases m <;> first | rfl | cases ht
  rw [tshifts, hx] at hs
  exact P.cont (p_un ho ht) (hr (.un op sp :: st) st' rfl hs)

theorem tshift_bin' {op : BinOp} {st st1 : List TM} (hx : tshift st (.bin op sp) = some st1) :
    shiftBinop sp op (rms st) = .ok (rms st1) ∧ topExpr (rms st1) = false := by
  simp only [tshift] at hx
  cases hr : treduce op.priority st with
  | none => rw [hr] at hx; cases hx
  | some st2 =>
    rw [hr] at hx
    cases hx
    unfold shiftBinop
    rw [reduce_rms hr]
    exact ⟨rfl, rfl⟩

theorem its_bin {op : BinOp} {l : List Item} (ho : binTok inner t = some op) (hr : PIts e inner false ts l r) :
    PIts e inner true ((t, sp) :: ts) (.bin op sp :: l) r := by
  intro st st' ht hs
  rw [tshifts] at hs
  cases hx : tshift st (.bin op sp) with
  | none => rw [hx] at hs; cases hs
  | some st1 =>
    rw [hx] at hs
    obtain ⟨h1, h2⟩ := tshift_bin' hx
    exact P.cont (p_bin ho ht h1) (hr st1 st' h2 hs)

theorem treduceLoop_top {p : Nat} {t : PTree} {st st' : List TM} (h : treduceLoop p t st = some st') :
    ∃ t' r, st' = .expr t' :: r ∧ topExpr (rms r) = false ∧ treduceLoop p t' r = some (.expr t' :: r) := by
  fun_induction treduceLoop p t st with
  | case1 => cases h; exact ⟨_, _, rfl, rfl, rfl⟩
  | case2 => cases h
  | case3 _ _ _ _ hp => cases h; exact ⟨_, _, rfl, rfl, by rw [treduceLoop, if_pos hp]⟩
  | case4 _ _ _ _ _ ih => exact ih h
  | case5 _ _ _ _ hp => cases h; exact ⟨_, _, rfl, rfl, by unfold treduceLoop; rw [if_pos hp]⟩
  | case6 _ _ _ _ _ _ ih => exact ih h
  | case7 => cases h

/-- Taking the left operand of a postfix operator. -/
theorem tshift_post' {p : PostOp} {st st1 : List TM} (hx : tshift st (.post p) = some st1) :
    ∃ t st2, st1 = .expr (.post p t) :: st2 ∧ topExpr (rms st2) = false ∧
      (∀ {m : String} {e : Env} {ts : List Tk}, P e (popLhs m (rms st)) ts (t.ast, rms st2) ts) ∧ treduce inPriority st = some (.expr t :: st2) := by
  simp only [tshift] at hx
  cases hr : treduce inPriority st with
  | none => rw [hr] at hx; cases hx
  | some st2 =>
    rw [hr] at hx
    have ht : ∃ t' r, st2 = .expr t' :: r ∧ topExpr (rms r) = false ∧ treduceLoop inPriority t' r = some (.expr t' :: r) := by
      unfold treduce at hr
      split at hr
      · exact treduceLoop_top hr
      · cases hr
    obtain ⟨t', r, rfl, h2, -⟩ := ht
    cases hx
    refine ⟨t', r, rfl, h2, ?_, rfl⟩
    intro e ts
    unfold popLhs
    rw [reduce_rms hr]
    exact P.ret _

theorem p_inList {l : List Ast} {lp rp : Span} (h : CommaL (P e exprParen) ts l ((.rParen, rp) :: r)) :
    P e inList ((.lParen, lp) :: ts) l r :=
  P.bind p_ctk_lParen (P.bind (p_recList h) (P.bind p_ctk_rParen (P.ret _)))

theorem p_shiftExpr {a : Ast} {st : List RM} (ht : topExpr st = false) : P e (shifted (shiftExpr a st)) ts (.cont (.expr a :: st)) ts := by
  unfold shiftExpr
  rw [ht]
  exact P.ret _

theorem in_shift {as : List Ast} {neg : Bool} {lhs : PTree} {st2 : List TM} (h2 : topExpr (rms st2) = false) :
    P e (shifted (shiftExpr (nd% In [lhs.ast, as, sp, neg]) (rms st2))) ts
      (.cont (rms (.expr (.post (.isIn as sp neg) lhs) :: st2))) ts := by
  rw [← in_ast]
  exact p_shiftExpr h2

theorem its_in {lp rp : Span} {as : List Ast} {l : List Item} (h : t.isKw .IN = true)
    (ha : CommaL (P e exprParen) ts as ((.rParen, rp) :: r1)) (hr : PIts e false true r1 l r) :
    PIts e false true ((t, sp) :: (.lParen, lp) :: ts) (.post (.isIn as sp false) :: l) r := by
  intro st st' ht hs
  rw [tshifts] at hs
  cases hx : tshift st (.post (.isIn as sp false)) with
  | none => rw [hx] at hs; cases hs
  | some st1 =>
    rw [hx] at hs
    obtain ⟨lhs, st2, rfl, h2, h3, -⟩ := tshift_post' hx
    refine P.cont ?_ (hr _ st' rfl hs)
    obtain ⟨v, rfl⟩ := isKw_iff h
    refine P.bind P.curT ?_
    branch
    exact P.bind h3 (P.bind (P.ckw h) (P.bind (p_inList ha) (in_shift h2)))

theorem its_notIn {t' : Token} {sp' lp rp : Span} {as : List Ast} {l : List Item} (h : t.isKw .NOT = true) (h' : t'.isKw .IN = true)
    (ha : CommaL (P e exprParen) ts as ((.rParen, rp) :: r1)) (hr : PIts e false true r1 l r) :
    PIts e false true ((t, sp) :: (t', sp') :: (.lParen, lp) :: ts) (.post (.isIn as (joinSpan sp' sp) true) :: l) r := by
  intro st st' ht hs
  rw [tshifts] at hs
  cases hx : tshift st (.post (.isIn as (joinSpan sp' sp) true)) with
  | none => rw [hx] at hs; cases hs
  | some st1 =>
    rw [hx] at hs
    obtain ⟨lhs, st2, rfl, h2, h3, -⟩ := tshift_post' hx
    refine P.cont ?_ (hr _ st' rfl hs)
    obtain ⟨v, rfl⟩ := isKw_iff h
    refine P.bind P.curT ?_
    skipIfs
    refine p_iteF (by simp [ht]) (p_iteT (by simp [ht, Token.isKw]) ?_)
    refine P.bind h3 (P.bind (P.ckw h) ?_)
    obtain ⟨v', rfl⟩ := isKw_iff h'
    refine P.bind P.curT ?_
    branch
    exact P.bind (P.ckw h') (P.bind (p_inList ha) (in_shift h2))

theorem its_notLike {t' : Token} {sp' : Span} {l : List Item} (h : t.isKw .NOT = true) (h' : t'.isKw .LIKE = true)
    (hr : PIts e false false ts l r) :
    PIts e false true ((t, sp) :: (t', sp') :: ts) (.bin .notLike (joinSpan sp' sp) :: l) r := by
  intro st st' ht hs
  rw [tshifts] at hs
  cases hx : tshift st (.bin .notLike (joinSpan sp' sp)) with
  | none => rw [hx] at hs; cases hs
  | some st1 =>
    rw [hx] at hs
    have hp : ∃ lhs st2, tshift st (.post (.is ⟨.node .Null []⟩ sp)) = some (.expr (.post (.is ⟨.node .Null []⟩ sp) lhs) :: st2) ∧ st1 = .bin .notLike (joinSpan sp' sp) :: .expr lhs :: st2 ∧ treduceLoop inPriority lhs st2 = some (.expr lhs :: st2) := by
      simp only [tshift] at hx ⊢
      have he : BinOp.notLike.priority = inPriority := rfl
      rw [he] at hx
      cases hq : treduce inPriority st with
      | none => rw [hq] at hx; cases hx
      | some st2 =>
        rw [hq] at hx
        have ht : ∃ t' r, st2 = .expr t' :: r ∧ topExpr (rms r) = false ∧ treduceLoop inPriority t' r = some (.expr t' :: r) := by
          unfold treduce at hq
          split at hq
          · exact treduceLoop_top hq
          · cases hq
        obtain ⟨t', r, rfl, h2, h5⟩ := ht
        cases hx
        exact ⟨_, _, rfl, rfl, h5⟩
    obtain ⟨lhs, st2, hx', rfl, h5⟩ := hp
    obtain ⟨lhs', st2', he, h2, h3, h4⟩ := tshift_post' hx'
    cases he
    refine P.cont ?_ (hr _ st' rfl hs)
    obtain ⟨v, rfl⟩ := isKw_iff h
    refine P.bind P.curT ?_
    skipIfs
    refine p_iteF (by simp [ht]) (p_iteT (by simp [ht, Token.isKw]) ?_)
    refine P.bind h3 (P.bind (P.ckw h) ?_)
    obtain ⟨v', rfl⟩ := isKw_iff h'
    refine P.bind P.curT ?_
    branch
    refine P.bind (p_consKw h') ?_
    have : shiftBinop (joinSpan sp' sp) .notLike (.expr lhs.ast :: rms st2) =
        .ok (.bin .notLike (joinSpan sp' sp) :: .expr lhs.ast :: rms st2) := by
      have hi : treduce inPriority (.expr lhs :: st2) = some (.expr lhs :: st2) := h5
      have := reduce_rms hi
      unfold shiftBinop
      show (match reduce inPriority (rms (.expr lhs :: st2)) with | .ok st' => _ | .error m => _) = _
      rw [this]
      rfl
    show P e (shifted (shiftBinop (joinSpan sp' sp) .notLike (.expr lhs.ast :: rms st2))) _ _ _
    rw [this]
    exact P.ret _

/-- The words after IS. -/
theorem p_isWord {K : Kind} {s : Span} (h : isTable.lookup t.kw = some K) :
    P e (isWord' s) ((t, sp) :: ts) (⟨.node K []⟩, joinSpan sp s) ts := by
  have hm := lookup_mem h
  have hk := (lookup_isKw (by decide) h).1
  simp only [isTable, List.mem_cons, Prod.mk.injEq, List.not_mem_nil, or_false] at hm
  rcases hm with ⟨h1, rfl⟩ | ⟨h1, rfl⟩ | ⟨h1, rfl⟩ | ⟨h1, rfl⟩ <;>
  · rw [h1] at hk
    obtain ⟨v, rfl⟩ := isKw_iff hk
    refine P.bind P.curT ?_
    branch
    exact P.bind (p_consKw hk) (P.ret _)

theorem p_isNotWord {n : Token} {np : Span} {K : Kind} {s : Span} (hn : n.isKw .NOT = true) (h : isNotTable.lookup t.kw = some K) :
    P e (isWord' s) ((n, np) :: (t, sp) :: ts) (⟨.node K []⟩, joinSpan sp s) ts := by
  have hm := lookup_mem h
  have hk := (lookup_isKw (by decide) h).1
  obtain ⟨v, rfl⟩ := isKw_iff hn
  refine P.bind P.curT ?_
  branch
  refine P.bind (p_consKw hn) ?_
  simp only [isNotTable, List.mem_cons, Prod.mk.injEq, List.not_mem_nil, or_false] at hm
  rcases hm with ⟨h1, rfl⟩ | ⟨h1, rfl⟩ | ⟨h1, rfl⟩ | ⟨h1, rfl⟩ <;>
  · rw [h1] at hk
    obtain ⟨v, rfl⟩ := isKw_iff hk
    refine P.bind P.curT ?_
    branch
    exact P.bind (p_consKw hk) (P.ret _)

theorem its_isP {k : OAst} {s : Span} {l : List Item} (h : t.isKw .IS = true) (hw : P e (isWord' sp) ts (k, s) r1)
    (hr : PIts e false true r1 l r) : PIts e false true ((t, sp) :: ts) (.post (.is k s) :: l) r := by
  intro st st' ht hs
  rw [tshifts] at hs
  cases hx : tshift st (.post (.is k s)) with
  | none => rw [hx] at hs; cases hs
  | some st1 =>
    rw [hx] at hs
    obtain ⟨lhs, st2, rfl, h2, h3, -⟩ := tshift_post' hx
    refine P.cont ?_ (hr _ st' rfl hs)
    obtain ⟨v, rfl⟩ := isKw_iff h
    refine P.bind P.curT ?_
    branch
    exact P.bind h3 (P.bind (P.ckw h) (P.bind hw (p_shiftExpr h2)))

theorem notMem {k : Keyword} {l : List Keyword} (h : k ∉ l) : ∀ k' ∈ l, (decide (k = k')) = false := by
  intro k' hk'
  exact decide_eq_false (fun he => h (he ▸ hk'))

theorem p_stopWord {v : List Char} {k : Keyword} {st : List RM} (h1 : k.exprIdent = false) (h2 : k ∉ exprWords)
    (h3 : k ∈ opWords → inner = true) (h4 : k = .LEFT → Next (· ≠ .lParen) tl) (ht : topExpr st = true) :
    P e (round inner st) ((.ident v k, sp) :: tl) (.done st) ((.ident v k, sp) :: tl) := by
  have hl : decide (k = .«_LIST_») = false := decide_eq_false (by rintro rfl; exact absurd h1 (by decide))
  have hw := notMem h2
  have ho : ∀ k' ∈ opWords, (decide (k = k') && !inner) = false := by
    intro k' hk'
    by_cases hk : k = k'
    · subst hk; rw [h3 hk']; simp
    · simp [hk]
  refine P.bind P.curT ?_
  have hx : ∀ k', (Token.ident v k).isKw k' = decide (k = k') := fun _ => rfl
  have hsym : ∀ t : Token, (∀ v k, t ≠ .ident v k) → decide (Token.ident v k = t) = false := by
    intro t h
    exact decide_eq_false (fun he => h _ _ he.symm)
  simp only [hx]
  rw [if_neg (by rw [hsym _ (by simp), Bool.or_false, ho .OR (by decide)]; simp), if_neg (by rw [ho .XOR (by decide)]; simp),
    if_neg (by rw [hsym _ (by simp), Bool.or_false, ho .AND (by decide)]; simp)]
  iterate 11 refine p_dF rfl ?_
  rw [if_neg (by rw [ho .BINARY (by decide)]; simp), if_neg (by rw [ho .COLLATE (by decide)]; simp)]
  iterate 3 refine p_dF rfl ?_
  rw [if_neg (by rw [ho .IN (by decide)]; simp), if_neg (by rw [ho .IS (by decide)]; simp), if_neg (by simp [ht]),
    if_neg (by rw [ht, Bool.and_true, ho .NOT (by decide)]; simp), if_neg (by rw [ho .LIKE (by decide)]; simp),
    if_neg (by rw [hw .INTERVAL (by decide)]; simp), if_neg (by rw [hw .TIMESTAMPADD (by decide)]; simp),
    if_neg (by rw [hw .TIMESTAMPDIFF (by decide)]; simp)]
  iterate 4 refine p_dF rfl ?_
  rw [if_neg (by rw [hw .TRUE (by decide)]; simp), if_neg (by rw [hw .FALSE (by decide)]; simp),
    if_neg (by rw [hw .NULL (by decide)]; simp)]
  refine P.bind P.listHack ?_
  rw [if_neg (by rw [hl]; simp)]
  refine p_dF rfl ?_
  refine p_iteF (of_decide_eq_false (hw .CAST (by decide))) ?_
  refine p_iteF (of_decide_eq_false (hw .COUNT (by decide))) ?_
  refine p_iteF (of_decide_eq_false (hw .GROUP_CONCAT (by decide))) ?_
  refine p_iteF (of_decide_eq_false (hw .EXTRACT (by decide))) ?_
  have hleft : P e (.op .leftParenAhead) ((.ident v k, sp) :: tl) false ((.ident v k, sp) :: tl) := by
    by_cases hk : k = .LEFT
    · obtain ⟨t', sp', tl', rfl, hn⟩ := (h4 hk).elim
      have := P.leftParenAhead (c := e) (t := .ident v k) (sp := sp) (x := (t', sp')) (tl := tl') (by subst hk; exact kw_here)
      rw [decide_eq_false hn] at this
      exact this
    · exact P.leftParenAhead_no (by simp [Token.isKw, hk])
  refine P.bind hleft (p_iteF (by simp) (p_iteF (by simp [h1]) ?_))
  refine p_iteF (of_decide_eq_false (hw .EXISTS (by decide))) ?_
  refine p_iteF (of_decide_eq_false (hw .CASE (by decide))) ?_
  exact P.ret _

/-- The branches that are not taken, for symbols. -/
macro "skipSym" h:ident : tactic => `(tactic| (repeat first | refine p_dF rfl ?_ | refine p_iteF (by rw [$h:ident]; simp) ?_))

theorem p_stop {st : List RM} (h : Stops e inner r) (ht : topExpr st = true) : P e (round inner st) r (.done st) r := by
  cases r with
  | nil => cases h
  | cons x tl =>
    obtain ⟨t, sp⟩ := x
    unfold Stops at h
    have hne : ∀ b : Bool, (b && (!true && topExpr st)) = false := fun b => by simp
    cases t with
    | ident v k => exact p_stopWord h.1 h.2.1 h.2.2.1 h.2.2.2 ht
    | dollarArg n =>
      refine P.bind P.curT ?_
      skipIfs
      refine P.bind P.listHack ?_
      skipIfs
      exact P.bind P.arguments (p_iteF h (P.ret _))
    | questionMark =>
      refine P.bind P.curT ?_
      skipIfs
      refine P.bind P.listHack ?_
      skipIfs
      exact P.bind P.arguments (p_iteF h (P.ret _))
    | percentS =>
      refine P.bind P.curT ?_
      skipIfs
      refine P.bind P.listHack ?_
      skipIfs
      exact P.bind P.arguments (p_iteF h (P.ret _))
    | minus =>
      rcases h with h | ⟨rfl, h⟩
      · simp [stopSyms] at h
      refine P.bind P.curT ?_
      skipIfs
      refine p_iteF (by rw [ht]; simp) ?_
      skipIfs
      refine P.bind P.listHack ?_
      skipIfs
      exact P.ret _
    | mul =>
      rcases h with h | ⟨rfl, h⟩
      · simp [stopSyms] at h
      refine P.bind P.curT ?_
      skipIfs
      refine p_iteF (by rw [ht]; simp) ?_
      skipIfs
      refine P.bind P.listHack ?_
      skipIfs
      exact P.ret _
    | _ =>
      first
        | (exfalso
           simp [stopSyms, opSyms] at h
           done)
        | (have hi : inner = true := by simpa [stopSyms, opSyms] using h
           subst hi
           refine P.bind P.curT ?_
           skipIfs
           refine P.bind P.listHack ?_
           skipIfs
           exact P.ret _)
        | (refine P.bind P.curT ?_
           skipIfs
           refine P.bind P.listHack ?_
           skipIfs
           exact P.ret _)

theorem its_stop (h : Stops e inner r) : PIts e inner true r [] r := by
  intro st st' ht hs
  cases hs
  exact P.done (p_stop h ht)

/-- A sequence of items that is the inorder of a tree that respects precedence gives the tree. -/
theorem ex_mk {T : PTree} (h : PIts e inner false ts T.inorder r) (hw : T.WellPrec) : P e (.call (.expression inner)) ts T.ast r := by
  obtain ⟨st', h1, h2⟩ := tshifts_tree T hw [] rfl trivial
  refine P.call (P.bind (h [] st' rfl h1) ?_)
  have h3 : treduce 99999 st' = some [.expr T] := by
    rw [h2 99999 (fun o _ => priority_lt o)]
    rfl
  rw [reduce_rms h3]
  exact P.ret _

end
end SqlParse
