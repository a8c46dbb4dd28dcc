import Verif.Proofs.StreamRules
/-! The phrases that contain no expressions are read as the grammar says. -/
namespace SqlParse

theorem p_dF {α : Type} {e : Env} {ts r : List Tk} {c : Prop} [Decidable c] {p q : Prog α} {a : α} (hc : decide c = false)
    (h : P e q ts a r) : P e (if c then p else q) ts a r := by
  rw [if_neg (of_decide_eq_false hc)]; exact h

theorem p_dT {α : Type} {e : Env} {ts r : List Tk} {c : Prop} [Decidable c] {p q : Prog α} {a : α} (hc : decide c = true)
    (h : P e p ts a r) : P e (if c then p else q) ts a r := by
  rw [if_pos (of_decide_eq_true hc)]; exact h

/-- Skip the branches that are not taken. -/
macro "skipIfs" : tactic => `(tactic| (repeat refine p_dF rfl ?_))

/-- Go to the branch that is taken. -/
macro "branch" : tactic => `(tactic| (skipIfs; refine p_dT rfl ?_))

section
variable {α β σ : Type} {e : Env} {ts ts1 ts2 r r1 tl : List Tk} {t : Token} {sp : Span}

theorem kw_here {v : List Char} {k : Keyword} : (Token.ident v k).isKw k = true := by simp [Token.isKw]

theorem p_consKw {k : Keyword} (h : t.isKw k = true) (hk : k ≠ .«_LIST_» := by decide) : P e consume ((t, sp) :: tl) sp tl :=
  P.consume (isKw_ne_eof h) (marker_kw h hk) (after_kw h _ _)

theorem p_optIfT {p : Prog α} {b : Bool} {a : α} (hb : b = true) (h : P e p ts a r) : P e (optIf b p) ts (some a) r := by
  subst hb; exact P.bind h (P.ret _)

theorem p_optIfF {p : Prog α} {b : Bool} (hb : b = false) : P e (optIf b p) ts none ts := by
  subst hb; exact P.ret _

theorem p_timeUnit {u : OAst × Span} (h : TimeUnit ts u r) : P e timeUnit ts u r := by
  cases h with
  | @mk t sp u r h =>
    obtain ⟨h1, h2⟩ := lookup_isKw (by decide) h
    refine P.bind P.curT ?_
    rw [tableFind_lookup, ← timeUnitWords_eq, h]
    exact P.bind (P.consume (isKw_ne_eof h1) (marker_kw h1 h2) (after_kw h1 _ _)) (P.ret _)

theorem p_alias {a : Option Span × Option Ast} (h : Alias e ts a r) : P e aliasOpt ts a r := by
  cases h with
  | none h1 h2 =>
    obtain ⟨t, sp, tl, rfl, hx⟩ := h2.elim
    exact P.bind (P.skw_no h1) (P.bind P.curT (P.bind (p_optIfF (by simpa [plainWord_eq] using hx)) (P.ret _)))
  | @as t sp ts r i h hi =>
    have : ∃ t' sp' tl, ts = (t', sp') :: tl := by
      cases hi <;> exact ⟨_, _, _, rfl⟩
    obtain ⟨t', sp', tl, rfl⟩ := this
    exact P.bind (P.skw h) (P.bind P.curT (P.bind (p_optIfT rfl (p_ident hi)) (P.ret _)))
  | @plain v k sp r r' i hk hi =>
    have hp : Token.isPlainWord (.ident v k) = true := by
      cases hi with
      | word hk => simp [Token.isPlainWord, hk]
    exact P.bind (P.skw_no (by simp [Token.isKw, hk])) (P.bind P.curT (P.bind (p_optIfT (by simp [hp]) (p_ident hi)) (P.ret _)))

theorem p_hintFor {a : Ast} (h : HintFor ts a r) : P e hintFor ts a r := by
  cases h with
  | @join t sp r h =>
    have hc := p_consKw (e := e) (sp := sp) (tl := r) h
    obtain ⟨v, rfl⟩ := isKw_iff h
    refine P.bind P.curT ?_
    branch
    exact P.bind hc (P.ret _)
  | groupBy h =>
    have hc := p_ckws (e := e) h
    obtain ⟨t, a, tl, rfl, ht⟩ := h.elim
    obtain ⟨v, rfl⟩ := isKw_iff ht
    refine P.bind P.curT ?_
    branch
    exact P.bind hc (P.ret _)
  | orderBy h =>
    have hc := p_ckws (e := e) h
    obtain ⟨t, a, tl, rfl, ht⟩ := h.elim
    obtain ⟨v, rfl⟩ := isKw_iff ht
    refine P.bind P.curT ?_
    branch
    exact P.bind hc (P.ret _)

theorem hintUse_none (h : NoKw [.USE, .IGNORE, .FORCE] r) : Next (fun t => hintUseTable.lookup t.kw = none) r := by
  obtain ⟨t, sp, tl, rfl, h'⟩ := Next.elim h
  show hintUseTable.lookup t.kw = none
  have h1 := h' .USE (by simp)
  have h2 := h' .IGNORE (by simp)
  have h3 := h' .FORCE (by simp)
  cases t with
  | ident v k =>
    simp only [Token.isKw, decide_eq_false_iff_not] at h1 h2 h3
    simp [← tableFind_lookup, hintUseTable, Token.kw, tableFind, h1, h2, h3]
  | _ => rfl

theorem p_optSome {f : α → Prog β} {a : α} {b : β} (h : P e (f a) ts b r) : P e (optMap (some a) f) ts (some b) r :=
  P.bind h (P.ret _)

/-- `skip_keyword` followed by more. -/
theorem p_optKwB {k : Keyword} {f : Span → Prog α} {o : Option α} {g : Option α → Prog β} {b : β} {q : List Tk}
    (h : OptKw k (fun sp => P e (f sp)) ts o r) (hg : P e (g o) r b q) (hk : k ≠ .«_LIST_» := by decide) :
    P e (skw k >>= fun s => optMap s f >>= g) ts b q := by
  cases h with
  | none h => exact P.bind (n_skw_no h) (P.bind (P.ret _) hg)
  | some h hr => exact P.bind (P.skw h hk) (P.bind (p_optSome hr) hg)

theorem p_hints {l : List Ast} (h : Hints e ts l r) : P e (manyOpt indexHint) ts l r := by
  refine p_manyOpt ?_
  induction h with
  | nil h =>
    intro x
    rw [List.append_nil]
    exact p_many_none (P.bind (p_consNode_no (hintUse_none h)) (P.ret _))
  | @cons t t' s s' lp rp U T f r r1 r2 r3 l hs hd hu ht hf hl hr ih =>
    intro x
    refine p_many_some ?_ (ih _)
    refine P.bind (p_consNode (by decide) hu) (p_optSome ?_)
    refine P.bind (p_consNode (by decide) ht) ?_
    refine P.bind (P.ret _) ?_
    refine p_optKwB (OptKw.map (fun {sp ts a r} h => by
      obtain ⟨b, rfl, h⟩ := h
      exact P.bind (p_hintFor h) (P.ret (sp, b))) hf) ?_
    exact P.bind p_ctk_lParen (P.bind (p_hintIndexList hl) (P.bind p_ctk_rParen (P.ret _)))

theorem Hints.maria {l : List Ast} (h : Hints e ts l r) : l = [] ∨ e.opts.dialect = .mariaDB := by
  cases h with
  | nil => exact Or.inl rfl
  | cons hd => exact Or.inr hd

theorem p_checkHints {l : List Ast} (h : l = [] ∨ e.opts.dialect = .mariaDB) : P e (checkHints l) ts () ts := by
  refine P.bind P.isMaria (p_when_f ?_)
  rcases h with rfl | h
  · rfl
  · simp [h]

theorem p_sideJoin {k : Keyword} {s : Span} (h : SideJoin k ts s r) (hk : k ≠ .«_LIST_») : P e (sideJoin k) ts s r := by
  cases h with
  | plain h =>
    obtain ⟨t, t', a, b, rfl, h1, h2, rfl⟩ := h.elim2
    have hn : t'.isKw .OUTER = false := by obtain ⟨v, rfl⟩ := isKw_iff h2; rfl
    exact P.bind (P.ckw h1 hk) (P.bind (P.skw_no hn) (P.bind (P.ckw h2) (P.ret _)))
  | outer h =>
    cases h with
    | @cons _ _ _ t sp sp' r _ h1 hs =>
      obtain ⟨t', t2, a, b, rfl, h2, h3, rfl⟩ := hs.elim2
      rw [← joinSpan_assoc]
      exact P.bind (P.ckw h1 hk) (P.bind (P.skw h2) (P.bind (P.ckw h3) (P.ret _)))

theorem SideJoin.first {k : Keyword} {s : Span} (h : SideJoin k ts s r) : ∃ t a tl, ts = (t, a) :: tl ∧ t.isKw k = true := by
  cases h with
  | plain h => exact h.elim
  | outer h => exact h.elim

theorem p_joinType {a : Ast} (h : JoinTy ts a r) : P e joinType ts (some a) r := by
  cases h with
  | inner h =>
    obtain ⟨t, t', a, b, rfl, h1, h2, rfl⟩ := h.elim2
    obtain ⟨v, rfl⟩ := isKw_iff h1
    refine P.bind P.curT ?_
    branch
    exact P.bind (P.ckw h1) (P.bind (P.ckw h2) (P.ret _))
  | cross h =>
    obtain ⟨t, t', a, b, rfl, h1, h2, rfl⟩ := h.elim2
    obtain ⟨v, rfl⟩ := isKw_iff h1
    refine P.bind P.curT ?_
    branch
    exact P.bind (P.ckw h1) (P.bind (P.ckw h2) (P.ret _))
  | join h =>
    obtain ⟨t, rfl, h1⟩ := h.elim1
    obtain ⟨v, rfl⟩ := isKw_iff h1
    refine P.bind P.curT ?_
    branch
    exact P.bind (P.ckw h1) (P.ret _)
  | straight h =>
    obtain ⟨t, rfl, h1⟩ := h.elim1
    obtain ⟨v, rfl⟩ := isKw_iff h1
    refine P.bind P.curT ?_
    branch
    exact P.bind (P.ckw h1) (P.ret _)
  | left h =>
    obtain ⟨t, a, tl, rfl, h1⟩ := h.first
    obtain ⟨v, rfl⟩ := isKw_iff h1
    refine P.bind P.curT ?_
    branch
    exact P.bind (p_sideJoin h (by decide)) (P.ret _)
  | right h =>
    obtain ⟨t, a, tl, rfl, h1⟩ := h.first
    obtain ⟨v, rfl⟩ := isKw_iff h1
    refine P.bind P.curT ?_
    branch
    exact P.bind (p_sideJoin h (by decide)) (P.ret _)
  | naturalInner h =>
    cases h with
    | @cons _ _ _ t sp sp' r _ h1 hs =>
      obtain ⟨v, rfl⟩ := isKw_iff h1
      refine P.bind P.curT ?_
      branch
      refine P.bind (P.ckw h1) ?_
      have hc := p_ckws (e := e) hs
      obtain ⟨t', a, tl, rfl, h2⟩ := hs.elim
      obtain ⟨v, rfl⟩ := isKw_iff h2
      refine P.bind P.curT ?_
      branch
      exact P.bind hc (P.ret _)
  | naturalLeft hn h =>
    obtain ⟨v, rfl⟩ := isKw_iff hn
    refine P.bind P.curT ?_
    branch
    refine P.bind (P.ckw hn) ?_
    obtain ⟨t, a, tl, rfl, h1⟩ := h.first
    obtain ⟨v, rfl⟩ := isKw_iff h1
    refine P.bind P.curT ?_
    branch
    exact P.bind (p_sideJoin h (by decide)) (P.ret _)
  | naturalRight hn h =>
    obtain ⟨v, rfl⟩ := isKw_iff hn
    refine P.bind P.curT ?_
    branch
    refine P.bind (P.ckw hn) ?_
    obtain ⟨t, a, tl, rfl, h1⟩ := h.first
    obtain ⟨v, rfl⟩ := isKw_iff h1
    refine P.bind P.curT ?_
    branch
    exact P.bind (p_sideJoin h (by decide)) (P.ret _)
  | natural h =>
    obtain ⟨t, t', a, b, rfl, h1, h2, rfl⟩ := h.elim2
    obtain ⟨v, rfl⟩ := isKw_iff h1
    obtain ⟨v', rfl⟩ := isKw_iff h2
    refine P.bind P.curT ?_
    branch
    refine P.bind (P.ckw h1) ?_
    refine P.bind P.curT ?_
    branch
    exact P.bind (P.ckw h2) (P.ret _)

theorem p_joinType_no (h : NoKw joinWords r) : P e joinType r none r := by
  obtain ⟨t, sp, tl, rfl, h⟩ := Next.elim h
  refine P.bind P.curT ?_
  rw [if_neg (by simp [h .INNER (by decide)]), if_neg (by simp [h .CROSS (by decide)]), if_neg (by simp [h .JOIN (by decide)]),
    if_neg (by simp [h .STRAIGHT_JOIN (by decide)]), if_neg (by simp [h .LEFT (by decide)]),
    if_neg (by simp [h .RIGHT (by decide)]), if_neg (by simp [h .NATURAL (by decide)])]
  exact P.ret _

theorem p_lockStrength {a : Ast} (h : Strength e ts a r) : P e lockStrength ts a r := by
  cases h with
  | update h =>
    obtain ⟨t, rfl, h1⟩ := h.elim1
    obtain ⟨v, rfl⟩ := isKw_iff h1
    refine P.bind P.curT (P.bind P.isPg ?_)
    branch
    exact P.bind (P.ckw h1) (P.ret _)
  | share h =>
    obtain ⟨t, rfl, h1⟩ := h.elim1
    obtain ⟨v, rfl⟩ := isKw_iff h1
    refine P.bind P.curT (P.bind P.isPg ?_)
    branch
    exact P.bind (P.ckw h1) (P.ret _)
  | noKeyUpdate hd h =>
    have hc := p_ckws (e := e) h
    obtain ⟨t, a, tl, rfl, h1⟩ := h.elim
    obtain ⟨v, rfl⟩ := isKw_iff h1
    refine P.bind P.curT (P.bind P.isPg ?_)
    branch
    exact P.bind hc (P.bind (p_when_f (by simp [hd])) (P.ret _))
  | keyShare hd h =>
    have hc := p_ckws (e := e) h
    obtain ⟨t, a, tl, rfl, h1⟩ := h.elim
    obtain ⟨v, rfl⟩ := isKw_iff h1
    refine P.bind P.curT (P.bind P.isPg ?_)
    branch
    exact P.bind hc (P.bind (p_when_f (by simp [hd])) (P.ret _))

theorem p_lockWait {a : OAst} (h : Wait ts a r) : P e lockWait ts a r := by
  cases h with
  | noWait h =>
    obtain ⟨t, rfl, h1⟩ := h.elim1
    obtain ⟨v, rfl⟩ := isKw_iff h1
    refine P.bind P.curT ?_
    branch
    exact P.bind (P.ckw h1) (P.ret _)
  | skip h =>
    have hc := p_ckws (e := e) h
    obtain ⟨t, a, tl, rfl, h1⟩ := h.elim
    obtain ⟨v, rfl⟩ := isKw_iff h1
    refine P.bind P.curT ?_
    branch
    exact P.bind hc (P.ret _)
  | default h =>
    obtain ⟨t, sp, tl, rfl, h'⟩ := Next.elim h
    refine P.bind P.curT ?_
    rw [if_neg (by simp [h' .NOWAIT (by decide)]), if_neg (by simp [h' .SKIP (by decide)])]
    exact P.ret _

theorem p_locking {o : Option Ast} (h : OptKw .FOR (LockSpec e) ts o r) : P e locking ts o r := by
  refine p_optKw (OptKw.map (fun {sp ts a r} h => ?_) h)
  cases h with
  | mk hs ho hw =>
    refine P.bind (p_lockStrength hs) ?_
    refine P.bind (p_optKw (OptKw.map (fun {sp ts a r} h => ?_) ho)) (P.bind (p_lockWait hw) (P.ret _))
    obtain ⟨l, rfl, h⟩ := h
    exact P.bind (p_commaList (CommaL.map p_ident h)) (P.ret _)

theorem p_width {n : Nat × Span} (h : Width ts n r) : P e parseWidth ts (some n) r := by
  cases h with
  | @mk lp rp ts r n h =>
    refine P.bind P.curT ?_
    branch
    exact P.bind p_ctk_lParen (P.bind (p_recovered (p_int h) (by simp [Next, isRParen])) (P.bind p_ctk_rParen (P.ret _)))

theorem p_optWidth {n : Option (Nat × Span)} (h : OptWidth ts n r) : P e parseWidth ts n r := by
  cases h with
  | none h =>
    obtain ⟨t, sp, tl, rfl, h⟩ := Next.elim h
    refine P.bind P.curT ?_
    rw [if_neg h]
    exact P.ret _
  | some h => exact p_width h

theorem p_widthReq {n : Nat × Span} (h : Width ts n r) : P e parseWidthReq ts n r := by
  have hw := p_width (e := e) h
  cases h with
  | @mk lp rp ts r n h =>
    refine P.bind P.curT ?_
    branch
    exact P.bind hw (P.ret _)

theorem p_strList {l : List Ast} (h : StrList ts l r) : P e enumSetValues ts l r := by
  cases h with
  | @mk lp rp ts r l h =>
    refine P.bind p_ctk_lParen (P.bind (p_recoveredAcc ?_ (by simp [Next, isRParen])) (P.bind (p_ctk_rParen (sp := rp)) (P.ret _)))
    suffices hg : ∀ x : List Ast, P e (.loop (σ := List Ast) (fun acc => do
        let s ← .tryP string
        match s with
        | some s => do
          let r ← .tryP (do
            let t ← curT
            if t = .comma then do
              let _ ← ctk .comma
              return true
            else if t = .rParen then return false
            else expectedFailure "',' or ')'")
          return (match r with
            | some true => .cont (acc ++ [s])
            | some false => .done (true, acc ++ [s])
            | none => .done (false, acc ++ [s]))
        | none => return .done (false, acc)) x) ts (true, x ++ l) ((Token.rParen, rp) :: r) from hg []
    generalize hq : (Token.rParen, rp) :: r = q at h ⊢
    induction h with
    | @one ts q a h hr =>
      intro x
      subst hq
      refine P.done (P.bind (p_string h).tryP (P.bind (P.tryP (a := false) ?_) (P.ret _)))
      refine P.bind P.curT ?_
      branch
      exact P.ret _
    | @cons ts r1 q a sp l h hl ih =>
      intro x
      have := ih hq (x ++ [a])
      rw [List.append_assoc] at this
      refine P.cont (P.bind (p_string h).tryP (P.bind (P.tryP (a := true) ?_) (P.ret _))) this
      refine P.bind P.curT ?_
      branch
      exact P.bind p_ctk_comma (P.ret _)

theorem p_typePlain {K : Kind} (h : plainTypes.lookup t.kw = some K) : P e typeOf ((t, sp) :: r) (sp, ⟨.node K []⟩) r := by
  have hm := lookup_mem h
  have hk := (lookup_isKw (by decide) h).1
  simp only [plainTypes, List.mem_cons, Prod.mk.injEq, List.not_mem_nil, or_false] at hm
  rcases hm with ⟨h1, rfl⟩ | ⟨h1, rfl⟩ | ⟨h1, rfl⟩ | ⟨h1, rfl⟩ | ⟨h1, rfl⟩ | ⟨h1, rfl⟩ | ⟨h1, rfl⟩ | ⟨h1, rfl⟩ <;>
  · rw [h1] at hk
    obtain ⟨v, rfl⟩ := isKw_iff hk
    refine P.bind P.curT ?_
    branch
    exact P.bind (P.ckw hk) (P.ret _)

theorem p_typeWidth {K : Kind} {w : Option (Nat × Span)} (h : widthTypes.lookup t.kw = some K) (hw : OptWidth ts w r) :
    P e typeOf ((t, sp) :: ts) (sp, ⟨.node K [toF w]⟩) r := by
  have hm := lookup_mem h
  have hk := (lookup_isKw (by decide) h).1
  simp only [widthTypes, List.mem_cons, Prod.mk.injEq, List.not_mem_nil, or_false] at hm
  rcases hm with ⟨h1, rfl⟩ | ⟨h1, rfl⟩ | ⟨h1, rfl⟩ | ⟨h1, rfl⟩ | ⟨h1, rfl⟩ | ⟨h1, rfl⟩ | ⟨h1, rfl⟩ | ⟨h1, rfl⟩ | ⟨h1, rfl⟩ |
    ⟨h1, rfl⟩ | ⟨h1, rfl⟩ | ⟨h1, rfl⟩ | ⟨h1, rfl⟩ | ⟨h1, rfl⟩ | ⟨h1, rfl⟩ | ⟨h1, rfl⟩ | ⟨h1, rfl⟩ | ⟨h1, rfl⟩ <;>
  · rw [h1] at hk
    obtain ⟨v, rfl⟩ := isKw_iff hk
    refine P.bind P.curT ?_
    branch
    exact P.bind (P.ckw hk) (P.bind (p_optWidth hw) (P.ret _))

theorem lookup_none {α β : Type} [DecidableEq α] {k : α} {tbl : List (α × β)} (h : tbl.lookup k = none) : ∀ p ∈ tbl, k ≠ p.1 := by
  intro p hp he
  induction tbl with
  | nil => cases hp
  | cons q tbl ih =>
    rw [List.lookup_cons] at h
    cases hk : (k == q.1) with
    | true => rw [hk] at h; cases h
    | false =>
      rw [hk] at h
      rcases List.mem_cons.1 hp with rfl | hp
      · rw [he] at hk; simp at hk
      · exact ih h hp

theorem p_type {a : Span × OAst} (h : Ty e ts a r) : P e typeOf ts a r := by
  cases h with
  | plain h => exact p_typePlain h
  | width h hw => exact p_typeWidth h hw
  | varbinary h hw =>
    obtain ⟨v, rfl⟩ := isKw_iff h
    refine P.bind P.curT ?_
    branch
    exact P.bind (P.ckw h) (P.bind (p_widthReq hw) (P.ret _))
  | bit h hw =>
    obtain ⟨v, rfl⟩ := isKw_iff h
    refine P.bind P.curT ?_
    branch
    exact P.bind (P.ckw h) (P.bind (p_widthReq hw) (P.ret _))
  | @realSqlite t sp r h hd =>
    obtain ⟨v, rfl⟩ := isKw_iff h
    refine P.bind P.curT ?_
    branch
    refine P.bind (P.ckw h) (P.bind P.isSqlite ?_)
    rw [hd]
    exact P.ret _
  | real h hd =>
    obtain ⟨v, rfl⟩ := isKw_iff h
    refine P.bind P.curT ?_
    branch
    refine P.bind (P.ckw h) (P.bind P.isSqlite ?_)
    rw [decide_eq_false hd]
    exact P.ret _
  | float h =>
    obtain ⟨v, rfl⟩ := isKw_iff h
    refine P.bind P.curT ?_
    branch
    exact P.bind (P.ckw h) (P.ret _)
  | doublePg hd h =>
    have hc := p_ckws (e := e) h
    obtain ⟨t, a, tl, rfl, h1⟩ := h.elim
    obtain ⟨v, rfl⟩ := isKw_iff h1
    refine P.bind P.curT ?_
    branch
    refine P.bind P.isPg (P.bind (p_iteT (by simp [hd]) hc) (P.ret _))
  | double hd h =>
    obtain ⟨t, rfl, h1⟩ := h.elim1
    obtain ⟨v, rfl⟩ := isKw_iff h1
    refine P.bind P.curT ?_
    branch
    refine P.bind P.isPg (P.bind (p_iteF (by simp [hd]) (P.ckw h1)) (P.ret _))
  | numeric h h1 h2 =>
    obtain ⟨v, rfl⟩ := isKw_iff h
    refine P.bind P.curT ?_
    branch
    exact P.bind (P.ckw h) (P.bind p_ctk_lParen (P.bind (p_int (.mk h1)) (P.bind p_ctk_comma (P.bind (p_int (.mk h2))
      (P.bind p_ctk_rParen (P.ret _))))))
  | timestamp h hw hz =>
    obtain ⟨v, rfl⟩ := isKw_iff h
    refine P.bind P.curT ?_
    branch
    refine P.bind (P.ckw h) (P.bind (p_optWidth hw) (p_optKwB (OptKw.map (fun {sp ts a r} h => ?_) hz) (P.ret _)))
    obtain ⟨s', rfl, h⟩ := h
    exact P.bind (p_ckws h) (P.ret _)
  | enum h hl =>
    obtain ⟨v, rfl⟩ := isKw_iff h
    refine P.bind P.curT ?_
    branch
    exact P.bind (P.ckw h) (P.bind (p_strList hl) (P.ret _))
  | set h hl =>
    obtain ⟨v, rfl⟩ := isKw_iff h
    refine P.bind P.curT ?_
    branch
    exact P.bind (P.ckw h) (P.bind (p_strList hl) (P.ret _))
  | @named v k sp r hd h1 h2 h3 hm =>
    refine P.bind P.curT ?_
    have g1 := lookup_none h1
    have g2 := lookup_none h2
    simp only [plainTypes, widthTypes, List.mem_cons, List.not_mem_nil, or_false, forall_eq_or_imp, forall_eq] at g1 g2
    simp only [otherTypes, List.mem_cons, List.not_mem_nil, or_false, not_or] at h3
    obtain ⟨a1, a2, a3, a4, a5, a6, a7, a8⟩ := g1
    obtain ⟨b1, b2, b3, b4, b5, b6, b7, b8, b9, b10, b11, b12, b13, b14, b15, b16, b17, b18⟩ := g2
    obtain ⟨c1, c2, c3, c4, c5, c6, c7, c8, c9⟩ := h3
    simp only [Token.isKw, a1, a2, a3, a4, a5, a6, a7, a8, b1, b2, b3, b4, b5, b6, b7, b8, b9, b10, b11, b12, b13, b14, b15, b16,
      b17, b18, c1, c2, c3, c4, c5, c6, c7, c8, c9, decide_false, Bool.false_eq_true, if_false]
    refine P.bind P.isPg (p_iteT (by simp [hd]) ?_)
    exact P.bind (P.consumeA (by simp) hm) (P.ret _)

theorem p_parts {l : List Ast} (h : Parts e ts l r) (first : Ast) : P e (identParts first) ts (first :: l) r := by
  unfold identParts
  generalize hx : [first] = x
  have : first :: l = x ++ l := by subst hx; rfl
  rw [this]
  clear this hx
  induction h generalizing x with
  | nil h =>
    refine P.done (P.bind (n_skips_no h) (p_iteF (by simp) ?_))
    rw [List.append_nil]
    exact P.ret _
  | @star d s r r' l h ih =>
    have := ih (x ++ [nd% IdentifierPart_Star [s]])
    rw [List.append_assoc] at this
    refine P.cont (P.bind p_skips_period (p_iteT rfl (P.bind P.curT ?_))) this
    exact P.bind (P.ctk (by simp) (by simp [marker, Token.isKw])) (P.ret _)
  | @name d v k s r r1 r' i l hi h ih =>
    have := ih (x ++ [i])
    rw [List.append_assoc] at this
    refine P.cont (P.bind p_skips_period (p_iteT rfl (P.bind P.curT ?_))) this
    exact P.bind (p_ident hi) (P.ret _)

theorem p_functionOf {v : List Char} {k : Keyword} {f : OAst} (h : FunctionName v k f) (sp : Span) : P e (functionOf (.ident v k) sp) ts f ts := by
  unfold functionOf
  unfold FunctionName at h
  rw [functionWords_eq] at h
  simp only [tableFind_lookup]
  cases hk : functionTable.lookup k with
  | some K =>
    rw [hk] at h
    subst h
    exact P.ret _
  | none =>
    rw [hk] at h
    obtain ⟨h1, rfl⟩ := h
    exact p_iteF (by simp [h1]) (P.ret _)

theorem p_intervalParts {ws : List (List Char)} {l : List Nat} (h : ws.map parseI64 = l.map some) (x : List Nat) (sp : Span) :
    P e (intervalParts sp x ws) ts (x ++ l) ts := by
  induction ws generalizing l x with
  | nil =>
    cases l with
    | nil => rw [List.append_nil]; exact P.ret _
    | cons => cases h
  | cons w ws ih =>
    cases l with
    | nil => cases h
    | cons n l =>
      injection h with h1 h2
      unfold intervalParts
      rw [h1]
      have := ih h2 (x ++ [n])
      rw [List.append_assoc] at this
      exact this

end
end SqlParse
