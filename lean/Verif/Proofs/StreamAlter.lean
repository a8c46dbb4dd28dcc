import Verif.Proofs.StreamDml
/-! ALTER TABLE on streams of tokens. -/
namespace SqlParse

section
variable {α β σ : Type} {e : Env} {ts ts1 ts2 r r1 r2 r3 tl : List Tk} {t : Token} {sp : Span}

theorem p_idxCol {a : Ast} (h : IdxCol e ts a r) : P e indexCol ts a r := by
  cases h with
  | plain h hr => exact P.bind (p_ident h) (P.bind (n_skips_no hr) (P.bind (p_optIfF rfl) (P.ret _)))
  | size h hn =>
    exact P.bind (p_ident h) (P.bind (P.skips (by simp) (by simp [marker, Token.isKw])) (P.bind (p_optIfT rfl
      (P.bind (p_recovered (p_int hn) rfl) (P.bind p_ctk_rParen (P.ret _)))) (P.ret _)))

theorem p_idxCols {l : List Ast} (h : Paren (IdxCol e) ts l r) : P e indexCols ts l r := p_paren (Paren.map p_idxCol h)
theorem p_cols {l : List Ast} (h : Paren (Idn e) ts l r) : P e parseCols ts l r := p_paren (Paren.map p_ident h)

theorem p_idxType {a : Ast} (h : IdxType ts a r) : P e indexType ts a r := by
  cases h with
  | mk h h' => exact P.bind (P.ckw h) (P.bind (p_kwNode (by decide) h') (P.ret _))

theorem IdxType.first {a : Ast} (h : IdxType ts a r) : ∃ t s tl, ts = (t, s) :: tl ∧ t.isKw .USING = true := by
  cases h with
  | mk h h' => exact ⟨_, _, _, rfl, h⟩

theorem p_idxOpts {l : List Ast} (h : IdxOpts ts l r) : P e (manyOpt indexOption) ts l r := by
  refine p_manyOpt ?_
  induction h with
  | nil h =>
    intro x
    rw [List.append_nil]
    obtain ⟨t, sp, tl, rfl, hx⟩ := Next.elim h
    exact p_many_none (P.bind P.curT (p_iteF (by simp [hx .USING (by simp)]) (p_iteF (by simp [hx .COMMENT (by simp)]) (P.ret _))))
  | «using» h hr ih =>
    intro x
    have hp := p_idxType (e := e) h
    obtain ⟨t, s, tl, rfl, ht⟩ := h.first
    exact p_many_some (P.bind P.curT (p_iteT ht (P.bind hp (P.ret _)))) (ih _)
  | comment h ha hr ih =>
    intro x
    refine p_many_some ?_ (ih _)
    obtain ⟨v, rfl⟩ := isKw_iff h
    refine P.bind P.curT ?_
    branch
    exact P.bind (P.ckw h) (P.bind (p_string ha) (P.ret _))

theorem p_optName {o : Option Ast} (h : OptName e ts o r) : P e optName ts o r := by
  cases h with
  | none h =>
    obtain ⟨t, sp, tl, rfl, hx⟩ := Next.elim h
    exact P.bind P.curT (p_optIfF hx)
  | some h =>
    refine P.bind P.curT (p_optIfT ?_ (p_ident h))
    cases h with
    | word hk => simp [Token.isPlainWord, hk]

theorem p_ifNotExists {o : Option Span} (h : OptKws .IF [.NOT, .EXISTS] ts o r) : P e ifNotExists ts o r := by
  cases h with
  | none h => exact P.bind (n_skw_no h) (P.ret _)
  | some h =>
    obtain ⟨t, a, tl, b, rfl, h1, h2, rfl⟩ := h.split
    rw [joinSpan_comm]
    exact P.bind (P.skw h1) (P.bind (P.bind (p_ckws h2) (P.ret _)) (P.ret _))

theorem p_constr {o : Option (Span × Option Ast)} (h : Constr e ts o r) : P e constraintOpt ts o r := by
  refine p_optKw (OptKw.map (fun {sp ts a r} h => ?_) h)
  obtain ⟨n, rfl, h⟩ := h
  exact P.bind (p_optName h) (P.ret _)

theorem p_fkType {on : Span} {a : Ast} (h : FkType on ts a r) : P e (fkOnType on) ts a r := by
  cases h with
  | update h =>
    rw [joinSpan_comm]
    exact P.bind P.curT (p_iteT h (P.bind (P.ckw h) (P.ret _)))
  | delete h =>
    rw [joinSpan_comm]
    obtain ⟨v, rfl⟩ := isKw_iff h
    refine P.bind P.curT ?_
    branch
    exact P.bind (P.ckw h) (P.ret _)

theorem p_fkAction {a : Ast} (h : FkAction ts a r) : P e fkOnAction ts a r := by
  cases h with
  | restrict h =>
    have hz := h; clear h
    obtain ⟨t, rfl, h⟩ := hz.elim1
    exact P.bind P.curT (p_iteT h (P.bind (P.ckw h) (P.ret _)))
  | cascade h =>
    have hz := h; clear h
    obtain ⟨t, rfl, h⟩ := hz.elim1
    obtain ⟨v, rfl⟩ := isKw_iff h
    refine P.bind P.curT ?_
    branch
    exact P.bind (P.ckw h) (P.ret _)
  | setNull h =>
    obtain ⟨t, t', a, b, rfl, h1, h2, rfl⟩ := h.elim2
    obtain ⟨v, rfl⟩ := isKw_iff h1
    refine P.bind P.curT ?_
    branch
    rw [joinSpan_comm]
    exact P.bind (P.ckw h1) (P.bind P.curT (p_iteT h2 (P.bind (P.ckw h2) (P.ret _))))
  | noAction h =>
    have hc := p_ckws (e := e) h
    have hz := h; clear h
    obtain ⟨t, a, tl, rfl, h⟩ := hz.elim
    obtain ⟨v, rfl⟩ := isKw_iff h
    refine P.bind P.curT ?_
    branch
    exact P.bind hc (P.ret _)

theorem p_fkOns {l : List Ast} (h : FkOns ts l r) : P e (manyOpt foreignKeyOn) ts l r := by
  refine p_manyOpt ?_
  induction h with
  | nil h =>
    intro x
    rw [List.append_nil]
    exact p_many_none (P.bind (n_skw_no h) (P.ret _))
  | cons h hy ha hr ih =>
    intro x
    refine p_many_some ?_ (ih _)
    exact P.bind (P.skw h) (P.bind (P.bind (p_fkType hy) (P.bind (p_fkAction ha) (P.ret _))) (P.ret _))

theorem p_special {k k' : Keyword} {s : Span} (hk' : k' ∈ [Keyword.INDEX, .KEY]) (h : Kws [k, k'] ts s r) (hk : k ≠ .«_LIST_» := by decide) :
    P e (specialIndex k) ts (nd% IndexType_FullText [s]) r := by
  obtain ⟨t, t', a, b, rfl, h1, h2, rfl⟩ := h.elim2
  rw [joinSpan_comm]
  refine P.bind (P.ckw h1 hk) (P.bind P.curT ?_)
  simp only [List.mem_cons, List.not_mem_nil, or_false] at hk'
  rcases hk' with rfl | rfl
  · obtain ⟨v, rfl⟩ := isKw_iff h2
    branch
    exact P.bind (P.ckw (k := .INDEX) h2) (P.ret _)
  · obtain ⟨v, rfl⟩ := isKw_iff h2
    branch
    exact P.bind (P.ckw (k := .KEY) h2) (P.ret _)

theorem p_addIdxType {a : Ast} (h : AddIdxType ts a r) : P e addIndexType ts a r := by
  cases h with
  | primary h =>
    have hc := p_ckws (e := e) h
    have hz := h; clear h
    obtain ⟨t, a, tl, rfl, h⟩ := hz.elim
    exact P.bind P.curT (p_iteT h (P.bind hc (P.ret _)))
  | index h =>
    have hz := h; clear h
    obtain ⟨t, rfl, h⟩ := hz.elim1
    have hc := p_consKw (e := e) (sp := ‹Span›) (tl := r) h
    obtain ⟨v, rfl⟩ := isKw_iff h
    refine P.bind P.curT ?_
    branch
    exact P.bind hc (P.ret _)
  | key h =>
    have hz := h; clear h
    obtain ⟨t, rfl, h⟩ := hz.elim1
    have hc := p_consKw (e := e) (sp := ‹Span›) (tl := r) h
    obtain ⟨v, rfl⟩ := isKw_iff h
    refine P.bind P.curT ?_
    branch
    exact P.bind hc (P.ret _)
  | special hk hk' h =>
    simp only [List.mem_cons, List.not_mem_nil, or_false] at hk
    rcases hk with rfl | rfl | rfl
    all_goals
      have hs := p_special (e := e) hk' h
      have hz := h; clear h
      obtain ⟨t, a, tl, rfl, h⟩ := hz.elim
      obtain ⟨v, rfl⟩ := isKw_iff h
      refine P.bind P.curT ?_
      branch
      exact hs

/-- The words with which an index type begins. -/
theorem AddIdxType.first {a : Ast} (h : AddIdxType ts a r) : ∃ v k s tl, ts = (.ident v k, s) :: tl ∧
    k ∈ [Keyword.PRIMARY, .INDEX, .KEY, .FULLTEXT, .SPATIAL, .UNIQUE] := by
  cases h with
  | primary h =>
    have hz := h; clear h
    obtain ⟨t, a, tl, rfl, h⟩ := hz.elim
    obtain ⟨v, rfl⟩ := isKw_iff h
    exact ⟨_, _, _, _, rfl, by decide⟩
  | index h =>
    have hz := h; clear h
    obtain ⟨t, a, tl, rfl, h⟩ := hz.elim
    obtain ⟨v, rfl⟩ := isKw_iff h
    exact ⟨_, _, _, _, rfl, by decide⟩
  | key h =>
    have hz := h; clear h
    obtain ⟨t, a, tl, rfl, h⟩ := hz.elim
    obtain ⟨v, rfl⟩ := isKw_iff h
    exact ⟨_, _, _, _, rfl, by decide⟩
  | special hk hk' h =>
    have hz := h; clear h
    obtain ⟨t, a, tl, rfl, h⟩ := hz.elim
    obtain ⟨v, rfl⟩ := isKw_iff h
    refine ⟨_, _, _, _, rfl, ?_⟩
    simp only [List.mem_cons, List.not_mem_nil, or_false] at hk
    rcases hk with rfl | rfl | rfl <;> decide

theorem p_optAt {k : Keyword} {R : List Tk → α → List Tk → Prop} {p : Prog α} {o : Option α} (hR : ∀ {ts a r}, R ts a r → P e p ts a r)
    (h : OptAt k R ts o r) : P e (do
      let t ← curT
      optIf (t.isKw k) p) ts o r := by
  cases h with
  | none h =>
    obtain ⟨t, s, tl, rfl, hx⟩ := Next.elim h
    exact P.bind P.curT (p_optIfF hx)
  | some hn h =>
    have hp := hR h
    obtain ⟨t, s, tl, rfl, hx⟩ := Next.elim hn
    exact P.bind P.curT (p_optIfT hx hp)

theorem p_colAction {a : Ast} (h : ColAction e ts a r) : P e (do
    let t ← curT
    if t.isKw .SET then alterColumnSet
    else if t.isKw .DROP then alterColumnDrop
    else if t.isKw .TYPE then do
      let ts ← consume
      let ty ← dataType
      return nd% AlterColumnAction_Type [ts, ty]
    else expectedFailure "alter column action") ts a r := by
  cases h with
  | setDefault h ha =>
    obtain ⟨t, t', a, b, rfl, h1, h2, rfl⟩ := h.elim2
    rw [joinSpan_comm]
    exact P.bind P.curT (p_iteT h1 (P.bind (p_consKw h1) (P.bind P.curT (p_iteT h2 (P.bind (p_consKw h2) (P.bind (ex_p ha) (P.ret _)))))))
  | setNotNull h =>
    obtain ⟨t, a, tl, b, rfl, h1, h2, rfl⟩ := h.split
    have hc := p_ckws (e := e) h2
    refine P.bind P.curT (p_iteT h1 (P.bind (p_consKw h1) ?_))
    obtain ⟨t', a', tl', rfl, h3⟩ := h2.elim
    obtain ⟨v, rfl⟩ := isKw_iff h3
    refine P.bind P.curT ?_
    branch
    exact P.bind hc (P.ret _)
  | dropDefault h =>
    obtain ⟨t, t', a, b, rfl, h1, h2, rfl⟩ := h.elim2
    rw [joinSpan_comm]
    obtain ⟨v, rfl⟩ := isKw_iff h1
    refine P.bind P.curT ?_
    branch
    exact P.bind (p_consKw h1) (P.bind P.curT (p_iteT h2 (P.bind (p_consKw h2) (P.ret _))))
  | dropNotNull h =>
    obtain ⟨t, a, tl, b, rfl, h1, h2, rfl⟩ := h.split
    have hc := p_ckws (e := e) h2
    obtain ⟨v, rfl⟩ := isKw_iff h1
    refine P.bind P.curT ?_
    branch
    refine P.bind (p_consKw h1) ?_
    obtain ⟨t', a', tl', rfl, h3⟩ := h2.elim
    obtain ⟨v', rfl⟩ := isKw_iff h3
    refine P.bind P.curT ?_
    branch
    exact P.bind hc (P.ret _)
  | type h hd =>
    obtain ⟨v, rfl⟩ := isKw_iff h
    refine P.bind P.curT ?_
    branch
    exact P.bind (p_consKw h) (P.bind (dt_p hd) (P.ret _))

theorem p_assoc {γ : Type} {p : Prog γ} {f : γ → Prog α} {g : α → Prog β} {b : β} (h : P e ((p >>= f) >>= g) ts b r) :
    P e (p >>= fun t => f t >>= g) ts b r := by
  intro is s hs
  obtain ⟨s', ⟨n, h1⟩, h2⟩ := h is s hs
  refine ⟨s', ⟨n, ?_⟩, h2⟩
  rw [← h1]
  show runWith _ _ (.bind p (fun t => .bind (f t) g)) s = runWith _ _ (.bind (.bind p f) g) s
  rw [runWith, runWith, runWith]
  cases hp : runWith (runFn n) n p s <;> simp only [runWith]

/-- What follows a current token that was looked at. -/
theorem p_curBind {f : Token → Prog α} {g : α → Prog β} {b : β} (h : P e ((curT >>= f) >>= g) ts b r) : P e (curT >>= fun t => f t >>= g) ts b r :=
  p_assoc h

theorem p_altSpec {a : Ast} (h : AltSpec e ts a r) : P e alterSpecification ts a r := by
  cases h with
  | addForeignKey h hc hk hi hn hl h' ht hrc ho =>
    have hk' := p_ckws (e := e) hk
    refine P.bind P.curT (p_iteT h ?_)
    refine P.bind (P.ckw h) (P.bind (p_constr hc) ?_)
    obtain ⟨t', a', tl', rfl, h3⟩ := hk.elim
    refine P.bind P.curT (p_iteT h3 ?_)
    exact P.bind hk' (P.bind (p_ifNotExists hi) (P.bind (p_optName hn) (P.bind (p_idxCols hl) (P.bind (P.ckw h') (P.bind (p_ident ht)
      (P.bind (p_cols hrc) (P.bind (p_fkOns ho) (P.ret _))))))))
  | @addIndex t add ts r1 r2 r3 r4 r5 r6 _ con ty ine n o1 cols o2 h hc hy hi hn h1 hl h2 =>
    have hy' := p_addIdxType (e := e) hy
    refine P.bind P.curT (p_iteT h ?_)
    refine P.bind (P.ckw h) (P.bind (p_constr hc) ?_)
    have hx : P e (addIndex add con) r1 (nd% AlterSpecification_AddIndex [add, ty, ine, n, con, cols, o1.toList ++ o2]) r := by
      refine P.bind hy' (P.bind (p_ifNotExists hi) (P.bind (p_optName hn) ?_))
      exact p_curBind (P.bind (p_optAt p_idxType h1) (P.bind (p_idxCols hl) (P.bind (p_idxOpts h2) (P.ret _))))
    obtain ⟨v, k, s, tl, rfl, hk⟩ := hy.first
    simp only [List.mem_cons, List.not_mem_nil, or_false] at hk
    rcases hk with rfl | rfl | rfl | rfl | rfl | rfl
    all_goals
      refine P.bind P.curT ?_
      branch
      exact hx
  | @addColumn t t' add c ts r1 r2 r3 _ con ine i d h hc h' hi hm hn hd =>
    refine P.bind P.curT (p_iteT h ?_)
    refine P.bind (P.ckw h) (P.bind (p_constr hc) ?_)
    obtain ⟨v, rfl⟩ := isKw_iff h'
    refine P.bind P.curT ?_
    branch
    refine P.bind (P.ckw h') (P.bind (a := ine) (ts1 := r2) ?_ (P.bind (p_ident hn) (P.bind (dt_p hd) (P.ret _))))
    cases hi with
    | none h =>
      obtain ⟨t, s, tl, rfl, hx⟩ := Next.elim h
      exact P.bind P.curT (P.bind (p_optIfF hx) (P.ret _))
    | some h =>
      have hc := p_ckws (e := e) h
      obtain ⟨t, a, tl, rfl, h1⟩ := h.elim
      have hm' : decide (e.opts.dialect = .mariaDB) = false := by
        refine decide_eq_false (fun hd => ?_)
        cases hm hd
      exact P.bind P.curT (P.bind (p_optIfT h1 hc) (P.bind P.isMaria (P.bind (p_when_f hm') (P.ret _))))
  | modify h he hi hd =>
    rcases h with ⟨h, hn⟩ | h
    · have hz := h; clear h
      obtain ⟨t, rfl, h⟩ := hz.elim1
      obtain ⟨v, rfl⟩ := isKw_iff h
      refine P.bind P.curT ?_
      branch
      exact P.bind (P.ckw h) (P.bind (n_skw_no hn) (P.bind (p_ifExists he) (P.bind (p_ident hi) (P.bind (dt_p hd) (P.ret _)))))
    · obtain ⟨t, t', a, b, rfl, h1, h2, rfl⟩ := h.elim2
      obtain ⟨v, rfl⟩ := isKw_iff h1
      refine P.bind P.curT ?_
      branch
      exact P.bind (P.ckw h1) (P.bind (P.skw h2) (P.bind (p_ifExists he) (P.bind (p_ident hi) (P.bind (dt_p hd) (P.ret _)))))
  | ownerTo h hi =>
    have hc := p_ckws (e := e) h
    obtain ⟨t, a, tl, rfl, h1⟩ := h.elim
    obtain ⟨v, rfl⟩ := isKw_iff h1
    refine P.bind P.curT ?_
    branch
    exact P.bind hc (P.bind (p_ident hi) (P.ret _))
  | dropColumn h hi hk =>
    have hc := p_ckws (e := e) h
    obtain ⟨t, a, tl, rfl, h1⟩ := h.elim
    obtain ⟨v, rfl⟩ := isKw_iff h1
    refine P.bind P.curT ?_
    branch
    exact P.bind hc (P.bind (p_ident hi) (P.bind (p_optK hk) (P.ret _)))
  | alterColumn h hi ha =>
    have hc := p_ckws (e := e) h
    obtain ⟨t, a, tl, rfl, h1⟩ := h.elim
    obtain ⟨v, rfl⟩ := isKw_iff h1
    refine P.bind P.curT ?_
    branch
    refine P.bind hc (P.bind (p_ident hi) ?_)
    exact p_curBind (P.bind (p_colAction ha) (P.ret _))

/-- Items separated by commas, in a closure under `recovered`. -/
theorem p_accComma {item : Prog α} {l : List α} (h : CommaL (P e item) ts l r) : ∀ acc : List α, P e (accLoop (fun acc => do
      let i ← item
      let m ← skips .comma
      return (if m then .cont (acc ++ [i]) else .done (acc ++ [i]))) acc) ts (true, acc ++ l) r := by
  induction h with
  | one h hr =>
    intro acc
    exact p_accDone (P.bind h (P.bind (n_skips_no hr) (P.ret _)))
  | @cons ts r r' a sp l h hl ih =>
    intro acc
    have := ih (acc ++ [a])
    rw [List.append_assoc] at this
    exact p_accCont (P.bind h (P.bind p_skips_comma (P.ret _))) this

theorem p_alt {a : Ast} (h : Alt e ts a r) : P e parseAlter ts a r := by
  cases h with
  | @mk t t' s s' ts r1 r2 r3 r4 _ on ig ie q l h ho hi h' he hq hl hr =>
    refine P.bind (P.ckw h) (P.bind (p_optK ho) (P.bind (p_optK hi) (P.bind P.curT (p_iteT h' ?_))))
    refine P.bind (P.ckw h') (P.bind (p_ifExists he) (P.bind (p_qualifiedName hq) (P.bind P.delim (P.bind (a := l) (ts1 := r) ?_ (P.ret _)))))
    refine p_recoveredAcc (p_accComma (CommaL.map p_altSpec hl) []) ?_
    obtain ⟨t, s, tl, rfl, hx⟩ := Next.elim hr
    show (decide (t = e.delim) || decide (t = .eof)) = true
    simp [hx]

end
end SqlParse
