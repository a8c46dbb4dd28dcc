import Verif.Proofs.StreamExpr
import Verif.Spec.GrammarStmt
/-! DELETE, UPDATE, INSERT, RENAME, TRUNCATE, DROP, SET, SIGNAL, RETURN, COPY on streams of tokens. -/
namespace SqlParse

section
variable {α β σ : Type} {e : Env} {ts ts1 ts2 r r1 r2 r3 tl : List Tk} {t : Token} {sp : Span}

/-- A name does not begin with a reserved word. -/
theorem Idn.notKw {k : Keyword} {i : Ast} (hk : k.reserved = true) (h : Idn e ts i r) : NotKw k ts := by
  cases h with
  | @word v k' sp r hr =>
    show decide (k' = k) = false
    refine decide_eq_false ?_
    rintro rfl
    rw [hk] at hr; cases hr
  | quoted => exact rfl

theorem QName.notKw {k : Keyword} {i : Ast} (hk : k.reserved = true) (h : QName e ts i r) : NotKw k ts := by
  cases h with
  | mk h =>
    cases h with
    | last h => exact h.notKw hk
    | dot h => exact h.notKw hk

theorem CommaL.notKw {R : List Tk → α → List Tk → Prop} {k : Keyword} {l : List α} (hR : ∀ {ts a r}, R ts a r → NotKw k ts)
    (h : CommaL R ts l r) : NotKw k ts := by
  cases h with
  | one h => exact hR h
  | cons h => exact hR h

theorem p_where {w : Option (Ast × Span)} (h : Where e ts w r) : P e (kwExpr .WHERE) ts w r := p_kwExpr (where_p h) (by decide)

theorem p_returning {o : Option (Span × List Ast)} (h : Returning e ts o r) : P e returningClause ts o r := by
  refine p_optKw (OptKw.map (fun {sp ts a r} h => ?_) h)
  obtain ⟨l, rfl, h⟩ := h
  exact P.bind (p_commaList (selEs_p h)) (P.ret _)

theorem p_qnames {l : List Ast} (h : CommaL (QName e) ts l r) : P e (commaList qualifiedName) ts l r := p_commaList (CommaL.map p_qualifiedName h)
theorem p_idents {l : List Ast} (h : CommaL (Idn e) ts l r) : P e (commaList ident) ts l r := p_commaList (CommaL.map p_ident h)

theorem p_del {a : Ast} (h : Del e ts a r) : P e parseDelete ts a r := by
  cases h with
  | @«from» t t' d f ts r1 r2 r3 r4 r fl tb u w ret h hf h' ht hu hw hr =>
    refine P.bind (P.ckw h) (P.bind (p_flags (by decide) hf) (P.bind (a := (f, tb, [])) (ts1 := r2) ?_ (P.bind (a := u.getD []) (ts1 := r3) ?_
      (P.bind (p_where hw) (P.bind (p_returning hr) (P.ret _))))))
    · exact P.bind (P.skw h') (P.bind (p_qnames ht) (P.ret _))
    · cases hu with
      | none h => exact P.bind (n_skw_no h) (P.ret _)
      | some h hr => exact P.bind (P.skw h) (P.bind p_when_no (P.bind (p_commaList (trs_p hr)) (P.ret _)))
  | @multi t t' d f ts r1 r2 r3 r4 r fl tb u w ret h hf ht h' hu hn hw hr =>
    refine P.bind (P.ckw h) (P.bind (p_flags (by decide) hf) (P.bind (a := (f, tb, u)) (ts1 := r3) ?_ (P.bind (a := u) (ts1 := r3) ?_
      (P.bind (p_where hw) (P.bind (p_returning hr) (P.ret _))))))
    · have hk : NotKw .FROM r1 := ht.notKw (fun h => h.notKw (by decide))
      exact P.bind (n_skw_no hk) (P.bind (p_qnames ht) (P.bind (P.ckw h') (P.bind (p_commaList (trs_p hu)) (P.ret _))))
    · exact P.bind (n_skw_no hn) (P.ret _)

theorem p_dotted {p : List (Ast × Span)} {i : Ast} (h : Dotted e ts p i r) (acc : List Ast) :
    P e (.loop (fun acc => do
    let a ← ident
    let m ← skips .period
    return (if m then .cont (acc ++ [a]) else .done (acc ++ [a]))) acc) ts (acc ++ (p.map Prod.fst ++ [i])) r := by
  induction h generalizing acc with
  | last h hr => exact P.done (P.bind (p_ident h) (P.bind (n_skips_no hr) (P.ret _)))
  | @dot ts r r' i j d p h hs ih =>
    have := ih (acc ++ [i])
    rw [List.append_assoc] at this
    exact P.cont (P.bind (p_ident h) (P.bind p_skips_period (P.ret _))) this

theorem p_uset {x : List Ast × Ast} (h : USet e ts x r) : P e updateSet ts x r := by
  cases h with
  | mk h ha => exact P.bind (p_dotted h []) (P.bind p_ctk_eq (P.bind (ex_p ha) (P.ret _)))

theorem p_upd {a : Ast} (h : Upd e ts a r) : P e parseUpdate ts a r := by
  cases h with
  | @mk t t' d s ts r1 r2 r3 r4 r fl tb set w ret h hf ht h' hs hw hr hd =>
    refine P.bind (P.ckw h) (P.bind (p_flags (by decide) hf) (P.bind (p_commaList (trs_p ht)) (P.bind (P.ckw h')
      (P.bind (p_commaList (CommaL.map p_uset hs)) (P.bind (p_where hw) (P.bind (a := ret) ?_ (P.ret _)))))))
    refine P.bind (p_returning hr) ?_
    cases ret with
    | none => exact P.ret _
    | some x =>
      have hd := hd (by simp)
      exact P.bind P.isPg (P.bind (p_when_f (by simp [hd])) (P.ret _))

theorem p_paren {m : String} {item : Prog α} {l : List α} (h : Paren (P e item) ts l r) :
    P e (do
      let _ ← ctk .lParen
      let v ← parenItems item m
      let _ ← ctk .rParen
      return v) ts l r := by
  cases h with
  | mk h => exact P.bind p_ctk_lParen (P.bind (p_parenItems h) (P.bind p_ctk_rParen (P.ret _)))

theorem Paren.map {R R' : List Tk → α → List Tk → Prop} (hR : ∀ {ts a r}, R ts a r → R' ts a r) {l : List α}
    (h : Paren R ts l r) : Paren R' ts l r := by
  cases h with
  | mk h => exact .mk (CommaL.map hR h)

theorem p_setPair {a : Ast} (h : SetPair e ts a r) : P e setPair ts a r := by
  cases h with
  | mk h ha => exact P.bind (p_ident h) (P.bind p_ctk_eq (P.bind (ex_p ha) (P.ret _)))

theorem p_assign {a : Ast × Ast} (h : Assign e ts a r) : P e assignment ts a r := by
  cases h with
  | mk h ha => exact P.bind (p_ident h) (P.bind p_ctk_eq (P.bind (ex_p ha) (P.ret _)))

theorem p_insCols {l : List Ast} (h : InsCols e ts l r) : P e insertColumns ts l r := by
  cases h with
  | none h => exact P.bind (n_stk_no h) (P.ret _)
  | some h =>
    cases h with
    | mk h =>
      exact P.bind (P.stk (by simp) (by simp [marker, Token.isKw])) (P.bind (p_parenItems (CommaL.map p_ident h)) (P.bind p_ctk_rParen (P.ret _)))

theorem p_insBody {cols : List Ast} {b : Option (Span × List (List Ast)) × Option Ast × Option Ast} (h : InsBody e cols ts b r) :
    P e (insertBody cols) ts b r := by
  cases h with
  | select h =>
    have hs := sel_p h
    obtain ⟨t, sp, tl, rfl, hx⟩ := Next.elim h.first
    exact P.bind P.curT (p_iteT hx (P.bind hs (P.ret _)))
  | @values t sp ts r rows h hr =>
    have hp : P e (commaList valuesRow) ts rows r := p_commaList (CommaL.map (fun h => p_paren (Paren.map ex_p h)) hr)
    rcases h with h | h
    · obtain ⟨v, rfl⟩ := isKw_iff h
      refine P.bind P.curT ?_
      branch
      exact P.bind (p_consKw h) (P.bind hp (P.ret _))
    · obtain ⟨v, rfl⟩ := isKw_iff h
      refine P.bind P.curT ?_
      branch
      exact P.bind (p_consKw h) (P.bind hp (P.ret _))
  | @set t sp ts r l hc h hl =>
    obtain ⟨v, rfl⟩ := isKw_iff h
    subst hc
    refine P.bind P.curT ?_
    branch
    exact P.bind (P.ckw h) (P.bind (p_commaList (CommaL.map p_setPair hl)) (P.bind p_when_no (P.ret _)))

theorem p_conflictTarget {a : OAst} (h : ConflictTarget e ts a r) : P e conflictTarget ts a r := by
  cases h with
  | cols h =>
    cases h with
    | mk h => exact P.bind P.curT (p_iteT rfl (P.bind p_ctk_lParen (P.bind (p_idents h) (P.bind p_ctk_rParen (P.ret _)))))
  | constraint h hi =>
    have hc := p_ckws (e := e) h
    obtain ⟨t, a, tl, rfl, ht⟩ := h.elim
    obtain ⟨v, rfl⟩ := isKw_iff ht
    refine P.bind P.curT ?_
    branch
    exact P.bind hc (P.bind (p_ident hi) (P.ret _))
  | none h =>
    obtain ⟨t, sp, tl, rfl, h1, h2⟩ := Next.elim h
    exact P.bind P.curT (p_iteF h1 (p_iteF (by simp [h2]) (P.ret _)))

/-- The first keyword, and the others. -/
theorem Kws.split {k k' : Keyword} {ks : List Keyword} {s : Span} (h : Kws (k :: k' :: ks) ts s r) :
    ∃ t a tl b, ts = (t, a) :: tl ∧ t.isKw k = true ∧ Kws (k' :: ks) tl b r ∧ s = joinSpan a b := by
  cases h with
  | cons h hs => exact ⟨_, _, _, _, rfl, h, hs, rfl⟩

theorem p_conflictAction {a : Ast} (h : ConflictAction e ts a r) : P e conflictAction ts a r := by
  cases h with
  | nothing h =>
    obtain ⟨t, t', a, b, rfl, h1, h2, rfl⟩ := h.elim2
    refine P.bind (P.ckw h1) ?_
    obtain ⟨v, rfl⟩ := isKw_iff h2
    refine P.bind P.curT ?_
    branch
    exact P.bind (P.ckw h2) (P.ret _)
  | update h hl hw =>
    obtain ⟨t, a, tl, b, rfl, h1, h2, rfl⟩ := h.split
    have hc := p_ckws (e := e) h2
    obtain ⟨t', a', tl', rfl, h3⟩ := h2.elim
    refine P.bind (P.ckw h1) ?_
    obtain ⟨v, rfl⟩ := isKw_iff h3
    refine P.bind P.curT ?_
    branch
    exact P.bind hc (P.bind (p_commaList (CommaL.map p_assign hl)) (P.bind (p_where hw) (P.ret _)))

theorem p_insOn {x : Option Ast × Option Ast} (h : InsOn e ts x r) : P e insertOn ts x r := by
  cases h with
  | none h => exact P.bind (n_skw_no h) (P.ret _)
  | dup hd h hl =>
    obtain ⟨t, a, tl, b, rfl, h1, h2, rfl⟩ := h.split
    have hc := p_ckws (e := e) h2
    obtain ⟨t', a', tl', rfl, h3⟩ := h2.elim
    refine P.bind (P.skw h1) ?_
    obtain ⟨v, rfl⟩ := isKw_iff h3
    refine P.bind P.curT ?_
    branch
    exact P.bind hc (P.bind (p_commaList (CommaL.map p_setPair hl)) (P.bind P.isMaria (P.bind (p_when_f (by simp [hd])) (P.ret _))))
  | conflict hd h hg ha =>
    obtain ⟨t, t', a, b, rfl, h1, h2, rfl⟩ := h.elim2
    refine P.bind (P.skw h1) ?_
    obtain ⟨v, rfl⟩ := isKw_iff h2
    refine P.bind P.curT ?_
    branch
    exact P.bind (P.ckw h2) (P.bind (p_conflictTarget hg) (P.bind (p_conflictAction ha) (P.bind P.isPg (P.bind (p_when_f (by simp [hd])) (P.ret _)))))

theorem p_checkInsertFlags {ins : Bool} {fl : List Ast} (h : ins = false → ∀ f ∈ fl, f.kind? ≠ some .InsertReplaceFlag_HighPriority ∧
    f.kind? ≠ some .InsertReplaceFlag_Ignore) : P e (checkInsertFlags ins fl) ts () ts := by
  induction fl with
  | nil => exact P.ret _
  | cons f fl ih =>
    refine P.bind (p_when_f ?_) (ih (fun hi f hf => h hi f (List.mem_cons_of_mem _ hf)))
    cases ins with
    | true => rfl
    | false =>
      have := h rfl f (List.mem_cons_self ..)
      simp [this]

theorem flags_mem {tbl : List (Keyword × Kind)} {fl : List Ast} (h : Flags tbl ts fl r) : ∀ f ∈ fl, ∃ K s, f = .node K [.span s] := by
  induction h with
  | nil => simp
  | cons h hr ih =>
    intro f hf
    rcases List.mem_cons.1 hf with rfl | hf
    · exact ⟨_, _, rfl⟩
    · exact ih f hf

theorem p_ins {a : Ast} (h : Ins e ts a r) : P e parseInsertReplace ts a r := by
  cases h with
  | @mk t sp ts r1 r2 r3 r4 r5 r6 r K fl cols into tb b on ret h hf hr hi ht hc hb ho hret =>
    refine P.bind (p_consNode (by decide) h) (P.bind (P.ret _) (P.bind (p_flags (by decide) hf) (P.bind (p_checkInsertFlags ?_)
      (P.bind (p_optK hi) (P.bind (p_qualifiedName ht) (P.bind (p_insCols hc) (P.bind (p_insBody hb) (P.bind (p_insOn ho)
      (P.bind (p_returning hret) (P.ret _))))))))))
    intro hk f hff
    have hK : t.isKw .REPLACE = true := by
      have hm := lookup_mem h
      have hw := (lookup_isKw (by decide) h).1
      simp only [insertTypeWords, List.mem_cons, Prod.mk.injEq, List.not_mem_nil, or_false] at hm
      rcases hm with ⟨-, rfl⟩ | ⟨h1, -⟩
      · simp [Ast.kind?] at hk
      · rwa [h1] at hw
    obtain ⟨K', s, rfl⟩ := flags_mem hf f hff
    have hx := hr hK _ hff s
    constructor
    · intro hc
      simp only [Ast.kind?, Option.some.injEq] at hc
      subst hc
      exact hx.1 rfl
    · intro hc
      simp only [Ast.kind?, Option.some.injEq] at hc
      subst hc
      exact hx.2 rfl

theorem p_toTable {a : Ast} (h : ToTable e ts a r) : P e tableToTable ts a r := by
  cases h with
  | mk ha h hb => exact P.bind (p_qualifiedName ha) (P.bind (P.ckw h) (P.bind (p_qualifiedName hb) (P.ret _)))

theorem p_ren {a : Ast} (h : Ren e ts a r) : P e parseRename ts a r := by
  cases h with
  | mk h hk hl => exact P.bind (P.ckw h) (P.bind (p_optK hk) (P.bind (p_commaList (CommaL.map p_toTable hl)) (P.ret _)))

theorem p_trunc {a : Ast} (h : Trunc e ts a r) : P e parseTruncate ts a r := by
  cases h with
  | mk h hk hn => exact P.bind (P.ckw h) (P.bind (p_optK hk) (P.bind (p_qualifiedName hn) (P.ret _)))

theorem p_ifExists {o : Option Span} (h : OptKws .IF [.EXISTS] ts o r) : P e ifExists ts o r := by
  cases h with
  | none h => exact P.bind (n_skw_no h) (P.ret _)
  | some h =>
    obtain ⟨t, t', a, b, rfl, h1, h2, rfl⟩ := h.elim2
    rw [joinSpan_comm]
    exact P.bind (P.skw h1) (P.bind (P.bind (P.ckw h2) (P.ret _)) (P.ret _))

theorem p_dropNamed {R : List Tk → Ast → List Tk → Prop} {p : Prog Ast} {k : Keyword} {x : Span × Option Span × Ast}
    (hR : ∀ {ts a r}, R ts a r → P e p ts a r) (h : DropName R k ts x r) (hk : k ≠ .«_LIST_» := by decide) : P e (dropNamed k p) ts x r := by
  cases h with
  | mk h he hn => exact P.bind (P.ckw h hk) (P.bind (p_ifExists he) (P.bind (hR hn) (P.ret _)))

theorem DropName.first {R : List Tk → Ast → List Tk → Prop} {k : Keyword} {x : Span × Option Span × Ast} (h : DropName R k ts x r) :
    ∃ v sp tl, ts = (.ident v k, sp) :: tl := by
  cases h with
  | mk h he hn =>
    obtain ⟨v, rfl⟩ := isKw_iff h
    exact ⟨_, _, _, rfl⟩

/-- The rest of DROP. -/
def dropRest (d : Span) (tmp : Option Span) : Prog Ast := do
  let t ← curT
  if t.isKw .TABLE then dropTable d tmp
  else if t.isKw .DATABASE || t.isKw .SCHEMA then do
    let (s, ie, n) ← dropNamed t.kw ident
    return nd% DropDatabase [d, s, ie, n]
  else if t.isKw .EVENT then do
    let (s, ie, n) ← dropNamed .EVENT qualifiedName
    return nd% DropEvent [d, s, ie, n]
  else if t.isKw .FUNCTION then do
    let (s, ie, n) ← dropNamed .FUNCTION qualifiedName
    return nd% DropFunction [d, s, ie, n]
  else if t.isKw .INDEX then dropIndex d
  else if t.isKw .PROCEDURE then do
    let (s, ie, n) ← dropNamed .PROCEDURE qualifiedName
    return nd% DropProcedure [d, s, ie, n]
  else if t.isKw .SEQUENCE then errHere "Not yet implemented at src/drop.rs:469"
  else if t.isKw .SERVER then do
    let (s, ie, n) ← dropNamed .SERVER ident
    return nd% DropServer [d, s, ie, n]
  else if t.isKw .TRIGGER then do
    let (s, ie, n) ← dropNamed .TRIGGER qualifiedName
    return nd% DropTrigger [d, s, ie, n]
  else if t.isKw .VIEW then dropView d tmp
  else if t.isKw .USER then errHere "Not yet implemented at src/drop.rs:527"
  else expectedFailure "droppable"

theorem p_dropWhat {d : Span} {tmp : Option Span} {a : Ast} (h : DropWhat e d tmp ts a r) : P e (dropRest d tmp) ts a r := by
  cases h with
  | @table t s ts r1 _ ie l h he hl hd =>
    have hn : P e (do
        let pg ← isPg
        if pg then skw .CASCADE else .ret none) r none r := by
      refine P.bind P.isPg ?_
      by_cases hp : e.opts.dialect = .postgreSQL
      · exact p_iteT (by simp [hp]) (n_skw_no (hd hp))
      · exact p_iteF (by simp [hp]) (P.ret _)
    obtain ⟨v, rfl⟩ := isKw_iff h
    refine P.bind P.curT ?_
    branch
    refine P.bind (P.ckw h) (P.bind (p_ifExists he) (P.bind (p_qnames hl) ?_))
    refine P.bind P.isPg (P.bind (a := none) ?_ (P.ret _))
    by_cases hp : e.opts.dialect = .postgreSQL
    · exact p_iteT (by simp [hp]) (n_skw_no (hd hp))
    · exact p_iteF (by simp [hp]) (P.ret _)
  | @tableCascade t t' s c ts r1 _ ie l h he hl hd h' =>
    obtain ⟨v, rfl⟩ := isKw_iff h
    refine P.bind P.curT ?_
    branch
    refine P.bind (P.ckw h) (P.bind (p_ifExists he) (P.bind (p_qnames hl) ?_))
    exact P.bind P.isPg (P.bind (a := some c) (p_iteT (by simp [hd]) (P.skw h')) (P.ret _))
  | @view t s ts r1 _ ie l h he hl =>
    obtain ⟨v, rfl⟩ := isKw_iff h
    refine P.bind P.curT ?_
    branch
    exact P.bind (P.ckw h) (P.bind (p_ifExists he) (P.bind (p_qnames hl) (P.ret _)))
  | database h =>
    have hp := p_dropNamed p_ident h
    obtain ⟨v, sp, tl, rfl⟩ := h.first
    refine P.bind P.curT ?_
    branch
    exact P.bind hp (P.ret _)
  | schema h =>
    have hp := p_dropNamed p_ident h
    obtain ⟨v, sp, tl, rfl⟩ := h.first
    refine P.bind P.curT ?_
    branch
    exact P.bind hp (P.ret _)
  | event h =>
    have hp := p_dropNamed p_qualifiedName h
    obtain ⟨v, sp, tl, rfl⟩ := h.first
    refine P.bind P.curT ?_
    branch
    exact P.bind hp (P.ret _)
  | function h =>
    have hp := p_dropNamed p_qualifiedName h
    obtain ⟨v, sp, tl, rfl⟩ := h.first
    refine P.bind P.curT ?_
    branch
    exact P.bind hp (P.ret _)
  | procedure h =>
    have hp := p_dropNamed p_qualifiedName h
    obtain ⟨v, sp, tl, rfl⟩ := h.first
    refine P.bind P.curT ?_
    branch
    exact P.bind hp (P.ret _)
  | server h =>
    have hp := p_dropNamed p_ident h
    obtain ⟨v, sp, tl, rfl⟩ := h.first
    refine P.bind P.curT ?_
    branch
    exact P.bind hp (P.ret _)
  | trigger h =>
    have hp := p_dropNamed p_qualifiedName h
    obtain ⟨v, sp, tl, rfl⟩ := h.first
    refine P.bind P.curT ?_
    branch
    exact P.bind hp (P.ret _)
  | @index ts r1 _ x on h ho h1 h2 =>
    cases h with
    | @mk t s ts r0 _ ie n h he hn =>
      obtain ⟨v, rfl⟩ := isKw_iff h
      refine P.bind P.curT ?_
      branch
      refine P.bind (P.ckw h) (P.bind (p_ifExists he) (P.bind (p_ident hn) ?_))
      have hm1 : (on.isNone && decide (e.opts.dialect = .mariaDB)) = false := by
        by_cases hm : e.opts.dialect = .mariaDB
        · cases on with
          | none => exact absurd rfl (h1 hm)
          | some _ => rfl
        · simp [hm]
      have hm2 : (on.isSome && decide (e.opts.dialect = .postgreSQL)) = false := by
        by_cases hm : e.opts.dialect = .postgreSQL
        · rw [h2 hm]; rfl
        · simp [hm]
      cases ho with
      | none h => exact P.bind (n_skw_no h) (P.bind (P.ret _) (P.bind P.isMaria (P.bind P.isPg (P.bind (p_when_f hm1) (P.bind (p_when_f hm2) (P.ret _))))))
      | some h hq =>
        obtain ⟨q, rfl, hq⟩ := hq
        exact P.bind (P.skw h) (P.bind (P.bind (P.bind (p_qualifiedName hq) (P.ret _)) (P.ret _)) (P.bind P.isMaria (P.bind P.isPg (P.bind (p_when_f hm1) (P.bind (p_when_f hm2) (P.ret _))))))

theorem p_drop {a : Ast} (h : Drop e ts a r) : P e parseDrop ts a r := by
  cases h with
  | mk h ht hw => exact P.bind (P.ckw h) (P.bind (p_optK ht) (p_dropWhat hw))

theorem p_set {a : Ast} (h : SetS e ts a r) : P e parseSet ts a r := by
  cases h with
  | mk h hl => exact P.bind (P.ckw h) (P.bind (p_commaList (CommaL.map p_assign hl)) (P.ret _))

theorem p_signalItem {a : Ast × Span × Ast} (h : SignalItem e ts a r) : P e signalSet ts a r := by
  cases h with
  | mk h ha => exact P.bind (p_consNode (by decide) h) (P.bind (P.ret _) (P.bind p_ctk_eq (P.bind (ex_p ha) (P.ret _))))

theorem p_signal {a : Ast} (h : Signal e ts a r) : P e parseSignal ts a r := by
  cases h with
  | @mk t t' s s' ts r1 r2 _ v a l h h' hv ha hl =>
    refine P.bind (P.ckw h) (P.bind (P.ckw h') (P.bind (p_optK hv) (P.bind (ex_p ha) ?_)))
    cases hl with
    | none h => exact P.bind (n_skw_no h) (P.bind (P.ret _) (P.ret _))
    | some h hr =>
      obtain ⟨l, rfl, hr⟩ := hr
      exact P.bind (P.skw h) (P.bind (p_commaList (CommaL.map p_signalItem hr)) (P.ret _))

theorem p_ret {a : Ast} (h : Ret e ts a r) : P e parseReturn ts a r := by
  cases h with
  | mk h ha => exact P.bind (P.ckw h) (P.bind (ex_p ha) (P.ret _))

theorem p_copy {a : Ast} (h : CopyS e ts a r) : P e parseCopy ts a r := by
  cases h with
  | @mk t f s c f' s' ts r1 _ n l h hn hl hf hs =>
    refine P.bind (P.ckw h) (P.bind (p_ident hn) ?_)
    cases hl with
    | nil =>
      exact P.bind p_ctk_lParen (P.bind (P.bind P.curT (p_iteT rfl (P.ret _))) (P.bind p_ctk_rParen (P.bind (P.ckw hf) (P.bind (P.ckw hs) (P.ret _)))))
    | some hl =>
      cases hl with
      | @mk lp rp ts' _ l hl =>
        refine P.bind p_ctk_lParen (P.bind (a := l) (ts1 := (.rParen, rp) :: (f, f') :: (s, s') :: r) ?_ (P.bind p_ctk_rParen (P.bind (P.ckw hf) (P.bind (P.ckw hs) (P.ret _)))))
        have hp := p_hintIndexList hl
        have : ∃ t sp tl, t ≠ Token.rParen ∧ ts' = (t, sp) :: tl := by
          cases hl with
          | one h => cases h <;> exact ⟨_, _, _, by simp, rfl⟩
          | cons h => cases h <;> exact ⟨_, _, _, by simp, rfl⟩
        obtain ⟨t, sp, tl, hne, rfl⟩ := this
        exact P.bind P.curT (p_iteF hne hp)

end
end SqlParse
