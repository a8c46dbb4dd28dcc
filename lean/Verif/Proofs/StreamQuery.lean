import Verif.Proofs.StreamOperands
/-! The properties of data types and the parts of queries, on streams of tokens. -/
namespace SqlParse

section
variable {α β σ : Type} {e : Env} {ts ts1 ts2 r r1 r2 r3 tl : List Tk} {t : Token} {sp : Span} {inner noAs : Bool}

theorem prop_nil (h1 : Next (fun t => plainProps.lookup t.kw = none) r) (h2 : NoKw otherProps r)
    (h3 : noAs = true ∨ NotKw .AS r) : P e (typeProperty noAs) r none r := by
  obtain ⟨t, sp, tl, rfl, g1⟩ := Next.elim h1
  have g3 : (t.isKw .AS && !noAs) = false := by
    rcases h3 with rfl | h3
    · simp
    · rw [show t.isKw .AS = false from h3]; rfl
  have hp : ∀ k, k ∈ plainProps.map Prod.fst → t.isKw k = false := by
    intro k hk
    obtain ⟨p, hp, rfl⟩ := List.mem_map.1 hk
    have := lookup_none g1 p hp
    cases t with
    | ident v k' => simpa [Token.isKw, Token.kw] using this
    | _ => rfl
  refine P.bind P.curT ?_
  rw [if_neg (by rw [hp .SIGNED (by decide)]; simp), if_neg (by rw [hp .AUTO_INCREMENT (by decide)]; simp),
    if_neg (by rw [hp .UNSIGNED (by decide)]; simp), if_neg (by rw [hp .ZEROFILL (by decide)]; simp),
    if_neg (by rw [hp .NULL (by decide)]; simp), if_neg (by rw [h2 .NOT (by decide)]; simp),
    if_neg (by rw [h2 .CHARACTER (by decide)]; simp), if_neg (by rw [h2 .COLLATE (by decide)]; simp),
    if_neg (by rw [h2 .COMMENT (by decide)]; simp), if_neg (by rw [h2 .DEFAULT (by decide)]; simp),
    if_neg (by rw [hp .VIRTUAL (by decide)]; simp), if_neg (by rw [hp .PERSISTENT (by decide)]; simp),
    if_neg (by rw [hp .STORED (by decide)]; simp), if_neg (by rw [h2 .UNIQUE (by decide)]; simp),
    if_neg (by rw [h2 .GENERATED (by decide)]; simp), if_neg (by rw [g3]; simp),
    if_neg (by rw [h2 .PRIMARY (by decide)]; simp), if_neg (by rw [h2 .CHECK (by decide)]; simp)]
  exact P.ret _

theorem prop_plain {K : Kind} (h : plainProps.lookup t.kw = some K) : P e (typeProperty noAs) ((t, sp) :: r) (some (.node K [.span sp])) r := by
  have hm := lookup_mem h
  have hk := (lookup_isKw (by decide) h).1
  simp only [plainProps, List.mem_cons, Prod.mk.injEq, List.not_mem_nil, or_false] at hm
  rcases hm with ⟨h1, rfl⟩ | ⟨h1, rfl⟩ | ⟨h1, rfl⟩ | ⟨h1, rfl⟩ | ⟨h1, rfl⟩ | ⟨h1, rfl⟩ | ⟨h1, rfl⟩ | ⟨h1, rfl⟩ <;>
  · rw [h1] at hk
    obtain ⟨v, rfl⟩ := isKw_iff hk
    refine P.bind P.curT ?_
    branch
    exact P.bind (P.ckw hk) (P.ret _)

theorem prop_notNull {t' : Token} {s s' : Span} (h : t.isKw .NOT = true) (h' : t'.isKw .NULL = true) :
    P e (typeProperty noAs) ((t, s) :: (t', s') :: r) (some (nd% DataTypeProperty_NotNull [(⟨s.start, s'.stop⟩ : Span)])) r := by
  obtain ⟨v, rfl⟩ := isKw_iff h
  refine P.bind P.curT ?_
  branch
  exact P.bind (P.bind (P.ckw h) (P.bind (P.ckw h') (P.ret _))) (P.ret _)

theorem prop_charset {s : Span} {i : Ast} (h : Kws [.CHARACTER, .SET] ts s r1) (hi : Idn e r1 i r) :
    P e (typeProperty noAs) ts (some (nd% DataTypeProperty_Charset [i])) r := by
  have hc := p_ckws (e := e) h
  obtain ⟨t, a, tl, rfl, ht⟩ := h.elim
  obtain ⟨v, rfl⟩ := isKw_iff ht
  refine P.bind P.curT ?_
  branch
  exact P.bind hc (P.bind (p_ident hi) (P.ret _))

theorem prop_collate {i : Ast} (h : t.isKw .COLLATE = true) (hi : Idn e ts i r) :
    P e (typeProperty noAs) ((t, sp) :: ts) (some (nd% DataTypeProperty_Charset [i])) r := by
  obtain ⟨v, rfl⟩ := isKw_iff h
  refine P.bind P.curT ?_
  branch
  exact P.bind (P.ckw h) (P.bind (p_ident hi) (P.ret _))

theorem prop_comment {i : Ast} (h : t.isKw .COMMENT = true) (hi : Str ts i r) :
    P e (typeProperty noAs) ((t, sp) :: ts) (some (nd% DataTypeProperty_Comment [i])) r := by
  obtain ⟨v, rfl⟩ := isKw_iff h
  refine P.bind P.curT ?_
  branch
  exact P.bind (P.ckw h) (P.bind (p_string hi) (P.ret _))

theorem prop_default {a : Ast} (h : t.isKw .DEFAULT = true) (ha : P e (.call (.expression true)) ts a r) :
    P e (typeProperty noAs) ((t, sp) :: ts) (some (nd% DataTypeProperty_Default [a])) r := by
  obtain ⟨v, rfl⟩ := isKw_iff h
  refine P.bind P.curT ?_
  branch
  exact P.bind (P.ckw h) (P.bind ha (P.ret _))

theorem prop_uniqueKey {t' : Token} {s s' : Span} (h : t.isKw .UNIQUE = true) (h' : t'.isKw .KEY = true) :
    P e (typeProperty noAs) ((t, s) :: (t', s') :: r) (some (nd% DataTypeProperty_UniqueKey [joinSpan s' s])) r := by
  obtain ⟨v, rfl⟩ := isKw_iff h
  refine P.bind P.curT ?_
  branch
  exact P.bind (P.ckw h) (P.bind (P.skw h') (P.ret _))

theorem prop_unique (h : t.isKw .UNIQUE = true) (h' : NotKw .KEY r) :
    P e (typeProperty noAs) ((t, sp) :: r) (some (nd% DataTypeProperty_Unique [sp])) r := by
  obtain ⟨v, rfl⟩ := isKw_iff h
  refine P.bind P.curT ?_
  branch
  exact P.bind (P.ckw h) (P.bind (n_skw_no h') (P.ret _))

theorem prop_generatedPg {s : Span} (hd : e.opts.dialect = .postgreSQL) (h : Kws [.GENERATED, .ALWAYS, .AS, .IDENTITY] ts s r) :
    P e (typeProperty noAs) ts (some (nd% DataTypeProperty_GeneratedAlways [s])) r := by
  have hc := p_ckws (e := e) h
  obtain ⟨t, a, tl, rfl, ht⟩ := h.elim
  obtain ⟨v, rfl⟩ := isKw_iff ht
  refine P.bind P.curT ?_
  branch
  exact P.bind P.isPg (P.bind (p_iteT (by simp [hd]) hc) (P.ret _))

theorem prop_generated {s : Span} (hd : e.opts.dialect ≠ .postgreSQL) (h : Kws [.GENERATED, .ALWAYS] ts s r) :
    P e (typeProperty noAs) ts (some (nd% DataTypeProperty_GeneratedAlways [s])) r := by
  have hc := p_ckws (e := e) h
  obtain ⟨t, a, tl, rfl, ht⟩ := h.elim
  obtain ⟨v, rfl⟩ := isKw_iff ht
  refine P.bind P.curT ?_
  branch
  exact P.bind P.isPg (P.bind (p_iteF (by simp [hd]) hc) (P.ret _))

theorem p_parenExpr {lp rp : Span} {a : Ast} (ha : P e expr ts a ((.rParen, rp) :: r)) : P e parenExprOrInvalid ((.lParen, lp) :: ts) a r :=
  P.bind p_ctk_lParen (P.bind (p_recovered ha (by simp [Next, isRParen])) (P.bind p_ctk_rParen (P.ret _)))

theorem prop_as {lp rp : Span} {a : Ast} (h : t.isKw .AS = true) (ha : P e expr ts a ((.rParen, rp) :: r)) :
    P e (typeProperty false) ((t, sp) :: (.lParen, lp) :: ts) (some (nd% DataTypeProperty_As [sp, a])) r := by
  obtain ⟨v, rfl⟩ := isKw_iff h
  refine P.bind P.curT ?_
  branch
  exact P.bind (P.ckw h) (P.bind (p_parenExpr ha) (P.ret _))

theorem prop_primaryKey {s : Span} (h : Kws [.PRIMARY, .KEY] ts s r) :
    P e (typeProperty noAs) ts (some (nd% DataTypeProperty_PrimaryKey [s])) r := by
  have hc := p_ckws (e := e) h
  obtain ⟨t, a, tl, rfl, ht⟩ := h.elim
  obtain ⟨v, rfl⟩ := isKw_iff ht
  refine P.bind P.curT ?_
  branch
  exact P.bind hc (P.ret _)

theorem prop_check {lp rp : Span} {a : Ast} (h : t.isKw .CHECK = true) (ha : P e expr ts a ((.rParen, rp) :: r)) :
    P e (typeProperty noAs) ((t, sp) :: (.lParen, lp) :: ts) (some (nd% DataTypeProperty_Check [sp, a])) r := by
  obtain ⟨v, rfl⟩ := isKw_iff h
  refine P.bind P.curT ?_
  branch
  exact P.bind (P.ckw h) (P.bind (p_parenExpr ha) (P.ret _))

/-- The properties are read. -/
def PProps (e : Env) (noAs : Bool) (ts : List Tk) (l : List Ast) (r : List Tk) : Prop :=
  ∀ x, P e (manyFrom (typeProperty noAs) x) ts (x ++ l) r

theorem props_nil (h : P e (typeProperty noAs) r none r) : PProps e noAs r [] r := by
  intro x
  rw [List.append_nil]
  exact p_many_none h

theorem props_cons {a : Ast} {l : List Ast} (h : P e (typeProperty noAs) ts (some a) r1) (hr : PProps e noAs r1 l r) :
    PProps e noAs ts (a :: l) r := fun _ => p_many_some h (hr _)

theorem p_dt {ty : Span × OAst} {l : List Ast} (ht : Ty e ts ty r1) (hp : PProps e noAs r1 l r) :
    P e (parseDataType noAs) ts (nd% DataType [ty.1, ty.2, l]) r :=
  P.bind (p_type ht) (P.bind (p_manyOpt hp) (P.ret _))

theorem p_orderItem {a : Ast} {f : OAst} (h : P e expr ts a r1) (hf : P e orderFlag r1 f r) : P e orderItem ts (a, f) r :=
  P.bind h (P.bind hf (P.ret _))

theorem p_asc (h : t.isKw .ASC = true) : P e orderFlag ((t, sp) :: r) (ond% OrderFlag_Asc [sp]) r := by
  obtain ⟨v, rfl⟩ := isKw_iff h
  refine P.bind P.curT ?_
  branch
  exact P.bind (p_consKw h) (P.ret _)

theorem p_desc (h : t.isKw .DESC = true) : P e orderFlag ((t, sp) :: r) (ond% OrderFlag_Desc [sp]) r := by
  obtain ⟨v, rfl⟩ := isKw_iff h
  refine P.bind P.curT ?_
  branch
  exact P.bind (p_consKw h) (P.ret _)

theorem p_noFlag (h : NoKw [.ASC, .DESC] r) : P e orderFlag r (ond% OrderFlag_None []) r := by
  obtain ⟨t, sp, tl, rfl, h'⟩ := Next.elim h
  refine P.bind P.curT ?_
  rw [if_neg (by simp [h' .ASC (by decide)]), if_neg (by simp [h' .DESC (by decide)])]
  exact P.ret _

theorem p_outerExpr {a : Ast} (hn : NotKw .SELECT ts) (h : P e expr ts a r) : P e exprOuter ts a r := by
  obtain ⟨t, sp, tl, rfl, h'⟩ := Next.elim hn
  refine P.bind P.curT (p_iteF (by simp [h']) h)

theorem p_outerSelect {a : Ast} (hn : Next (fun t => t.isKw .SELECT = true) ts) (h : P e parseSelect ts a r) : P e exprOuter ts (nd% Subquery [a]) r := by
  obtain ⟨t, sp, tl, rfl, h'⟩ := Next.elim hn
  exact P.bind P.curT (p_iteT h' (P.bind h (P.ret _)))

theorem p_parenExpr' {a : Ast} (hn : NotKw .SELECT ts) (h : P e expr ts a r) : P e exprParen ts a r := by
  obtain ⟨t, sp, tl, rfl, h'⟩ := Next.elim hn
  refine P.bind P.curT (p_iteF (by simp [h']) h)

theorem p_parenQuery {a : Ast} (hn : Next (fun t => t.isKw .SELECT = true) ts) (h : P e (.call .compoundQuery) ts a r) :
    P e exprParen ts (nd% Subquery [a]) r := by
  obtain ⟨t, sp, tl, rfl, h'⟩ := Next.elim hn
  exact P.bind P.curT (p_iteT h' (P.bind h (P.ret _)))

theorem p_selPlain {a : Ast} (h : P e expr ts a r) (hr : NotKw .AS r) : P e selectExpr ts (nd% SelectExpr [a, (none : Option Ast)]) r :=
  P.bind h (P.bind (n_skw_no hr) (P.bind (p_optIfF rfl) (P.ret _)))

theorem p_selAs {a i : Ast} (h : P e expr ts a ((t, sp) :: r1)) (ht : t.isKw .AS = true) (hi : Idn e r1 i r) :
    P e selectExpr ts (nd% SelectExpr [a, some i]) r :=
  P.bind h (P.bind (P.skw ht) (P.bind (p_optIfT rfl (p_ident hi)) (P.ret _)))

theorem p_triQuery {q : Ast} {al : Option Span × Option Ast} (hn : Next (fun t => t.isKw .SELECT = true ∨ t = .lParen) ts)
    (h : P e (.call .compoundQuery) ts q r1) (ha : Alias e r1 al r) :
    P e tableReferenceInner ts (nd% TableReference_Query [q, al.1, al.2]) r := by
  obtain ⟨t, sp, tl, rfl, h'⟩ := Next.elim hn
  exact P.bind P.curT (p_iteT (by simpa using h') (P.bind h (P.bind (p_alias ha) (P.ret _))))

theorem p_triTable {v : List Char} {k : Keyword} {q : Ast} {al : Option Span × Option Ast} {hs : List Ast}
    (h : QName e ((.ident v k, sp) :: ts) q r1) (ha : Alias e r1 al r2) (hh : Hints e r2 hs r) :
    P e tableReferenceInner ((.ident v k, sp) :: ts) (nd% TableReference_Table [q, al.1, al.2, hs]) r := by
  have hk : k.reserved = false := by
    cases h with
    | mk h =>
      cases h with
      | last h => cases h with | word h => exact h
      | dot h => cases h with | word h => exact h
  have hs' : k ≠ .SELECT := by rintro rfl; exact absurd hk (by decide)
  refine P.bind P.curT (p_iteF (by simp [Token.isKw, hs']) ?_)
  exact P.bind (p_qualifiedName h) (P.bind (p_alias ha) (P.bind (p_hints hh) (P.bind (p_checkHints hh.maria) (P.ret _))))

theorem p_jNone (h : NoKw [.ON, .USING] r) : P e joinSpecification r none r := by
  obtain ⟨t, sp, tl, rfl, h'⟩ := Next.elim h
  refine P.bind P.curT ?_
  rw [if_neg (by simp [h' .ON (by decide)]), if_neg (by simp [h' .USING (by decide)])]
  exact P.ret _

theorem p_jOn {a : Ast} (h : t.isKw .ON = true) (ha : P e expr ts a r) :
    P e joinSpecification ((t, sp) :: ts) (some (nd% JoinSpecification_On [a, sp])) r := by
  obtain ⟨v, rfl⟩ := isKw_iff h
  refine P.bind P.curT ?_
  branch
  exact P.bind (P.ckw h) (P.bind ha (P.ret _))

theorem p_jUsing {l : List Ast} (h : t.isKw .USING = true) (hl : CommaL (Idn e) ts l r) :
    P e joinSpecification ((t, sp) :: ts) (some (nd% JoinSpecification_Using [l, sp])) r := by
  obtain ⟨v, rfl⟩ := isKw_iff h
  refine P.bind P.curT ?_
  branch
  exact P.bind (P.ckw h) (P.bind (p_commaList (CommaL.map p_ident hl)) (P.ret _))

/-- The loop of joins. -/
def joinLoop (a : Ast) : Prog Ast :=
  .loop (fun ans => do
    let j ← joinType
    match j with
    | some j => do
      let r ← tableReferenceInner
      let sp ← joinSpecification
      return .cont (nd% TableReference_Join [j, ans, r, sp])
    | none => return .done ans) a

theorem p_joinsNil {a : Ast} (h : NoKw joinWords r) : P e (joinLoop a) r a r :=
  P.done (P.bind (p_joinType_no h) (P.ret _))

theorem p_joinsCons {a j x b : Ast} {s : Option Ast} (hj : JoinTy ts j r1) (hx : P e tableReferenceInner r1 x r2)
    (hs : P e joinSpecification r2 s r3) (hr : P e (joinLoop (nd% TableReference_Join [j, a, x, s])) r3 b r) : P e (joinLoop a) ts b r :=
  P.cont (P.bind (p_joinType hj) (P.bind hx (P.bind hs (P.ret _)))) hr

theorem p_tr {a b : Ast} (h : P e tableReferenceInner ts a r1) (hj : P e (joinLoop a) r1 b r) : P e tableReference ts b r :=
  P.bind h hj

/-- What comes after LIMIT. -/
def limitRest (s : Span) : Prog (Span × Option Ast × Ast) := do
    let n ← .call (.expression true)
    let t ← curT
    if t = .comma then do
      let _ ← consume
      let m ← .call (.expression true)
      return (s, some n, m)
    else if t.isKw .OFFSET then do
      let _ ← consume
      let m ← .call (.expression true)
      return (s, some m, n)
    else return (s, none, n)

theorem p_limPlain {s : Span} {n : Ast} (h : P e (.call (.expression true)) ts n r)
    (hr : Next (fun t => t ≠ .comma ∧ t.isKw .OFFSET = false) r) : P e (limitRest s) ts (s, none, n) r := by
  obtain ⟨t, sp, tl, rfl, h1, h2⟩ := Next.elim hr
  exact P.bind h (P.bind P.curT (p_iteF h1 (p_iteF (by simp [h2]) (P.ret _))))

theorem p_limComma {s c : Span} {o n : Ast} (ho : P e (.call (.expression true)) ts o ((.comma, c) :: r1))
    (hn : P e (.call (.expression true)) r1 n r) : P e (limitRest s) ts (s, some o, n) r :=
  P.bind ho (P.bind P.curT (p_iteT rfl (P.bind p_consTk (P.bind hn (P.ret _)))))

theorem p_limOffset {s c : Span} {o n : Ast} (hn : P e (.call (.expression true)) ts n ((t, c) :: r1)) (ht : t.isKw .OFFSET = true)
    (ho : P e (.call (.expression true)) r1 o r) : P e (limitRest s) ts (s, some o, n) r := by
  refine P.bind hn (P.bind P.curT (p_iteF ?_ (p_iteT ht (P.bind (p_consKw ht) (P.bind ho (P.ret _))))))
  rintro rfl
  cases ht

/-- What comes after GROUP and ORDER. -/
def groupRest (g : Span) : Prog (Span × List Ast) := do
    let b ← ckw .BY
    let l ← commaList expr
    return (joinSpan b g, l)
def orderRest (g : Span) : Prog (Span × List (Ast × OAst)) := do
    let b ← ckw .BY
    let l ← commaList orderItem
    return (joinSpan b g, l)
def exprRest (s : Span) : Prog (Ast × Span) := do
    let e ← expr
    return (e, s)

theorem p_group {o : Option (Span × List Ast)} (h : OptKw .GROUP (fun sp => P e (groupRest sp)) ts o r) : P e groupBy ts o r := p_optKw h
theorem p_order {o : Option (Span × List (Ast × OAst))} (h : OptKw .ORDER (fun sp => P e (orderRest sp)) ts o r) : P e orderBy ts o r :=
  p_optKw h
theorem p_limit {o : Option (Span × Option Ast × Ast)} (h : OptKw .LIMIT (fun sp => P e (limitRest sp)) ts o r) : P e limitClause ts o r :=
  p_optKw h
theorem p_kwExpr {k : Keyword} {o : Option (Ast × Span)} (h : OptKw k (fun sp => P e (exprRest sp)) ts o r) (hk : k ≠ .«_LIST_») :
    P e (kwExpr k) ts o r := p_optKw h hk

theorem p_selNoFrom {fl xs : List Ast} (h : t.isKw .SELECT = true) (hf : Flags selectFlagTable ts fl r1)
    (hx : CommaL (P e selectExpr) r1 xs r) (hn : NotKw .FROM r) :
    P e parseSelect ((t, sp) :: ts) (nd% Select [sp, fl, xs, (none : Option Span), (none : Option Ast), (none : Option Ast),
        (none : Option Ast), (none : Option Ast), (none : Option Ast), (none : Option Ast), (none : Option Ast), (none : Option Ast)]) r :=
  P.bind (P.ckw h) (P.bind (p_flags (by decide) hf) (P.bind (p_commaList hx) (P.bind (n_skw_no hn) (P.ret _))))

theorem p_selFrom {t' : Token} {s f : Span} {r4 r5 r6 r7 r8 r9 : List Tk} {fl xs tr : List Ast} {w hv : Option (Ast × Span)}
      {g : Option (Span × List Ast)} {wi : Option Span} {o : Option (Span × List (Ast × OAst))} {li : Option (Span × Option Ast × Ast)}
      {lo : Option Ast} (h : t.isKw .SELECT = true) (hf : Flags selectFlagTable ts fl r1) (hx : CommaL (P e selectExpr) r1 xs ((t', f) :: r2))
      (h' : t'.isKw .FROM = true) (ht : CommaL (P e tableReference) r2 tr r3) (hw : OptKw .WHERE (fun sp => P e (exprRest sp)) r3 w r4)
      (hg : OptKw .GROUP (fun sp => P e (groupRest sp)) r4 g r5) (hh : OptKw .HAVING (fun sp => P e (exprRest sp)) r5 hv r6)
      (hwi : OptK .WINDOW r6 wi r7) (ho : OptKw .ORDER (fun sp => P e (orderRest sp)) r7 o r8)
      (hl : OptKw .LIMIT (fun sp => P e (limitRest sp)) r8 li r9) (hlo : OptKw .FOR (LockSpec e) r9 lo r) :
      P e parseSelect ((t, s) :: ts) (nd% Select [s, fl, xs, some f, some tr, w, g, hv, wi, o, li, lo]) r :=
  P.bind (P.ckw h) (P.bind (p_flags (by decide) hf) (P.bind (p_commaList hx) (P.bind (P.skw h') (P.bind (p_commaList ht)
    (P.bind (p_kwExpr hw (by decide)) (P.bind (p_group hg) (P.bind (p_kwExpr hh (by decide)) (P.bind (p_optK hwi)
    (P.bind (p_order ho) (P.bind (p_limit hl) (P.bind (p_locking hlo) (P.ret _))))))))))))

end
end SqlParse
