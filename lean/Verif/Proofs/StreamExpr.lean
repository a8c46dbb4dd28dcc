import Verif.Proofs.StreamQuery
/-! Every expression, data type and query of the grammar is parsed to its AST. -/
namespace SqlParse

section
variable {e : Env} {ts r r1 r2 r3 tl : List Tk} {t : Token} {sp : Span}

theorem p_partParen {lp rp : Span} {a : Ast} (h : P e (.call .compoundQuery) ts a ((.rParen, rp) :: r)) :
    P e compoundBottom ((.lParen, lp) :: ts) a r :=
  P.bind P.curT (p_iteT rfl (P.bind p_ctk_lParen (P.bind (p_recovered h (by simp [Next, isRParen])) (P.bind p_ctk_rParen (P.ret _)))))

theorem p_partSelect {a : Ast} (hn : Next (fun t => t.isKw .SELECT = true) ts) (h : P e parseSelect ts a r) : P e compoundBottom ts a r := by
  obtain ⟨t, sp, tl, rfl, hx⟩ := Next.elim hn
  refine P.bind P.curT (p_iteF ?_ (p_iteT hx h))
  rintro rfl
  cases hx

theorem p_unionAll {t' : Token} {u s : Span} {q : Ast} (h : t.isKw .UNION = true) (h' : t'.isKw .ALL = true) (hq : P e compoundBottom ts q r) :
    P e unionPart ((t, u) :: (t', s) :: ts) (nd% UnionWith [u, ond% UnionType_All [s], q]) r :=
  P.bind (P.ckw h) (P.bind (P.bind P.curT (p_iteT h' (P.bind (P.ckw h') (P.ret _)))) (P.bind hq (P.ret _)))

theorem p_unionDistinct {t' : Token} {u s : Span} {q : Ast} (h : t.isKw .UNION = true) (h' : t'.isKw .DISTINCT = true)
    (hq : P e compoundBottom ts q r) :
    P e unionPart ((t, u) :: (t', s) :: ts) (nd% UnionWith [u, ond% UnionType_Distinct [s], q]) r := by
  refine P.bind (P.ckw h) (P.bind (P.bind P.curT (p_iteF ?_ (p_iteT h' (P.bind (P.ckw h') (P.ret _))))) (P.bind hq (P.ret _)))
  obtain ⟨v, rfl⟩ := isKw_iff h'
  rintro h
  cases h

theorem p_unionDefault {u : Span} {q : Ast} (h : t.isKw .UNION = true) (hn : NoKw [.ALL, .DISTINCT] ts) (hq : P e compoundBottom ts q r) :
    P e unionPart ((t, u) :: ts) (nd% UnionWith [u, ond% UnionType_Default [], q]) r := by
  obtain ⟨t', sp, tl, rfl, hx⟩ := Next.elim hn
  refine P.bind (P.ckw h) (P.bind (P.bind P.curT (p_iteF ?_ (p_iteF ?_ (P.ret _)))) (P.bind hq (P.ret _)))
  · simp [hx .ALL (by decide)]
  · simp [hx .DISTINCT (by decide)]

/-- The loop of UNIONs. -/
def unionLoop (x : List Ast) : Prog (List Ast) :=
  .loop (fun acc => do
    let a ← unionPart
    let m ← (do let t ← curT; return t.isKw .UNION)
    return (if m then .cont (acc ++ [a]) else .done (acc ++ [a]))) x

theorem p_unionLast {a : Ast} {x : List Ast} (h : P e unionPart ts a r) (hr : NotKw .UNION r) : P e (unionLoop x) ts (x ++ [a]) r := by
  obtain ⟨t', sp, tl, rfl, hx⟩ := Next.elim hr
  refine P.done (P.bind h (P.bind (P.bind P.curT (P.ret _)) ?_))
  rw [hx]
  exact P.ret _

theorem p_unionCons {a : Ast} {x l : List Ast} (h : P e unionPart ts a r1) (hn : Next (fun t => t.isKw .UNION = true) r1)
    (hl : ∀ x, P e (unionLoop x) r1 (x ++ l) r) : P e (unionLoop x) ts (x ++ a :: l) r := by
  obtain ⟨t', sp, tl, rfl, hx⟩ := Next.elim hn
  have := hl (x ++ [a])
  rw [List.append_assoc] at this
  refine P.cont (P.bind h (P.bind (P.bind P.curT (P.ret _)) ?_)) this
  rw [hx]
  exact P.ret _

theorem p_compOne {a : Ast} (h : P e compoundBottom ts a r) (hr : NotKw .UNION r) : P e (.call .compoundQuery) ts a r := by
  obtain ⟨t', sp, tl, rfl, hx⟩ := Next.elim hr
  exact P.call (P.bind h (P.bind P.curT (p_iteT (by simp [hx]) (P.ret _))))

theorem p_compUnion {a : Ast} {l : List Ast} {o : Option (Span × List (Ast × OAst))} {li : Option (Span × Option Ast × Ast)}
    (h : P e compoundBottom ts a r1) (hn : Next (fun t => t.isKw .UNION = true) r1) (hu : ∀ x, P e (unionLoop x) r1 (x ++ l) r2)
    (ho : OptKw .ORDER (fun sp => P e (orderRest sp)) r2 o r3) (hl : OptKw .LIMIT (fun sp => P e (limitRest sp)) r3 li r) :
    P e (.call .compoundQuery) ts (nd% Union [a, l, o, li]) r := by
  obtain ⟨t', sp, tl, rfl, hx⟩ := Next.elim hn
  exact P.call (P.bind h (P.bind P.curT (p_iteF (by simp [hx]) (P.bind (hu []) (P.bind (p_order ho) (P.bind (p_limit hl) (P.ret _)))))))

theorem Sel.first {a : Ast} (h : Sel e ts a r) : Next (fun t => t.isKw .SELECT = true) ts := by
  cases h <;> assumption

theorem UnionPart.first {a : Ast} (h : UnionPart e ts a r) : Next (fun t => t.isKw .UNION = true) ts := by
  cases h <;> assumption

theorem Unions.first {l : List Ast} (h : Unions e ts l r) : Next (fun t => t.isKw .UNION = true) ts := by
  cases h with
  | one h => exact h.first
  | cons h => exact h.first

theorem Whens.first {l : List Ast} (h : Whens e ts l r) : Next (fun t => t.isKw .WHEN = true) ts := by
  cases h <;> assumption

theorem p_caseWhen {t' : Token} {w th : Span} {a b : Ast} (h : t.isKw .WHEN = true)
    (ha : P e expr ts a ((t', th) :: r1)) (h' : t'.isKw .THEN = true) (hb : P e expr r1 b r) :
    P e caseWhen ((t, w) :: ts) (nd% When [w, a, th, b]) r :=
  P.bind (P.ckw h) (P.bind ha (P.bind (P.ckw h') (P.bind hb (P.ret _))))

mutual

theorem ex_p {inner : Bool} {ts r : List Tk} {a : Ast} : Ex e inner ts a r → P e (.call (.expression inner)) ts a r
  | .mk h hw => ex_mk (its_p h) hw

theorem its_p {inner after : Bool} {ts r : List Tk} {l : List Item} : Its e inner after ts l r → PIts e inner after ts l r
  | .stop h => its_stop h
  | .opd h hr => its_opd (od_p h) (its_p hr)
  | .un ho hr => its_un ho (its_p hr)
  | .bin ho hr => its_bin ho (its_p hr)
  | .notLike h1 h2 hr => its_notLike h1 h2 (its_p hr)
  | .isIn h ha hr => its_in h (pas_p ha) (its_p hr)
  | .notIn h1 h2 ha hr => its_notIn h1 h2 (pas_p ha) (its_p hr)
  | .is h1 h2 hr => its_isP h1 (p_isWord h2) (its_p hr)
  | .isNot h1 hn h2 hr => its_isP h1 (p_isNotWord hn h2) (its_p hr)

theorem od_p {ts r : List Tk} {a : Ast} : Od e ts a r → POd e ts a r
  | .true h => od_true h
  | .false h => od_false h
  | .null h => od_null h
  | .star => od_star
  | .integer h => od_integer h
  | .float => od_float
  | .str h => od_str h
  | .arg hm hl => od_arg hm hl
  | .list hm hl => od_list hm hl
  | .dollar h => od_dollar h
  | .paren h => od_paren (pa_p h)
  | .globalVar hm => od_globalVar hm
  | .sessionVar hm => od_sessionVar hm
  | .intervalStr h hs hv hu => od_intervalP h (p_intervalStr hs hv) hu
  | .intervalInt h hn hu => od_intervalP h (p_intervalInt hn) hu
  | .timestampAdd h hu ha hb => od_timestampAdd h hu (ou_p ha) (ou_p hb)
  | .timestampDiff h hu ha hb => od_timestampDiff h hu (ou_p ha) (ou_p hb)
  | .cast h ha h' hd => od_cast h (ou_p ha) h' (dt_p hd)
  | .count h hd ha => od_count h hd (ou_p ha)
  | .groupConcat h hd ha => od_groupConcat h hd (ou_p ha)
  | .extract h hu h' ha => od_extract h hu h' (ou_p ha)
  | .func hn hf ha ho hr => od_func hn hf (hr ▸ args_p ha) (hr ▸ ho)
  | .window hn hf ha ht ho hl => od_window hn hf (args_p ha) ht ho (ords_p hl)
  | .nullary h hr => od_nullary h hr
  | .name hn hk hr hp => od_name hn hk hr hp
  | .exist h hq => od_exists h (comp_p hq)
  | .caseWhen h hn hw hl he => od_case h (.inl ⟨rfl, rfl, hn⟩) (whens_p hw) (els_p hl) he
  | .caseOf h hn hv hw hl he => od_case h (.inr ⟨_, rfl, hn, ex_p hv⟩) (whens_p hw) (els_p hl) he

theorem args_p {ts r : List Tk} {l : List Ast} : Args e ts l r → PArgs e ts l r
  | .nil => .inl ⟨rfl, _, rfl⟩
  | .some hn h => .inr ⟨hn, _, ous_p h⟩

theorem whens_p {ts r : List Tk} {l : List Ast} : Whens e ts l r → PWhens e ts l r
  | .one h ha h' hb hn => .one (p_caseWhen h (ex_p ha) h' (ex_p hb)) hn
  | .cons h ha h' hb hl => .cons (p_caseWhen h (ex_p ha) h' (ex_p hb)) hl.first (whens_p hl)

theorem els1_p {sp : Span} {ts r : List Tk} {a : Span × Ast} : Els e sp ts a r → ∃ v, a = (sp, v) ∧ P e expr ts v r
  | .mk h => ⟨_, rfl, ex_p h⟩

theorem els_p {ts r : List Tk} {a : Option (Span × Ast)} : OptKw .ELSE (Els e) ts a r →
    OptKw .ELSE (fun sp ts a r => ∃ v, a = (sp, v) ∧ P e expr ts v r) ts a r
  | .none h => .none h
  | .some h hr => .some h (els1_p hr)

theorem ou_p {ts r : List Tk} {a : Ast} : Ou e ts a r → P e exprOuter ts a r
  | .expr hn h => p_outerExpr hn (ex_p h)
  | .select h => p_outerSelect h.first (sel_p h)

theorem ous_p {ts r : List Tk} {l : List Ast} : CommaL (Ou e) ts l r → CommaL (P e exprOuter) ts l r
  | .one h hr => .one (ou_p h) hr
  | .cons h hl => .cons (ou_p h) (ous_p hl)

theorem pa_p {ts r : List Tk} {a : Ast} : Pa e ts a r → P e exprParen ts a r
  | .expr hn h => p_parenExpr' hn (ex_p h)
  | .query hn h => p_parenQuery hn (comp_p h)

theorem pas_p {ts r : List Tk} {l : List Ast} : CommaL (Pa e) ts l r → CommaL (P e exprParen) ts l r
  | .one h hr => .one (pa_p h) hr
  | .cons h hl => .cons (pa_p h) (pas_p hl)

theorem ord_p {ts r : List Tk} {a : Ast × OAst} : Ord e ts a r → P e orderItem ts a r
  | .asc h ht => p_orderItem (ex_p h) (p_asc ht)
  | .desc h ht => p_orderItem (ex_p h) (p_desc ht)
  | .none h hr => p_orderItem (ex_p h) (p_noFlag hr)

theorem ords_p {ts r : List Tk} {l : List (Ast × OAst)} : CommaL (Ord e) ts l r → CommaL (P e orderItem) ts l r
  | .one h hr => .one (ord_p h) hr
  | .cons h hl => .cons (ord_p h) (ords_p hl)

theorem dt_p {noAs : Bool} {ts r : List Tk} {a : Ast} : DT e noAs ts a r → P e (parseDataType noAs) ts a r
  | .mk ht hp => p_dt ht (props_p hp)

theorem props_p {noAs : Bool} {ts r : List Tk} {l : List Ast} : Props e noAs ts l r → PProps e noAs ts l r
  | .nil h1 h2 h3 => props_nil (prop_nil h1 h2 h3)
  | .plain h hr => props_cons (prop_plain h) (props_p hr)
  | .notNull h h' hr => props_cons (prop_notNull h h') (props_p hr)
  | .charset h hi hr => props_cons (prop_charset h hi) (props_p hr)
  | .collate h hi hr => props_cons (prop_collate h hi) (props_p hr)
  | .comment h hi hr => props_cons (prop_comment h hi) (props_p hr)
  | .default h ha hr => props_cons (prop_default h (ex_p ha)) (props_p hr)
  | .uniqueKey h h' hr => props_cons (prop_uniqueKey h h') (props_p hr)
  | .unique h hn hr => props_cons (prop_unique h hn) (props_p hr)
  | .generatedPg hd h hr => props_cons (prop_generatedPg hd h) (props_p hr)
  | .generated hd h hr => props_cons (prop_generated hd h) (props_p hr)
  | .as h ha hr => props_cons (prop_as h (ex_p ha)) (props_p hr)
  | .primaryKey h hr => props_cons (prop_primaryKey h) (props_p hr)
  | .check h ha hr => props_cons (prop_check h (ex_p ha)) (props_p hr)

theorem selE_p {ts r : List Tk} {a : Ast} : SelE e ts a r → P e selectExpr ts a r
  | .plain h hr => p_selPlain (ex_p h) hr
  | .as h ht hi => p_selAs (ex_p h) ht hi

theorem selEs_p {ts r : List Tk} {l : List Ast} : CommaL (SelE e) ts l r → CommaL (P e selectExpr) ts l r
  | .one h hr => .one (selE_p h) hr
  | .cons h hl => .cons (selE_p h) (selEs_p hl)

theorem tri_p {ts r : List Tk} {a : Ast} : TRi e ts a r → P e tableReferenceInner ts a r
  | .query hn h ha => p_triQuery hn (comp_p h) ha
  | .table h ha hh => p_triTable h ha hh

theorem jspec_p {ts r : List Tk} {a : Option Ast} : JSpec e ts a r → P e joinSpecification ts a r
  | .none h => p_jNone h
  | .on h ha => p_jOn h (ex_p ha)
  | .using h hl => p_jUsing h hl

theorem joins_p {ts r : List Tk} {a b : Ast} : Joins e a ts b r → P e (joinLoop a) ts b r
  | .nil h => p_joinsNil h
  | .cons hj hx hs hr => p_joinsCons hj (tri_p hx) (jspec_p hs) (joins_p hr)

theorem tr_p {ts r : List Tk} {a : Ast} : TR e ts a r → P e tableReference ts a r
  | .mk h hj => p_tr (tri_p h) (joins_p hj)

theorem trs_p {ts r : List Tk} {l : List Ast} : CommaL (TR e) ts l r → CommaL (P e tableReference) ts l r
  | .one h hr => .one (tr_p h) hr
  | .cons h hl => .cons (tr_p h) (trs_p hl)

theorem exk1_p {sp : Span} {ts r : List Tk} {a : Ast × Span} : ExK e sp ts a r → P e (exprRest sp) ts a r
  | .mk h => P.bind (ex_p h) (P.ret _)

theorem where_p {ts r : List Tk} {a : Option (Ast × Span)} : OptKw .WHERE (ExK e) ts a r → OptKw .WHERE (fun sp => P e (exprRest sp)) ts a r
  | .none h => .none h
  | .some h hr => .some h (exk1_p hr)

theorem having_p {ts r : List Tk} {a : Option (Ast × Span)} : OptKw .HAVING (ExK e) ts a r → OptKw .HAVING (fun sp => P e (exprRest sp)) ts a r
  | .none h => .none h
  | .some h hr => .some h (exk1_p hr)

theorem exs_p {ts r : List Tk} {l : List Ast} : CommaL (Ex e false) ts l r → CommaL (P e expr) ts l r
  | .one h hr => .one (ex_p h) hr
  | .cons h hl => .cons (ex_p h) (exs_p hl)

theorem group1_p {sp : Span} {ts r : List Tk} {a : Span × List Ast} : GroupBy e sp ts a r → P e (groupRest sp) ts a r
  | .mk h hl => P.bind (P.ckw h) (P.bind (p_commaList (exs_p hl)) (P.ret _))

theorem group_p {ts r : List Tk} {a : Option (Span × List Ast)} : OptKw .GROUP (GroupBy e) ts a r →
    OptKw .GROUP (fun sp => P e (groupRest sp)) ts a r
  | .none h => .none h
  | .some h hr => .some h (group1_p hr)

theorem order1_p {sp : Span} {ts r : List Tk} {a : Span × List (Ast × OAst)} : OrderBy e sp ts a r → P e (orderRest sp) ts a r
  | .mk h hl => P.bind (P.ckw h) (P.bind (p_commaList (ords_p hl)) (P.ret _))

theorem order_p {ts r : List Tk} {a : Option (Span × List (Ast × OAst))} : OptKw .ORDER (OrderBy e) ts a r →
    OptKw .ORDER (fun sp => P e (orderRest sp)) ts a r
  | .none h => .none h
  | .some h hr => .some h (order1_p hr)

theorem lim1_p {sp : Span} {ts r : List Tk} {a : Span × Option Ast × Ast} : Lim e sp ts a r → P e (limitRest sp) ts a r
  | .plain h hr => p_limPlain (ex_p h) hr
  | .comma ho hn => p_limComma (ex_p ho) (ex_p hn)
  | .offset hn ht ho => p_limOffset (ex_p hn) ht (ex_p ho)

theorem lim_p {ts r : List Tk} {a : Option (Span × Option Ast × Ast)} : OptKw .LIMIT (Lim e) ts a r →
    OptKw .LIMIT (fun sp => P e (limitRest sp)) ts a r
  | .none h => .none h
  | .some h hr => .some h (lim1_p hr)

theorem sel_p {ts r : List Tk} {a : Ast} : Sel e ts a r → P e parseSelect ts a r
  | .noFrom h hf hx hn => p_selNoFrom h hf (selEs_p hx) hn
  | .from h hf hx h' ht hw hg hh hwi ho hl hlo =>
    p_selFrom h hf (selEs_p hx) h' (trs_p ht) (where_p hw) (group_p hg) (having_p hh) hwi (order_p ho) (lim_p hl) hlo

theorem part_p {ts r : List Tk} {a : Ast} : QPart e ts a r → P e compoundBottom ts a r
  | .select h => p_partSelect h.first (sel_p h)
  | .paren h => p_partParen (comp_p h)

theorem union_p {ts r : List Tk} {a : Ast} : UnionPart e ts a r → P e unionPart ts a r
  | .all h h' hq => p_unionAll h h' (part_p hq)
  | .distinct h h' hq => p_unionDistinct h h' (part_p hq)
  | .default h hn hq => p_unionDefault h hn (part_p hq)

theorem unions_p {ts r : List Tk} {l : List Ast} : Unions e ts l r → ∀ x, P e (unionLoop x) ts (x ++ l) r
  | .one h hr => fun _ => p_unionLast (union_p h) hr
  | .cons h hl => fun _ => p_unionCons (union_p h) hl.first (unions_p hl)

theorem comp_p {ts r : List Tk} {a : Ast} : Comp e ts a r → P e (.call .compoundQuery) ts a r
  | .one h hr => p_compOne (part_p h) hr
  | .union h hu ho hl => p_compUnion (part_p h) hu.first (unions_p hu) (order_p ho) (lim_p hl)

end

end
end SqlParse
