import Verif.Proofs.StreamStmt
/-! What is consumed by phrases: tokens that are valid, except in the text of a function (PostgreSQL); and there is no data after the last one. -/
namespace SqlParse

/-- A token that is valid and has no data after it, or is not the last one. -/
def Okl (d : Data) (p : Tk) (r : List Tk) : Prop :=
  p.1 ≠ .invalid ∧ (p.1 ≠ .semiColon ∧ p.1 ≠ .doubleDollar ∨ d p.2 = none ∨ Next (· ≠ .eof) r)

/-- Tokens that are valid and have no data after them. -/
def okTok : Token → Bool
  | .invalid | .semiColon | .doubleDollar => false
  | _ => true

theorem okt_of {d : Data} {p : Tk} {r : List Tk} (h : okTok p.1 = true) : Okl d p r := by
  refine ⟨?_, .inl ⟨?_, ?_⟩⟩ <;> (intro h'; rw [h'] at h; cases h)

theorem kw_okt {d : Data} {t : Token} {k : Keyword} {s : Span} {r : List Tk} (h : t.isKw k = true) : Okl d (t, s) r := by
  cases t <;> first | (cases h; done) | exact okt_of rfl

theorem look_okt {d : Data} {t : Token} {tbl : List (Keyword × Kind)} {K : Kind} {s : Span} {r : List Tk} (h : tbl.lookup t.kw = some K)
    (hn : tbl.lookup .NOT_A_KEYWORD = none) : Okl d (t, s) r := by
  cases t <;> first | exact okt_of rfl | (rw [show Token.kw _ = .NOT_A_KEYWORD from rfl, hn] at h; cases h)

theorem semi_okt {d : Data} {s : Span} {r : List Tk} (h : d s = none) : Okl d (.semiColon, s) r := ⟨(fun h => by cases h), .inr (.inl h)⟩
theorem dollar_okt {d : Data} {s : Span} {r : List Tk} (h : d s = none) : Okl d (.doubleDollar, s) r := ⟨(fun h => by cases h), .inr (.inl h)⟩

theorem str_okt {d : Data} {t : Token} {v : List Char} {s : Span} {r : List Tk} (h : stringText t = some v) : Okl d (t, s) r := by
  cases t <;> first | (cases h; done) | exact okt_of rfl
theorem un_okt {d : Data} {t : Token} {i : Bool} {o : UnOp} {s : Span} {r : List Tk} (h : unTok i t = some o) : Okl d (t, s) r := by
  cases t <;> first | exact okt_of rfl | (cases i <;> cases h)
theorem bin_okt {d : Data} {t : Token} {i : Bool} {o : BinOp} {s : Span} {r : List Tk} (h : binTok i t = some o) : Okl d (t, s) r := by
  cases t <;> first | exact okt_of rfl | (cases i <;> cases h)
theorem arg_okt {d : Data} {e' : Env} {t : Token} {s s' : Span} {r : List Tk} (h : argTk e'.opts e'.args (t, s') = true) : Okl d (t, s) r := by
  cases t <;> first | exact okt_of rfl | (simp [argTk, marker, Token.isKw] at h)

macro "okt" : tactic => `(tactic| first
  | exact okt_of rfl
  | exact kw_okt (by assumption)
  | exact look_okt (by assumption) (by first | assumption | rfl)
  | exact str_okt (by assumption) | exact un_okt (by assumption) | exact bin_okt (by assumption) | exact arg_okt (e' := by assumption) (by assumption)
  | exact semi_okt (by assumption) | exact dollar_okt (by assumption))

/-- Is the dialect PostgreSQL? -/
def Env.isPg (e : Env) : Prop := e.opts.dialect = .postgreSQL

/-- The list ends with `X`, and what comes before is valid. -/
inductive Lv (X : List Tk) (d : Data) (pg : Prop) : List Tk → Prop where
  | base : Lv X d pg X
  | cons {p : Tk} {r : List Tk} (h : Lv X d pg r) (hp : Okl d p r := by okt) : Lv X d pg (p :: r)
  | body (hpg : pg) {t : Token} {s s1 s2 : Span} {b r : List Tk} (ht : t.isKw .AS = true) (hb : ∀ p ∈ b, p.1 ≠ .doubleDollar ∧ p.1 ≠ .eof) (hd : d s2 = none)
      (hr : Lv X d pg r) : Lv X d pg ((t, s) :: (.doubleDollar, s1) :: (b ++ (.doubleDollar, s2) :: r))

/-- The phrase is valid. -/
def Lw (X : List Tk) (e : Env) (ts r : List Tk) : Prop := Lv X e.data e.isPg r → Lv X e.data e.isPg ts

set_option linter.unusedVariables false
variable {X : List Tk} {e : Env}

theorem idn_lv {ts r : List Tk} {a : Ast} : Idn e ts a r → Lw X e ts r
  | .word hk hq hm => fun hs => .cons hs
  | .quoted hd => fun hs => .cons hs

theorem dotted_lv {ts r : List Tk} {p : List (Ast × Span)} {i : Ast} : Dotted e ts p i r → Lv X e.data e.isPg r → Lv X e.data e.isPg ts
  | .last h hr, hs => let q := idn_lv h hs; q
  | .dot h hl, hs => let q1 := dotted_lv hl hs; let q := idn_lv h (.cons q1); q

theorem qname_lv {ts r : List Tk} {a : Ast} : QName e ts a r → Lw X e ts r
  | .mk h => fun hr => let q := dotted_lv h hr; q

theorem strs_lv {ts r : List Tk} {a : List Char × Span} : Strs ts a r → Lw X e ts r
  | .one h hr => fun hs => .cons hs
  | .cons h hl => fun hs => let q := strs_lv hl hs; .cons q

theorem str_lv {ts r : List Tk} {a : Ast} : Str ts a r → Lw X e ts r
  | .mk h => fun hs => let q := strs_lv h hs; q

theorem num_lv {m : Nat} {ts r : List Tk} {a : Nat × Span} : Num m ts a r → Lw X e ts r
  | .mk h => fun hs => .cons hs

theorem commaL_lv {α : Type} {R : List Tk → α → List Tk → Prop} (hR : ∀ {ts a r}, R ts a r → Lw X e ts r) {ts r : List Tk} {l : List α} :
    CommaL R ts l r → Lw X e ts r
  | .one h hr => fun hs => let q := hR h hs; q
  | .cons h hl => fun hs => let q1 := commaL_lv hR hl hs; let q := hR h (.cons q1); q

theorem kws_lv {ks : List Keyword} {ts r : List Tk} {a : Span} : Kws ks ts a r → Lw X e ts r
  | .one h => fun hs => .cons hs
  | .cons h hl => fun hs => let q := kws_lv hl hs; .cons q

theorem optKw_lv {α : Type} {k : Keyword} {R : Span → List Tk → α → List Tk → Prop} (hR : ∀ {sp ts a r}, R sp ts a r → Lw X e ts r)
    {ts r : List Tk} {a : Option α} : OptKw k R ts a r → Lw X e ts r
  | .none h => fun hs => hs
  | .some h hl => fun hs => let q := hR hl hs; .cons q

theorem optK_lv {k : Keyword} {ts r : List Tk} {a : Option Span} : OptK k ts a r → Lw X e ts r
  | .none h => fun hs => hs
  | .some h => fun hs => .cons hs

theorem flags_lv {tbl : List (Keyword × Kind)} {ts r : List Tk} {l : List Ast} : Flags tbl ts l r → (hn : tbl.lookup .NOT_A_KEYWORD = none := by rfl) → Lw X e ts r
  | .nil h => fun hn hs => hs
  | .cons h hl => fun hn hs => let q := flags_lv hl hn hs; .cons q

theorem timeUnit_lv {ts r : List Tk} {a : OAst × Span} : TimeUnit ts a r → Lw X e ts r
  | .mk h => fun hs => .cons hs

theorem parts_lv {ts r : List Tk} {l : List Ast} : Parts e ts l r → Lw X e ts r
  | .nil h => fun hs => hs
  | .star h => fun hs => let q := parts_lv h hs; .cons (.cons q)
  | .name hi h => fun hs => by
    have q1 := parts_lv h hs
    have q2 := idn_lv hi q1
    exact .cons q2

theorem alias_lv {ts r : List Tk} {a : Option Span × Option Ast} : Alias e ts a r → Lw X e ts r
  | .none h1 h2 => fun hs => hs
  | .as h hi => fun hs => let q := idn_lv hi hs; .cons q
  | .plain hk hi => fun hs => by
    have q2 := idn_lv hi hs
    exact q2

theorem hintFor_lv {ts r : List Tk} {a : Ast} : HintFor ts a r → Lw X e ts r
  | .join h => fun hs => .cons hs
  | .groupBy h => fun hs => let q := kws_lv h hs; q
  | .orderBy h => fun hs => let q := kws_lv h hs; q

/-- A phrase with its keyword. -/
theorem optKwx_lv {α β : Type} {k : Keyword} {R : List Tk → β → List Tk → Prop} {f : Span → β → α} {ts r : List Tk} {a : Option α}
    (h : OptKw k (fun sp ts a r => ∃ b, a = f sp b ∧ R ts b r) ts a r) (hR : ∀ {ts a r}, R ts a r → Lw X e ts r) :
    Lw X e ts r := by
  refine optKw_lv (fun {sp ts a r} h => ?_) h
  obtain ⟨b, h1, h2⟩ := h
  intro hs
  have q := hR h2 hs
  exact q

theorem hints_lv {ts r : List Tk} {l : List Ast} : Hints e ts l r → Lw X e ts r
  | .nil h => fun hs => hs
  | .cons hd hu ht hf hl hr => fun hs =>
    let q1 := hints_lv hr hs
    let q2 := commaL_lv idn_lv hl (.cons q1)
    let q3 := optKwx_lv hf hintFor_lv (.cons q2)
    .cons (.cons q3)

theorem sideJoin_lv {k : Keyword} {ts r : List Tk} {a : Span} : SideJoin k ts a r → Lw X e ts r
  | .plain h => fun hs => let q := kws_lv h hs; q
  | .outer h => fun hs => let q := kws_lv h hs; q

theorem joinTy_lv {ts r : List Tk} {a : Ast} : JoinTy ts a r → Lw X e ts r
  | .inner h => fun hs => let q := kws_lv h hs; q
  | .cross h => fun hs => let q := kws_lv h hs; q
  | .join h => fun hs => let q := kws_lv h hs; q
  | .straight h => fun hs => let q := kws_lv h hs; q
  | .left h => fun hs => let q := sideJoin_lv h hs; q
  | .right h => fun hs => let q := sideJoin_lv h hs; q
  | .naturalInner h => fun hs => let q := kws_lv h hs; q
  | .naturalLeft hn h => fun hs => let q := sideJoin_lv h hs; .cons q
  | .naturalRight hn h => fun hs => let q := sideJoin_lv h hs; .cons q
  | .natural h => fun hs => let q := kws_lv h hs; q

theorem strength_lv {ts r : List Tk} {a : Ast} : Strength e ts a r → Lw X e ts r
  | .update h => fun hs => let q := kws_lv h hs; q
  | .share h => fun hs => let q := kws_lv h hs; q
  | .noKeyUpdate hd h => fun hs => let q := kws_lv h hs; q
  | .keyShare hd h => fun hs => let q := kws_lv h hs; q

theorem wait_lv {ts r : List Tk} {a : OAst} : Wait ts a r → Lw X e ts r
  | .noWait h => fun hs => let q := kws_lv h hs; q
  | .skip h => fun hs => let q := kws_lv h hs; q
  | .default h => fun hs => hs

theorem lockSpec_lv {f : Span} {ts r : List Tk} {a : Ast} : LockSpec e f ts a r → Lw X e ts r
  | .mk hst ho hw => fun hs =>
    let q1 := wait_lv hw hs
    let q2 := optKwx_lv ho (commaL_lv idn_lv) q1
    let q3 := strength_lv hst q2
    q3

theorem width_lv {ts r : List Tk} {a : Nat × Span} : Width ts a r → Lw X e ts r
  | .mk h => fun hs => let q := num_lv h (.cons hs); .cons q

theorem optWidth_lv {ts r : List Tk} {a : Option (Nat × Span)} : OptWidth ts a r → Lw X e ts r
  | .none h => fun hs => hs
  | .some h => fun hs => let q := width_lv h hs; q

theorem strList_lv {ts r : List Tk} {a : List Ast} : StrList ts a r → Lw X e ts r
  | .mk h => fun hs => let q := commaL_lv str_lv h (.cons hs); .cons q

theorem ty_lv {ts r : List Tk} {a : Span × OAst} : Ty e ts a r → Lw X e ts r
  | .plain h => fun hs => .cons hs
  | .width h hw => fun hs => let q := optWidth_lv hw hs; .cons q
  | .varbinary h hw => fun hs => let q := width_lv hw hs; .cons q
  | .bit h hw => fun hs => let q := width_lv hw hs; .cons q
  | .realSqlite h hd => fun hs => .cons hs
  | .real h hd => fun hs => .cons hs
  | .float h => fun hs => .cons hs
  | .doublePg hd h => fun hs => let q := kws_lv h hs; q
  | .double hd h => fun hs => let q := kws_lv h hs; q
  | .numeric h h1 h2 => fun hs => .cons (.cons (.cons (.cons (.cons (.cons hs)))))
  | .timestamp h hw hz => fun hs =>
    let q1 := optKwx_lv hz kws_lv hs
    let q := optWidth_lv hw q1
    .cons q
  | .enum h hl => fun hs => let q := strList_lv hl hs; .cons q
  | .set h hl => fun hs => let q := strList_lv hl hs; .cons q
  | .named hd h1 h2 h3 hm => fun hs => .cons hs

mutual

theorem ex_lv {inner : Bool} {ts r : List Tk} {a : Ast} : Ex e inner ts a r → Lw X e ts r
  | .mk h hw => fun hs => let q := its_lv h hs; q

theorem its_lv {inner after : Bool} {ts r : List Tk} {l : List Item} : Its e inner after ts l r → Lw X e ts r
  | .stop h => fun hs => hs
  | .opd h hr => fun hs => let q1 := its_lv hr hs; let q := od_lv h q1; q
  | .un ho hr => fun hs => let q := its_lv hr hs; .cons q
  | .bin ho hr => fun hs => let q := its_lv hr hs; .cons q
  | .notLike h1 h2 hr => fun hs => let q := its_lv hr hs; .cons (.cons q)
  | .isIn h ha hr => fun hs => let q1 := its_lv hr hs; let q := pas_lv ha (.cons q1); .cons (.cons q)
  | .notIn h1 h2 ha hr => fun hs => let q1 := its_lv hr hs; let q := pas_lv ha (.cons q1); .cons (.cons (.cons q))
  | .is h1 h2 hr => fun hs => let q := its_lv hr hs; .cons (.cons q)
  | .isNot h1 hn h2 hr => fun hs => let q := its_lv hr hs; .cons (.cons (.cons q))

theorem od_lv {ts r : List Tk} {a : Ast} : Od e ts a r → Lw X e ts r
  | .true h => fun hs => .cons hs
  | .false h => fun hs => .cons hs
  | .null h => fun hs => .cons hs
  | .star => fun hs => .cons hs
  | .integer h => fun hs => let q := num_lv h hs; q
  | .float => fun hs => .cons hs
  | .str h => fun hs => let q := str_lv h hs; q
  | .arg hm hl => fun hs => .cons hs
  | .list hm hl => fun hs => .cons hs
  | .dollar h => fun hs => .cons hs
  | .paren h => fun hs => let q := pa_lv h (.cons hs); .cons q
  | .globalVar hm => fun hs => .cons (.cons (.cons hs))
  | .sessionVar hm => fun hs => .cons (.cons (.cons hs))
  | .intervalStr h hst hv hu => fun hs => let q1 := timeUnit_lv hu hs; let q := strs_lv hst q1; .cons q
  | .intervalInt h hn hu => fun hs => let q1 := timeUnit_lv hu hs; let q := num_lv hn q1; .cons q
  | .timestampAdd h hu ha hb => fun hs =>
    let q2 := ou_lv hb (.cons hs); let q1 := ou_lv ha (.cons q2); let q := timeUnit_lv hu (.cons q1)
    .cons (.cons q)
  | .timestampDiff h hu ha hb => fun hs =>
    let q2 := ou_lv hb (.cons hs); let q1 := ou_lv ha (.cons q2); let q := timeUnit_lv hu (.cons q1)
    .cons (.cons q)
  | .cast h ha h' hd => fun hs =>
    let q1 := dt_lv hd (.cons hs); let q := ou_lv ha (.cons q1); .cons (.cons q)
  | .count h hd ha => fun hs =>
    let q1 := ou_lv ha (.cons hs); let q := optK_lv hd q1; .cons (.cons q)
  | .groupConcat h hd ha => fun hs =>
    let q1 := ou_lv ha (.cons hs); let q := optK_lv hd q1; .cons (.cons q)
  | .extract h hu h' ha => fun hs =>
    let q1 := ou_lv ha (.cons hs); let q := timeUnit_lv hu (.cons q1); .cons (.cons q)
  | .func hn hf ha ho hr => fun hs => let q := args_lv ha (hr ▸ hs); .cons (.cons q)
  | .window hn hf ha ht ho hl => fun hs =>
    let q2 := ords_lv hl (.cons hs); let q1 := kws_lv ho q2; let q := args_lv ha (.cons (.cons q1))
    .cons (.cons q)
  | .nullary h hr => fun hs => .cons hs
  | .name hn hk hr hp => fun hs => let q := parts_lv hp hs; .cons q
  | .exist h hq => fun hs => let q := comp_lv hq (.cons hs); .cons (.cons q)
  | .caseWhen h hn hw hl he => fun hs =>
    let q1 := els_lv hl (.cons hs); let q := whens_lv hw q1; .cons q
  | .caseOf h hn hv hw hl he => fun hs =>
    let q2 := els_lv hl (.cons hs); let q1 := whens_lv hw q2; let q := ex_lv hv q1
    .cons q

theorem args_lv {ts r : List Tk} {l : List Ast} : Args e ts l r → Lw X e ts r
  | .nil => fun hs => .cons hs
  | .some hn h => fun hs => let q := ous_lv h (.cons hs); q

theorem whens_lv {ts r : List Tk} {l : List Ast} : Whens e ts l r → Lw X e ts r
  | .one h ha h' hb hn => fun hs =>
    let q1 := ex_lv hb hs; let q := ex_lv ha (.cons q1); .cons q
  | .cons h ha h' hb hl => fun hs =>
    let q2 := whens_lv hl hs; let q1 := ex_lv hb q2; let q := ex_lv ha (.cons q1); .cons q

theorem els1_lv {sp : Span} {ts r : List Tk} {a : Span × Ast} : Els e sp ts a r → Lw X e ts r
  | .mk h => fun hs => let q := ex_lv h hs; q

theorem els_lv {ts r : List Tk} {a : Option (Span × Ast)} : OptKw .ELSE (Els e) ts a r → Lw X e ts r
  | .none h => fun hs => hs
  | .some h hr => fun hs => let q := els1_lv hr hs; .cons q

theorem ou_lv {ts r : List Tk} {a : Ast} : Ou e ts a r → Lw X e ts r
  | .expr hn h => fun hs => let q := ex_lv h hs; q
  | .select h => fun hs => let q := sel_lv h hs; q

theorem pa_lv {ts r : List Tk} {a : Ast} : Pa e ts a r → Lw X e ts r
  | .expr hn h => fun hs => let q := ex_lv h hs; q
  | .query hn h => fun hs => let q := comp_lv h hs; q

theorem ous_lv {ts r : List Tk} {l : List Ast} : CommaL (Ou e) ts l r → Lw X e ts r
  | .one h hr => fun hs => let q := ou_lv h hs; q
  | .cons h hl => fun hs => let q1 := ous_lv hl hs; let q := ou_lv h (.cons q1); q

theorem pas_lv {ts r : List Tk} {l : List Ast} : CommaL (Pa e) ts l r → Lw X e ts r
  | .one h hr => fun hs => let q := pa_lv h hs; q
  | .cons h hl => fun hs => let q1 := pas_lv hl hs; let q := pa_lv h (.cons q1); q

theorem ord_lv {ts r : List Tk} {a : Ast × OAst} : Ord e ts a r → Lw X e ts r
  | .asc h ht => fun hs => let q := ex_lv h (.cons hs); q
  | .desc h ht => fun hs => let q := ex_lv h (.cons hs); q
  | .none h hr => fun hs => let q := ex_lv h hs; q

theorem ords_lv {ts r : List Tk} {l : List (Ast × OAst)} : CommaL (Ord e) ts l r → Lw X e ts r
  | .one h hr => fun hs => let q := ord_lv h hs; q
  | .cons h hl => fun hs => let q1 := ords_lv hl hs; let q := ord_lv h (.cons q1); q

theorem dt_lv {noAs : Bool} {ts r : List Tk} {a : Ast} : DT e noAs ts a r → Lw X e ts r
  | .mk ht hp => fun hs => let q1 := props_lv hp hs; let q := ty_lv ht q1; q

theorem props_lv {noAs : Bool} {ts r : List Tk} {l : List Ast} : Props e noAs ts l r → Lw X e ts r
  | .nil h1 h2 h3 => fun hs => hs
  | .plain h hr => fun hs => let q := props_lv hr hs; .cons q
  | .notNull h h' hr => fun hs => let q := props_lv hr hs; .cons (.cons q)
  | .charset h hi hr => fun hs =>
    let q2 := props_lv hr hs; let q1 := idn_lv hi q2; let q := kws_lv h q1; q
  | .collate h hi hr => fun hs => let q1 := props_lv hr hs; let q := idn_lv hi q1; .cons q
  | .comment h hi hr => fun hs => let q1 := props_lv hr hs; let q := str_lv hi q1; .cons q
  | .default h ha hr => fun hs => let q1 := props_lv hr hs; let q := ex_lv ha q1; .cons q
  | .uniqueKey h h' hr => fun hs => let q := props_lv hr hs; .cons (.cons q)
  | .unique h hn hr => fun hs => let q := props_lv hr hs; .cons q
  | .generatedPg hd h hr => fun hs => let q1 := props_lv hr hs; let q := kws_lv h q1; q
  | .generated hd h hr => fun hs => let q1 := props_lv hr hs; let q := kws_lv h q1; q
  | .as h ha hr => fun hs => let q1 := props_lv hr hs; let q := ex_lv ha (.cons q1); .cons (.cons q)
  | .primaryKey h hr => fun hs => let q1 := props_lv hr hs; let q := kws_lv h q1; q
  | .check h ha hr => fun hs => let q1 := props_lv hr hs; let q := ex_lv ha (.cons q1); .cons (.cons q)

theorem selE_lv {ts r : List Tk} {a : Ast} : SelE e ts a r → Lw X e ts r
  | .plain h hr => fun hs => let q := ex_lv h hs; q
  | .as h ht hi => fun hs => let q1 := idn_lv hi hs; let q := ex_lv h (.cons q1); q

theorem selEs_lv {ts r : List Tk} {l : List Ast} : CommaL (SelE e) ts l r → Lw X e ts r
  | .one h hr => fun hs => let q := selE_lv h hs; q
  | .cons h hl => fun hs => let q1 := selEs_lv hl hs; let q := selE_lv h (.cons q1); q

theorem tri_lv {ts r : List Tk} {a : Ast} : TRi e ts a r → Lw X e ts r
  | .query hn h ha => fun hs => let q1 := alias_lv ha hs; let q := comp_lv h q1; q
  | .table h ha hh => fun hs => by
    have q2 := hints_lv hh hs
    have q1 := alias_lv ha q2
    have q := qname_lv h q1
    exact q

theorem jspec_lv {ts r : List Tk} {a : Option Ast} : JSpec e ts a r → Lw X e ts r
  | .none h => fun hs => hs
  | .on h ha => fun hs => let q := ex_lv ha hs; .cons q
  | .using h hl => fun hs => let q := commaL_lv idn_lv hl hs; .cons q

theorem joins_lv {ts r : List Tk} {a b : Ast} : Joins e a ts b r → Lw X e ts r
  | .nil h => fun hs => hs
  | .cons hj hx hsp hr => fun hs =>
    let q3 := joins_lv hr hs; let q2 := jspec_lv hsp q3; let q1 := tri_lv hx q2; let q := joinTy_lv hj q1
    q

theorem tr_lv {ts r : List Tk} {a : Ast} : TR e ts a r → Lw X e ts r
  | .mk h hj => fun hs => let q1 := joins_lv hj hs; let q := tri_lv h q1; q

theorem trs_lv {ts r : List Tk} {l : List Ast} : CommaL (TR e) ts l r → Lw X e ts r
  | .one h hr => fun hs => let q := tr_lv h hs; q
  | .cons h hl => fun hs => let q1 := trs_lv hl hs; let q := tr_lv h (.cons q1); q

theorem exk1_lv {sp : Span} {ts r : List Tk} {a : Ast × Span} : ExK e sp ts a r → Lw X e ts r
  | .mk h => fun hs => let q := ex_lv h hs; q

theorem where_lv {ts r : List Tk} {a : Option (Ast × Span)} : OptKw .WHERE (ExK e) ts a r → Lw X e ts r
  | .none h => fun hs => hs
  | .some h hr => fun hs => let q := exk1_lv hr hs; .cons q

theorem having_lv {ts r : List Tk} {a : Option (Ast × Span)} : OptKw .HAVING (ExK e) ts a r → Lw X e ts r
  | .none h => fun hs => hs
  | .some h hr => fun hs => let q := exk1_lv hr hs; .cons q

theorem exs_lv {ts r : List Tk} {l : List Ast} : CommaL (Ex e false) ts l r → Lw X e ts r
  | .one h hr => fun hs => let q := ex_lv h hs; q
  | .cons h hl => fun hs => let q1 := exs_lv hl hs; let q := ex_lv h (.cons q1); q

theorem group1_lv {sp : Span} {ts r : List Tk} {a : Span × List Ast} : GroupBy e sp ts a r → Lw X e ts r
  | .mk h hl => fun hs => let q := exs_lv hl hs; .cons q

theorem group_lv {ts r : List Tk} {a : Option (Span × List Ast)} : OptKw .GROUP (GroupBy e) ts a r → Lw X e ts r
  | .none h => fun hs => hs
  | .some h hr => fun hs => let q := group1_lv hr hs; .cons q

theorem order1_lv {sp : Span} {ts r : List Tk} {a : Span × List (Ast × OAst)} : OrderBy e sp ts a r → Lw X e ts r
  | .mk h hl => fun hs => let q := ords_lv hl hs; .cons q

theorem order_lv {ts r : List Tk} {a : Option (Span × List (Ast × OAst))} : OptKw .ORDER (OrderBy e) ts a r → Lw X e ts r
  | .none h => fun hs => hs
  | .some h hr => fun hs => let q := order1_lv hr hs; .cons q

theorem lim1_lv {sp : Span} {ts r : List Tk} {a : Span × Option Ast × Ast} : Lim e sp ts a r → Lw X e ts r
  | .plain h hr => fun hs => let q := ex_lv h hs; q
  | .comma ho hn => fun hs => let q1 := ex_lv hn hs; let q := ex_lv ho (.cons q1); q
  | .offset hn ht ho => fun hs => let q1 := ex_lv ho hs; let q := ex_lv hn (.cons q1); q

theorem lim_lv {ts r : List Tk} {a : Option (Span × Option Ast × Ast)} : OptKw .LIMIT (Lim e) ts a r → Lw X e ts r
  | .none h => fun hs => hs
  | .some h hr => fun hs => let q := lim1_lv hr hs; .cons q

theorem sel_lv {ts r : List Tk} {a : Ast} : Sel e ts a r → Lw X e ts r
  | .noFrom h hf hx hn => fun hs =>
    let q1 := selEs_lv hx hs; let q := flags_lv hf rfl q1; .cons q
  | .from h hf hx h' ht hw hg hh hwi ho hl hlo => fun hs =>
    let q9 := optKw_lv (R := LockSpec e) lockSpec_lv hlo hs
    let q8 := lim_lv hl q9
    let q7 := order_lv ho q8
    let q6 := optK_lv hwi q7
    let q5 := having_lv hh q6
    let q4 := group_lv hg q5
    let q3 := where_lv hw q4
    let q2 := trs_lv ht q3
    let q1 := selEs_lv hx (.cons q2)
    let q := flags_lv hf rfl q1
    .cons q

theorem part_lv {ts r : List Tk} {a : Ast} : QPart e ts a r → Lw X e ts r
  | .select h => fun hs => let q := sel_lv h hs; q
  | .paren h => fun hs => let q := comp_lv h (.cons hs); .cons q

theorem union_lv {ts r : List Tk} {a : Ast} : UnionPart e ts a r → Lw X e ts r
  | .all h h' hq => fun hs => let q := part_lv hq hs; .cons (.cons q)
  | .distinct h h' hq => fun hs => let q := part_lv hq hs; .cons (.cons q)
  | .default h hn hq => fun hs => let q := part_lv hq hs; .cons q

theorem unions_lv {ts r : List Tk} {l : List Ast} : Unions e ts l r → Lw X e ts r
  | .one h hr => fun hs => let q := union_lv h hs; q
  | .cons h hl => fun hs => let q1 := unions_lv hl hs; let q := union_lv h q1; q

theorem comp_lv {ts r : List Tk} {a : Ast} : Comp e ts a r → Lw X e ts r
  | .one h hr => fun hs => let q := part_lv h hs; q
  | .union h hu ho hl => fun hs =>
    let q3 := lim_lv hl hs; let q2 := order_lv ho q3; let q1 := unions_lv hu q2; let q := part_lv h q1
    q

end

end SqlParse
