import Verif.Spec.GrammarStmt
/-! Phrases do not depend on what ends them: where a phrase ends at the end of the source, it also ends at a `;`, and the other way round. -/
namespace SqlParse

/-- The two tokens that end a statement. -/
inductive FlipT : Token → Token → Prop where
  | fwd : FlipT .eof .semiColon
  | bwd : FlipT .semiColon .eof

/-- One list begins with one of these tokens, the other one with the other. -/
inductive Flip : List Tk → List Tk → Prop where
  | mk {x y : Token} {s s' : Span} {l l' : List Tk} (h : FlipT x y) : Flip ((x, s) :: l) ((y, s') :: l')

/-- The lists are the same up to the ends `X` and `Y`. -/
inductive ES (X Y : List Tk) : List Tk → List Tk → Prop where
  | base (h : Flip X Y) : ES X Y X Y
  | cons {p : Tk} {r r' : List Tk} (h : ES X Y r r') : ES X Y (p :: r) (p :: r')

/-- The phrase can be moved to the other end. -/
def Mv (X Y : List Tk) {α : Type} (R : List Tk → α → List Tk → Prop) (ts : List Tk) (a : α) (r : List Tk) : Prop :=
  ∀ r', ES X Y r r' → ∃ ts', ES X Y ts ts' ∧ R ts' a r'

variable {X Y : List Tk} {e : Env}

macro "flip" : tactic => `(tactic| first
  | exact fun h => h | exact fun _ => rfl | exact fun _ _ _ => rfl | (intro h; cases h; done) | (rintro (h | h) <;> cases h; done)
  | (intro h; simp at h; done) | (intro _; simp; done) | (intro _; decide) | (intro h; simp at h ⊢; done))

theorem nx {q : Token → Prop} {r r' : List Tk} (h : Next q r) (hr : ES X Y r r') (hq : ∀ x y, FlipT x y → q x → q y := by intro x y h; cases h <;> flip) :
    Next q r' := by
  cases hr with
  | base hf => cases hf with | mk hf => exact hq _ _ hf h
  | @cons p _ _ hr => exact h

theorem nx0 {q : Token → Prop} {r r' : List Tk} (h : Next q r) (hr : ES X Y r r') (hn : Next (· ≠ .eof) r) (hq : ¬ q .semiColon) :
    Next q r' := by
  cases hr with
  | base hf => cases hf with | mk hf => cases hf with
    | fwd => exact absurd rfl hn
    | bwd => exact absurd h hq
  | @cons p _ _ hr => exact h

theorem es_ident {v : List Char} {k : Keyword} {s : Span} {r ts' : List Tk} (h : ES X Y ((.ident v k, s) :: r) ts') :
    ∃ r', ts' = (.ident v k, s) :: r' ∧ ES X Y r r' := by
  cases h with
  | base hf => cases hf with | mk hf => cases hf
  | @cons _ _ r' hr => exact ⟨r', rfl, hr⟩

theorem idn_es {ts r : List Tk} {a : Ast} : Idn e ts a r → Mv X Y (Idn e) ts a r
  | .word hk hq hm => fun _ hr => ⟨_, .cons hr, .word hk hq hm⟩
  | .quoted hd => fun _ hr => ⟨_, .cons hr, .quoted hd⟩

theorem dotted_es {ts r r' : List Tk} {p : List (Ast × Span)} {i : Ast} : Dotted e ts p i r → ES X Y r r' → ∃ ts', ES X Y ts ts' ∧ Dotted e ts' p i r'
  | .last h hr, hs => let ⟨_, q, g⟩ := idn_es h _ hs; ⟨_, q, .last g (nx hr hs)⟩
  | .dot h hl, hs => let ⟨_, q1, g1⟩ := dotted_es hl hs; let ⟨_, q, g⟩ := idn_es h _ (.cons q1); ⟨_, q, .dot g g1⟩

theorem qname_es {ts r : List Tk} {a : Ast} : QName e ts a r → Mv X Y (QName e) ts a r
  | .mk h => fun _ hr => let ⟨_, q, g⟩ := dotted_es h hr; ⟨_, q, .mk g⟩

theorem strs_es {ts r : List Tk} {a : List Char × Span} : Strs ts a r → Mv X Y Strs ts a r
  | .one h hr => fun _ hs => ⟨_, .cons hs, .one h (nx hr hs)⟩
  | .cons h hl => fun _ hs => let ⟨_, q, g⟩ := strs_es hl _ hs; ⟨_, .cons q, .cons h g⟩

theorem str_es {ts r : List Tk} {a : Ast} : Str ts a r → Mv X Y Str ts a r
  | .mk h => fun _ hs => let ⟨_, q, g⟩ := strs_es h _ hs; ⟨_, q, .mk g⟩

theorem num_es {m : Nat} {ts r : List Tk} {a : Nat × Span} : Num m ts a r → Mv X Y (Num m) ts a r
  | .mk h => fun _ hs => ⟨_, .cons hs, .mk h⟩

theorem commaL_es {α : Type} {R : List Tk → α → List Tk → Prop} (hR : ∀ {ts a r}, R ts a r → Mv X Y R ts a r) {ts r : List Tk} {l : List α} :
    CommaL R ts l r → Mv X Y (CommaL R) ts l r
  | .one h hr => fun _ hs => let ⟨_, q, g⟩ := hR h _ hs; ⟨_, q, .one g (nx hr hs)⟩
  | .cons h hl => fun _ hs => let ⟨_, q1, g1⟩ := commaL_es hR hl _ hs; let ⟨_, q, g⟩ := hR h _ (.cons q1); ⟨_, q, .cons g g1⟩

theorem kws_es {ks : List Keyword} {ts r : List Tk} {a : Span} : Kws ks ts a r → Mv X Y (Kws ks) ts a r
  | .one h => fun _ hs => ⟨_, .cons hs, .one h⟩
  | .cons h hl => fun _ hs => let ⟨_, q, g⟩ := kws_es hl _ hs; ⟨_, .cons q, .cons h g⟩

theorem optKw_es {α : Type} {k : Keyword} {R : Span → List Tk → α → List Tk → Prop} (hR : ∀ {sp ts a r}, R sp ts a r → Mv X Y (R sp) ts a r)
    {ts r : List Tk} {a : Option α} : OptKw k R ts a r → Mv X Y (OptKw k R) ts a r
  | .none h => fun _ hs => ⟨_, hs, .none (nx h hs)⟩
  | .some h hl => fun _ hs => let ⟨_, q, g⟩ := hR hl _ hs; ⟨_, .cons q, .some h g⟩

theorem optK_es {k : Keyword} {ts r : List Tk} {a : Option Span} : OptK k ts a r → Mv X Y (OptK k) ts a r
  | .none h => fun _ hs => ⟨_, hs, .none (nx h hs)⟩
  | .some h => fun _ hs => ⟨_, .cons hs, .some h⟩

theorem flags_es {tbl : List (Keyword × Kind)} {ts r : List Tk} {l : List Ast} : Flags tbl ts l r → Mv X Y (Flags tbl) ts l r
  | .nil h => fun _ hs => ⟨_, hs, .nil (nx h hs)⟩
  | .cons h hl => fun _ hs => let ⟨_, q, g⟩ := flags_es hl _ hs; ⟨_, .cons q, .cons h g⟩

theorem stops_es {inner : Bool} {r r' : List Tk} (h : Stops e inner r) (hs : ES X Y r r') : Stops e inner r' := by
  cases hs with
  | base hf => cases hf with | mk hf => cases hf <;> exact .inl (by decide)
  | @cons p r r' hs =>
    obtain ⟨t, s⟩ := p
    cases t <;> try exact h
    exact ⟨h.1, h.2.1, h.2.2.1, fun hk => nx (h.2.2.2 hk) hs⟩

theorem timeUnit_es {ts r : List Tk} {a : OAst × Span} : TimeUnit ts a r → Mv X Y TimeUnit ts a r
  | .mk h => fun _ hs => ⟨_, .cons hs, .mk h⟩

theorem parts_es {ts r : List Tk} {l : List Ast} : Parts e ts l r → Mv X Y (Parts e) ts l r
  | .nil h => fun _ hs => ⟨_, hs, .nil (nx h hs)⟩
  | .star h => fun _ hs => let ⟨_, q, g⟩ := parts_es h _ hs; ⟨_, .cons (.cons q), .star g⟩
  | .name hi h => fun _ hs => by
    obtain ⟨_, q1, g1⟩ := parts_es h _ hs
    obtain ⟨_, q2, g2⟩ := idn_es hi _ q1
    obtain ⟨_, rfl, q3⟩ := es_ident q2
    exact ⟨_, .cons q2, .name g2 g1⟩

theorem alias_es {ts r : List Tk} {a : Option Span × Option Ast} : Alias e ts a r → Mv X Y (Alias e) ts a r
  | .none h1 h2 => fun _ hs => ⟨_, hs, .none (nx h1 hs) (nx h2 hs)⟩
  | .as h hi => fun _ hs => let ⟨_, q, g⟩ := idn_es hi _ hs; ⟨_, .cons q, .as h g⟩
  | .plain hk hi => fun _ hs => by
    obtain ⟨_, q2, g2⟩ := idn_es hi _ hs
    obtain ⟨_, rfl, q3⟩ := es_ident q2
    exact ⟨_, q2, .plain hk g2⟩

theorem hintFor_es {ts r : List Tk} {a : Ast} : HintFor ts a r → Mv X Y HintFor ts a r
  | .join h => fun _ hs => ⟨_, .cons hs, .join h⟩
  | .groupBy h => fun _ hs => let ⟨_, q, g⟩ := kws_es h _ hs; ⟨_, q, .groupBy g⟩
  | .orderBy h => fun _ hs => let ⟨_, q, g⟩ := kws_es h _ hs; ⟨_, q, .orderBy g⟩

/-- A phrase with its keyword. -/
theorem optKwx_es {α β : Type} {k : Keyword} {R : List Tk → β → List Tk → Prop} {f : Span → β → α} {ts r : List Tk} {a : Option α}
    (h : OptKw k (fun sp ts a r => ∃ b, a = f sp b ∧ R ts b r) ts a r) (hR : ∀ {ts a r}, R ts a r → Mv X Y R ts a r) :
    Mv X Y (OptKw k (fun sp ts a r => ∃ b, a = f sp b ∧ R ts b r)) ts a r := by
  refine optKw_es (fun {sp ts a r} h => ?_) h
  obtain ⟨b, h1, h2⟩ := h
  intro _ hs
  obtain ⟨_, q, g⟩ := hR h2 _ hs
  exact ⟨_, q, b, h1, g⟩

theorem hints_es {ts r : List Tk} {l : List Ast} : Hints e ts l r → Mv X Y (Hints e) ts l r
  | .nil h => fun _ hs => ⟨_, hs, .nil (nx h hs)⟩
  | .cons hd hu ht hf hl hr => fun _ hs =>
    let ⟨_, q1, g1⟩ := hints_es hr _ hs
    let ⟨_, q2, g2⟩ := commaL_es idn_es hl _ (.cons q1)
    let ⟨_, q3, g3⟩ := optKwx_es hf hintFor_es _ (.cons q2)
    ⟨_, .cons (.cons q3), .cons hd hu ht g3 g2 g1⟩

theorem sideJoin_es {k : Keyword} {ts r : List Tk} {a : Span} : SideJoin k ts a r → Mv X Y (SideJoin k) ts a r
  | .plain h => fun _ hs => let ⟨_, q, g⟩ := kws_es h _ hs; ⟨_, q, .plain g⟩
  | .outer h => fun _ hs => let ⟨_, q, g⟩ := kws_es h _ hs; ⟨_, q, .outer g⟩

theorem joinTy_es {ts r : List Tk} {a : Ast} : JoinTy ts a r → Mv X Y JoinTy ts a r
  | .inner h => fun _ hs => let ⟨_, q, g⟩ := kws_es h _ hs; ⟨_, q, .inner g⟩
  | .cross h => fun _ hs => let ⟨_, q, g⟩ := kws_es h _ hs; ⟨_, q, .cross g⟩
  | .join h => fun _ hs => let ⟨_, q, g⟩ := kws_es h _ hs; ⟨_, q, .join g⟩
  | .straight h => fun _ hs => let ⟨_, q, g⟩ := kws_es h _ hs; ⟨_, q, .straight g⟩
  | .left h => fun _ hs => let ⟨_, q, g⟩ := sideJoin_es h _ hs; ⟨_, q, .left g⟩
  | .right h => fun _ hs => let ⟨_, q, g⟩ := sideJoin_es h _ hs; ⟨_, q, .right g⟩
  | .naturalInner h => fun _ hs => let ⟨_, q, g⟩ := kws_es h _ hs; ⟨_, q, .naturalInner g⟩
  | .naturalLeft hn h => fun _ hs => let ⟨_, q, g⟩ := sideJoin_es h _ hs; ⟨_, .cons q, .naturalLeft hn g⟩
  | .naturalRight hn h => fun _ hs => let ⟨_, q, g⟩ := sideJoin_es h _ hs; ⟨_, .cons q, .naturalRight hn g⟩
  | .natural h => fun _ hs => let ⟨_, q, g⟩ := kws_es h _ hs; ⟨_, q, .natural g⟩

theorem strength_es {ts r : List Tk} {a : Ast} : Strength e ts a r → Mv X Y (Strength e) ts a r
  | .update h => fun _ hs => let ⟨_, q, g⟩ := kws_es h _ hs; ⟨_, q, .update g⟩
  | .share h => fun _ hs => let ⟨_, q, g⟩ := kws_es h _ hs; ⟨_, q, .share g⟩
  | .noKeyUpdate hd h => fun _ hs => let ⟨_, q, g⟩ := kws_es h _ hs; ⟨_, q, .noKeyUpdate hd g⟩
  | .keyShare hd h => fun _ hs => let ⟨_, q, g⟩ := kws_es h _ hs; ⟨_, q, .keyShare hd g⟩

theorem wait_es {ts r : List Tk} {a : OAst} : Wait ts a r → Mv X Y Wait ts a r
  | .noWait h => fun _ hs => let ⟨_, q, g⟩ := kws_es h _ hs; ⟨_, q, .noWait g⟩
  | .skip h => fun _ hs => let ⟨_, q, g⟩ := kws_es h _ hs; ⟨_, q, .skip g⟩
  | .default h => fun _ hs => ⟨_, hs, .default (nx h hs)⟩

theorem lockSpec_es {f : Span} {ts r : List Tk} {a : Ast} : LockSpec e f ts a r → Mv X Y (LockSpec e f) ts a r
  | .mk hst ho hw => fun _ hs =>
    let ⟨_, q1, g1⟩ := wait_es hw _ hs
    let ⟨_, q2, g2⟩ := optKwx_es ho (commaL_es idn_es) _ q1
    let ⟨_, q3, g3⟩ := strength_es hst _ q2
    ⟨_, q3, .mk g3 g2 g1⟩

theorem width_es {ts r : List Tk} {a : Nat × Span} : Width ts a r → Mv X Y Width ts a r
  | .mk h => fun _ hs => let ⟨_, q, g⟩ := num_es h _ (.cons hs); ⟨_, .cons q, .mk g⟩

theorem optWidth_es {ts r : List Tk} {a : Option (Nat × Span)} : OptWidth ts a r → Mv X Y OptWidth ts a r
  | .none h => fun _ hs => ⟨_, hs, .none (nx h hs)⟩
  | .some h => fun _ hs => let ⟨_, q, g⟩ := width_es h _ hs; ⟨_, q, .some g⟩

theorem strList_es {ts r : List Tk} {a : List Ast} : StrList ts a r → Mv X Y StrList ts a r
  | .mk h => fun _ hs => let ⟨_, q, g⟩ := commaL_es str_es h _ (.cons hs); ⟨_, .cons q, .mk g⟩

theorem ty_es {ts r : List Tk} {a : Span × OAst} : Ty e ts a r → Mv X Y (Ty e) ts a r
  | .plain h => fun _ hs => ⟨_, .cons hs, .plain h⟩
  | .width h hw => fun _ hs => let ⟨_, q, g⟩ := optWidth_es hw _ hs; ⟨_, .cons q, .width h g⟩
  | .varbinary h hw => fun _ hs => let ⟨_, q, g⟩ := width_es hw _ hs; ⟨_, .cons q, .varbinary h g⟩
  | .bit h hw => fun _ hs => let ⟨_, q, g⟩ := width_es hw _ hs; ⟨_, .cons q, .bit h g⟩
  | .realSqlite h hd => fun _ hs => ⟨_, .cons hs, .realSqlite h hd⟩
  | .real h hd => fun _ hs => ⟨_, .cons hs, .real h hd⟩
  | .float h => fun _ hs => ⟨_, .cons hs, .float h⟩
  | .doublePg hd h => fun _ hs => let ⟨_, q, g⟩ := kws_es h _ hs; ⟨_, q, .doublePg hd g⟩
  | .double hd h => fun _ hs => let ⟨_, q, g⟩ := kws_es h _ hs; ⟨_, q, .double hd g⟩
  | .numeric h h1 h2 => fun _ hs => ⟨_, .cons (.cons (.cons (.cons (.cons (.cons hs))))), .numeric h h1 h2⟩
  | .timestamp h hw hz => fun _ hs =>
    let ⟨_, q1, g1⟩ := optKwx_es hz kws_es _ hs
    let ⟨_, q, g⟩ := optWidth_es hw _ q1
    ⟨_, .cons q, .timestamp h g g1⟩
  | .enum h hl => fun _ hs => let ⟨_, q, g⟩ := strList_es hl _ hs; ⟨_, .cons q, .enum h g⟩
  | .set h hl => fun _ hs => let ⟨_, q, g⟩ := strList_es hl _ hs; ⟨_, .cons q, .set h g⟩
  | .named hd h1 h2 h3 hm => fun _ hs => ⟨_, .cons hs, .named hd h1 h2 h3 hm⟩

mutual

theorem ex_es {inner : Bool} {ts r : List Tk} {a : Ast} : Ex e inner ts a r → Mv X Y (Ex e inner) ts a r
  | .mk h hw => fun _ hs => let ⟨_, q, g⟩ := its_es h _ hs; ⟨_, q, .mk g hw⟩

theorem its_es {inner after : Bool} {ts r : List Tk} {l : List Item} : Its e inner after ts l r → Mv X Y (Its e inner after) ts l r
  | .stop h => fun _ hs => ⟨_, hs, .stop (stops_es h hs)⟩
  | .opd h hr => fun _ hs => let ⟨_, q1, g1⟩ := its_es hr _ hs; let ⟨_, q, g⟩ := od_es h _ q1; ⟨_, q, .opd g g1⟩
  | .un ho hr => fun _ hs => let ⟨_, q, g⟩ := its_es hr _ hs; ⟨_, .cons q, .un ho g⟩
  | .bin ho hr => fun _ hs => let ⟨_, q, g⟩ := its_es hr _ hs; ⟨_, .cons q, .bin ho g⟩
  | .notLike h1 h2 hr => fun _ hs => let ⟨_, q, g⟩ := its_es hr _ hs; ⟨_, .cons (.cons q), .notLike h1 h2 g⟩
  | .isIn h ha hr => fun _ hs => let ⟨_, q1, g1⟩ := its_es hr _ hs; let ⟨_, q, g⟩ := pas_es ha _ (.cons q1); ⟨_, .cons (.cons q), .isIn h g g1⟩
  | .notIn h1 h2 ha hr => fun _ hs => let ⟨_, q1, g1⟩ := its_es hr _ hs; let ⟨_, q, g⟩ := pas_es ha _ (.cons q1); ⟨_, .cons (.cons (.cons q)), .notIn h1 h2 g g1⟩
  | .is h1 h2 hr => fun _ hs => let ⟨_, q, g⟩ := its_es hr _ hs; ⟨_, .cons (.cons q), .is h1 h2 g⟩
  | .isNot h1 hn h2 hr => fun _ hs => let ⟨_, q, g⟩ := its_es hr _ hs; ⟨_, .cons (.cons (.cons q)), .isNot h1 hn h2 g⟩

theorem od_es {ts r : List Tk} {a : Ast} : Od e ts a r → Mv X Y (Od e) ts a r
  | .true h => fun _ hs => ⟨_, .cons hs, .true h⟩
  | .false h => fun _ hs => ⟨_, .cons hs, .false h⟩
  | .null h => fun _ hs => ⟨_, .cons hs, .null h⟩
  | .star => fun _ hs => ⟨_, .cons hs, .star⟩
  | .integer h => fun _ hs => let ⟨_, q, g⟩ := num_es h _ hs; ⟨_, q, .integer g⟩
  | .float => fun _ hs => ⟨_, .cons hs, .float⟩
  | .str h => fun _ hs => let ⟨_, q, g⟩ := str_es h _ hs; ⟨_, q, .str g⟩
  | .arg hm hl => fun _ hs => ⟨_, .cons hs, .arg hm hl⟩
  | .list hm hl => fun _ hs => ⟨_, .cons hs, .list hm hl⟩
  | .dollar h => fun _ hs => ⟨_, .cons hs, .dollar h⟩
  | .paren h => fun _ hs => let ⟨_, q, g⟩ := pa_es h _ (.cons hs); ⟨_, .cons q, .paren g⟩
  | .globalVar hm => fun _ hs => ⟨_, .cons (.cons (.cons hs)), .globalVar hm⟩
  | .sessionVar hm => fun _ hs => ⟨_, .cons (.cons (.cons hs)), .sessionVar hm⟩
  | .intervalStr h hst hv hu => fun _ hs => let ⟨_, q1, g1⟩ := timeUnit_es hu _ hs; let ⟨_, q, g⟩ := strs_es hst _ q1; ⟨_, .cons q, .intervalStr h g hv g1⟩
  | .intervalInt h hn hu => fun _ hs => let ⟨_, q1, g1⟩ := timeUnit_es hu _ hs; let ⟨_, q, g⟩ := num_es hn _ q1; ⟨_, .cons q, .intervalInt h g g1⟩
  | .timestampAdd h hu ha hb => fun _ hs =>
    let ⟨_, q2, g2⟩ := ou_es hb _ (.cons hs); let ⟨_, q1, g1⟩ := ou_es ha _ (.cons q2); let ⟨_, q, g⟩ := timeUnit_es hu _ (.cons q1)
    ⟨_, .cons (.cons q), .timestampAdd h g g1 g2⟩
  | .timestampDiff h hu ha hb => fun _ hs =>
    let ⟨_, q2, g2⟩ := ou_es hb _ (.cons hs); let ⟨_, q1, g1⟩ := ou_es ha _ (.cons q2); let ⟨_, q, g⟩ := timeUnit_es hu _ (.cons q1)
    ⟨_, .cons (.cons q), .timestampDiff h g g1 g2⟩
  | .cast h ha h' hd => fun _ hs =>
    let ⟨_, q1, g1⟩ := dt_es hd _ (.cons hs); let ⟨_, q, g⟩ := ou_es ha _ (.cons q1); ⟨_, .cons (.cons q), .cast h g h' g1⟩
  | .count h hd ha => fun _ hs =>
    let ⟨_, q1, g1⟩ := ou_es ha _ (.cons hs); let ⟨_, q, g⟩ := optK_es hd _ q1; ⟨_, .cons (.cons q), .count h g g1⟩
  | .groupConcat h hd ha => fun _ hs =>
    let ⟨_, q1, g1⟩ := ou_es ha _ (.cons hs); let ⟨_, q, g⟩ := optK_es hd _ q1; ⟨_, .cons (.cons q), .groupConcat h g g1⟩
  | .extract h hu h' ha => fun _ hs =>
    let ⟨_, q1, g1⟩ := ou_es ha _ (.cons hs); let ⟨_, q, g⟩ := timeUnit_es hu _ (.cons q1); ⟨_, .cons (.cons q), .extract h g h' g1⟩
  | .func hn hf ha ho hr => fun _ hs => let ⟨_, q, g⟩ := args_es ha _ (hr ▸ hs); ⟨_, .cons (.cons q), .func hn hf g (nx ho (hr ▸ hs)) rfl⟩
  | .window hn hf ha ht ho hl => fun _ hs =>
    let ⟨_, q2, g2⟩ := ords_es hl _ (.cons hs); let ⟨_, q1, g1⟩ := kws_es ho _ q2; let ⟨_, q, g⟩ := args_es ha _ (.cons (.cons q1))
    ⟨_, .cons (.cons q), .window hn hf g ht g1 g2⟩
  | .nullary h hr => fun _ hs => ⟨_, .cons hs, .nullary h (nx hr hs)⟩
  | .name hn hk hr hp => fun _ hs => let ⟨_, q, g⟩ := parts_es hp _ hs; ⟨_, .cons q, .name hn hk (nx hr q) g⟩
  | .exist h hq => fun _ hs => let ⟨_, q, g⟩ := comp_es hq _ (.cons hs); ⟨_, .cons (.cons q), .exist h g⟩
  | .caseWhen h hn hw hl he => fun _ hs =>
    let ⟨_, q1, g1⟩ := els_es hl _ (.cons hs); let ⟨_, q, g⟩ := whens_es hw _ q1; ⟨_, .cons q, .caseWhen h (nx hn q) g g1 he⟩
  | .caseOf h hn hv hw hl he => fun _ hs =>
    let ⟨_, q2, g2⟩ := els_es hl _ (.cons hs); let ⟨_, q1, g1⟩ := whens_es hw _ q2; let ⟨_, q, g⟩ := ex_es hv _ q1
    ⟨_, .cons q, .caseOf h (nx hn q) g g1 g2 he⟩

theorem args_es {ts r : List Tk} {l : List Ast} : Args e ts l r → Mv X Y (Args e) ts l r
  | .nil => fun _ hs => ⟨_, .cons hs, .nil⟩
  | .some hn h => fun _ hs => let ⟨_, q, g⟩ := ous_es h _ (.cons hs); ⟨_, q, .some (nx hn q) g⟩

theorem whens_es {ts r : List Tk} {l : List Ast} : Whens e ts l r → Mv X Y (Whens e) ts l r
  | .one h ha h' hb hn => fun _ hs =>
    let ⟨_, q1, g1⟩ := ex_es hb _ hs; let ⟨_, q, g⟩ := ex_es ha _ (.cons q1); ⟨_, .cons q, .one h g h' g1 (nx hn hs)⟩
  | .cons h ha h' hb hl => fun _ hs =>
    let ⟨_, q2, g2⟩ := whens_es hl _ hs; let ⟨_, q1, g1⟩ := ex_es hb _ q2; let ⟨_, q, g⟩ := ex_es ha _ (.cons q1); ⟨_, .cons q, .cons h g h' g1 g2⟩

theorem els1_es {sp : Span} {ts r : List Tk} {a : Span × Ast} : Els e sp ts a r → Mv X Y (Els e sp) ts a r
  | .mk h => fun _ hs => let ⟨_, q, g⟩ := ex_es h _ hs; ⟨_, q, .mk g⟩

theorem els_es {ts r : List Tk} {a : Option (Span × Ast)} : OptKw .ELSE (Els e) ts a r → Mv X Y (OptKw .ELSE (Els e)) ts a r
  | .none h => fun _ hs => ⟨_, hs, .none (nx h hs)⟩
  | .some h hr => fun _ hs => let ⟨_, q, g⟩ := els1_es hr _ hs; ⟨_, .cons q, .some h g⟩

theorem ou_es {ts r : List Tk} {a : Ast} : Ou e ts a r → Mv X Y (Ou e) ts a r
  | .expr hn h => fun _ hs => let ⟨_, q, g⟩ := ex_es h _ hs; ⟨_, q, .expr (nx hn q) g⟩
  | .select h => fun _ hs => let ⟨_, q, g⟩ := sel_es h _ hs; ⟨_, q, .select g⟩

theorem pa_es {ts r : List Tk} {a : Ast} : Pa e ts a r → Mv X Y (Pa e) ts a r
  | .expr hn h => fun _ hs => let ⟨_, q, g⟩ := ex_es h _ hs; ⟨_, q, .expr (nx hn q) g⟩
  | .query hn h => fun _ hs => let ⟨_, q, g⟩ := comp_es h _ hs; ⟨_, q, .query (nx hn q) g⟩

theorem ous_es {ts r : List Tk} {l : List Ast} : CommaL (Ou e) ts l r → Mv X Y (CommaL (Ou e)) ts l r
  | .one h hr => fun _ hs => let ⟨_, q, g⟩ := ou_es h _ hs; ⟨_, q, .one g (nx hr hs)⟩
  | .cons h hl => fun _ hs => let ⟨_, q1, g1⟩ := ous_es hl _ hs; let ⟨_, q, g⟩ := ou_es h _ (.cons q1); ⟨_, q, .cons g g1⟩

theorem pas_es {ts r : List Tk} {l : List Ast} : CommaL (Pa e) ts l r → Mv X Y (CommaL (Pa e)) ts l r
  | .one h hr => fun _ hs => let ⟨_, q, g⟩ := pa_es h _ hs; ⟨_, q, .one g (nx hr hs)⟩
  | .cons h hl => fun _ hs => let ⟨_, q1, g1⟩ := pas_es hl _ hs; let ⟨_, q, g⟩ := pa_es h _ (.cons q1); ⟨_, q, .cons g g1⟩

theorem ord_es {ts r : List Tk} {a : Ast × OAst} : Ord e ts a r → Mv X Y (Ord e) ts a r
  | .asc h ht => fun _ hs => let ⟨_, q, g⟩ := ex_es h _ (.cons hs); ⟨_, q, .asc g ht⟩
  | .desc h ht => fun _ hs => let ⟨_, q, g⟩ := ex_es h _ (.cons hs); ⟨_, q, .desc g ht⟩
  | .none h hr => fun _ hs => let ⟨_, q, g⟩ := ex_es h _ hs; ⟨_, q, .none g (nx hr hs)⟩

theorem ords_es {ts r : List Tk} {l : List (Ast × OAst)} : CommaL (Ord e) ts l r → Mv X Y (CommaL (Ord e)) ts l r
  | .one h hr => fun _ hs => let ⟨_, q, g⟩ := ord_es h _ hs; ⟨_, q, .one g (nx hr hs)⟩
  | .cons h hl => fun _ hs => let ⟨_, q1, g1⟩ := ords_es hl _ hs; let ⟨_, q, g⟩ := ord_es h _ (.cons q1); ⟨_, q, .cons g g1⟩

theorem dt_es {noAs : Bool} {ts r : List Tk} {a : Ast} : DT e noAs ts a r → Mv X Y (DT e noAs) ts a r
  | .mk ht hp => fun _ hs => let ⟨_, q1, g1⟩ := props_es hp _ hs; let ⟨_, q, g⟩ := ty_es ht _ q1; ⟨_, q, .mk g g1⟩

theorem props_es {noAs : Bool} {ts r : List Tk} {l : List Ast} : Props e noAs ts l r → Mv X Y (Props e noAs) ts l r
  | .nil h1 h2 h3 => fun _ hs => ⟨_, hs, .nil (nx h1 hs) (nx h2 hs) (h3.imp id fun h => nx h hs)⟩
  | .plain h hr => fun _ hs => let ⟨_, q, g⟩ := props_es hr _ hs; ⟨_, .cons q, .plain h g⟩
  | .notNull h h' hr => fun _ hs => let ⟨_, q, g⟩ := props_es hr _ hs; ⟨_, .cons (.cons q), .notNull h h' g⟩
  | .charset h hi hr => fun _ hs =>
    let ⟨_, q2, g2⟩ := props_es hr _ hs; let ⟨_, q1, g1⟩ := idn_es hi _ q2; let ⟨_, q, g⟩ := kws_es h _ q1; ⟨_, q, .charset g g1 g2⟩
  | .collate h hi hr => fun _ hs => let ⟨_, q1, g1⟩ := props_es hr _ hs; let ⟨_, q, g⟩ := idn_es hi _ q1; ⟨_, .cons q, .collate h g g1⟩
  | .comment h hi hr => fun _ hs => let ⟨_, q1, g1⟩ := props_es hr _ hs; let ⟨_, q, g⟩ := str_es hi _ q1; ⟨_, .cons q, .comment h g g1⟩
  | .default h ha hr => fun _ hs => let ⟨_, q1, g1⟩ := props_es hr _ hs; let ⟨_, q, g⟩ := ex_es ha _ q1; ⟨_, .cons q, .default h g g1⟩
  | .uniqueKey h h' hr => fun _ hs => let ⟨_, q, g⟩ := props_es hr _ hs; ⟨_, .cons (.cons q), .uniqueKey h h' g⟩
  | .unique h hn hr => fun _ hs => let ⟨_, q, g⟩ := props_es hr _ hs; ⟨_, .cons q, .unique h (nx hn q) g⟩
  | .generatedPg hd h hr => fun _ hs => let ⟨_, q1, g1⟩ := props_es hr _ hs; let ⟨_, q, g⟩ := kws_es h _ q1; ⟨_, q, .generatedPg hd g g1⟩
  | .generated hd h hr => fun _ hs => let ⟨_, q1, g1⟩ := props_es hr _ hs; let ⟨_, q, g⟩ := kws_es h _ q1; ⟨_, q, .generated hd g g1⟩
  | .as h ha hr => fun _ hs => let ⟨_, q1, g1⟩ := props_es hr _ hs; let ⟨_, q, g⟩ := ex_es ha _ (.cons q1); ⟨_, .cons (.cons q), .as h g g1⟩
  | .primaryKey h hr => fun _ hs => let ⟨_, q1, g1⟩ := props_es hr _ hs; let ⟨_, q, g⟩ := kws_es h _ q1; ⟨_, q, .primaryKey g g1⟩
  | .check h ha hr => fun _ hs => let ⟨_, q1, g1⟩ := props_es hr _ hs; let ⟨_, q, g⟩ := ex_es ha _ (.cons q1); ⟨_, .cons (.cons q), .check h g g1⟩

theorem selE_es {ts r : List Tk} {a : Ast} : SelE e ts a r → Mv X Y (SelE e) ts a r
  | .plain h hr => fun _ hs => let ⟨_, q, g⟩ := ex_es h _ hs; ⟨_, q, .plain g (nx hr hs)⟩
  | .as h ht hi => fun _ hs => let ⟨_, q1, g1⟩ := idn_es hi _ hs; let ⟨_, q, g⟩ := ex_es h _ (.cons q1); ⟨_, q, .as g ht g1⟩

theorem selEs_es {ts r : List Tk} {l : List Ast} : CommaL (SelE e) ts l r → Mv X Y (CommaL (SelE e)) ts l r
  | .one h hr => fun _ hs => let ⟨_, q, g⟩ := selE_es h _ hs; ⟨_, q, .one g (nx hr hs)⟩
  | .cons h hl => fun _ hs => let ⟨_, q1, g1⟩ := selEs_es hl _ hs; let ⟨_, q, g⟩ := selE_es h _ (.cons q1); ⟨_, q, .cons g g1⟩

theorem tri_es {ts r : List Tk} {a : Ast} : TRi e ts a r → Mv X Y (TRi e) ts a r
  | .query hn h ha => fun _ hs => let ⟨_, q1, g1⟩ := alias_es ha _ hs; let ⟨_, q, g⟩ := comp_es h _ q1; ⟨_, q, .query (nx hn q) g g1⟩
  | .table h ha hh => fun _ hs => by
    obtain ⟨_, q2, g2⟩ := hints_es hh _ hs
    obtain ⟨_, q1, g1⟩ := alias_es ha _ q2
    obtain ⟨_, q, g⟩ := qname_es h _ q1
    obtain ⟨_, rfl, _⟩ := es_ident q
    exact ⟨_, q, .table g g1 g2⟩

theorem jspec_es {ts r : List Tk} {a : Option Ast} : JSpec e ts a r → Mv X Y (JSpec e) ts a r
  | .none h => fun _ hs => ⟨_, hs, .none (nx h hs)⟩
  | .on h ha => fun _ hs => let ⟨_, q, g⟩ := ex_es ha _ hs; ⟨_, .cons q, .on h g⟩
  | .using h hl => fun _ hs => let ⟨_, q, g⟩ := commaL_es idn_es hl _ hs; ⟨_, .cons q, .using h g⟩

theorem joins_es {ts r : List Tk} {a b : Ast} : Joins e a ts b r → Mv X Y (Joins e a) ts b r
  | .nil h => fun _ hs => ⟨_, hs, .nil (nx h hs)⟩
  | .cons hj hx hsp hr => fun _ hs =>
    let ⟨_, q3, g3⟩ := joins_es hr _ hs; let ⟨_, q2, g2⟩ := jspec_es hsp _ q3; let ⟨_, q1, g1⟩ := tri_es hx _ q2; let ⟨_, q, g⟩ := joinTy_es hj _ q1
    ⟨_, q, .cons g g1 g2 g3⟩

theorem tr_es {ts r : List Tk} {a : Ast} : TR e ts a r → Mv X Y (TR e) ts a r
  | .mk h hj => fun _ hs => let ⟨_, q1, g1⟩ := joins_es hj _ hs; let ⟨_, q, g⟩ := tri_es h _ q1; ⟨_, q, .mk g g1⟩

theorem trs_es {ts r : List Tk} {l : List Ast} : CommaL (TR e) ts l r → Mv X Y (CommaL (TR e)) ts l r
  | .one h hr => fun _ hs => let ⟨_, q, g⟩ := tr_es h _ hs; ⟨_, q, .one g (nx hr hs)⟩
  | .cons h hl => fun _ hs => let ⟨_, q1, g1⟩ := trs_es hl _ hs; let ⟨_, q, g⟩ := tr_es h _ (.cons q1); ⟨_, q, .cons g g1⟩

theorem exk1_es {sp : Span} {ts r : List Tk} {a : Ast × Span} : ExK e sp ts a r → Mv X Y (ExK e sp) ts a r
  | .mk h => fun _ hs => let ⟨_, q, g⟩ := ex_es h _ hs; ⟨_, q, .mk g⟩

theorem where_es {ts r : List Tk} {a : Option (Ast × Span)} : OptKw .WHERE (ExK e) ts a r → Mv X Y (OptKw .WHERE (ExK e)) ts a r
  | .none h => fun _ hs => ⟨_, hs, .none (nx h hs)⟩
  | .some h hr => fun _ hs => let ⟨_, q, g⟩ := exk1_es hr _ hs; ⟨_, .cons q, .some h g⟩

theorem having_es {ts r : List Tk} {a : Option (Ast × Span)} : OptKw .HAVING (ExK e) ts a r → Mv X Y (OptKw .HAVING (ExK e)) ts a r
  | .none h => fun _ hs => ⟨_, hs, .none (nx h hs)⟩
  | .some h hr => fun _ hs => let ⟨_, q, g⟩ := exk1_es hr _ hs; ⟨_, .cons q, .some h g⟩

theorem exs_es {ts r : List Tk} {l : List Ast} : CommaL (Ex e false) ts l r → Mv X Y (CommaL (Ex e false)) ts l r
  | .one h hr => fun _ hs => let ⟨_, q, g⟩ := ex_es h _ hs; ⟨_, q, .one g (nx hr hs)⟩
  | .cons h hl => fun _ hs => let ⟨_, q1, g1⟩ := exs_es hl _ hs; let ⟨_, q, g⟩ := ex_es h _ (.cons q1); ⟨_, q, .cons g g1⟩

theorem group1_es {sp : Span} {ts r : List Tk} {a : Span × List Ast} : GroupBy e sp ts a r → Mv X Y (GroupBy e sp) ts a r
  | .mk h hl => fun _ hs => let ⟨_, q, g⟩ := exs_es hl _ hs; ⟨_, .cons q, .mk h g⟩

theorem group_es {ts r : List Tk} {a : Option (Span × List Ast)} : OptKw .GROUP (GroupBy e) ts a r → Mv X Y (OptKw .GROUP (GroupBy e)) ts a r
  | .none h => fun _ hs => ⟨_, hs, .none (nx h hs)⟩
  | .some h hr => fun _ hs => let ⟨_, q, g⟩ := group1_es hr _ hs; ⟨_, .cons q, .some h g⟩

theorem order1_es {sp : Span} {ts r : List Tk} {a : Span × List (Ast × OAst)} : OrderBy e sp ts a r → Mv X Y (OrderBy e sp) ts a r
  | .mk h hl => fun _ hs => let ⟨_, q, g⟩ := ords_es hl _ hs; ⟨_, .cons q, .mk h g⟩

theorem order_es {ts r : List Tk} {a : Option (Span × List (Ast × OAst))} : OptKw .ORDER (OrderBy e) ts a r → Mv X Y (OptKw .ORDER (OrderBy e)) ts a r
  | .none h => fun _ hs => ⟨_, hs, .none (nx h hs)⟩
  | .some h hr => fun _ hs => let ⟨_, q, g⟩ := order1_es hr _ hs; ⟨_, .cons q, .some h g⟩

theorem lim1_es {sp : Span} {ts r : List Tk} {a : Span × Option Ast × Ast} : Lim e sp ts a r → Mv X Y (Lim e sp) ts a r
  | .plain h hr => fun _ hs => let ⟨_, q, g⟩ := ex_es h _ hs; ⟨_, q, .plain g (nx hr hs)⟩
  | .comma ho hn => fun _ hs => let ⟨_, q1, g1⟩ := ex_es hn _ hs; let ⟨_, q, g⟩ := ex_es ho _ (.cons q1); ⟨_, q, .comma g g1⟩
  | .offset hn ht ho => fun _ hs => let ⟨_, q1, g1⟩ := ex_es ho _ hs; let ⟨_, q, g⟩ := ex_es hn _ (.cons q1); ⟨_, q, .offset g ht g1⟩

theorem lim_es {ts r : List Tk} {a : Option (Span × Option Ast × Ast)} : OptKw .LIMIT (Lim e) ts a r → Mv X Y (OptKw .LIMIT (Lim e)) ts a r
  | .none h => fun _ hs => ⟨_, hs, .none (nx h hs)⟩
  | .some h hr => fun _ hs => let ⟨_, q, g⟩ := lim1_es hr _ hs; ⟨_, .cons q, .some h g⟩

theorem sel_es {ts r : List Tk} {a : Ast} : Sel e ts a r → Mv X Y (Sel e) ts a r
  | .noFrom h hf hx hn => fun _ hs =>
    let ⟨_, q1, g1⟩ := selEs_es hx _ hs; let ⟨_, q, g⟩ := flags_es hf _ q1; ⟨_, .cons q, .noFrom h g g1 (nx hn hs)⟩
  | .from h hf hx h' ht hw hg hh hwi ho hl hlo => fun _ hs =>
    let ⟨_, q9, g9⟩ := optKw_es (R := LockSpec e) lockSpec_es hlo _ hs
    let ⟨_, q8, g8⟩ := lim_es hl _ q9
    let ⟨_, q7, g7⟩ := order_es ho _ q8
    let ⟨_, q6, g6⟩ := optK_es hwi _ q7
    let ⟨_, q5, g5⟩ := having_es hh _ q6
    let ⟨_, q4, g4⟩ := group_es hg _ q5
    let ⟨_, q3, g3⟩ := where_es hw _ q4
    let ⟨_, q2, g2⟩ := trs_es ht _ q3
    let ⟨_, q1, g1⟩ := selEs_es hx _ (.cons q2)
    let ⟨_, q, g⟩ := flags_es hf _ q1
    ⟨_, .cons q, .from h g g1 h' g2 g3 g4 g5 g6 g7 g8 g9⟩

theorem part_es {ts r : List Tk} {a : Ast} : QPart e ts a r → Mv X Y (QPart e) ts a r
  | .select h => fun _ hs => let ⟨_, q, g⟩ := sel_es h _ hs; ⟨_, q, .select g⟩
  | .paren h => fun _ hs => let ⟨_, q, g⟩ := comp_es h _ (.cons hs); ⟨_, .cons q, .paren g⟩

theorem union_es {ts r : List Tk} {a : Ast} : UnionPart e ts a r → Mv X Y (UnionPart e) ts a r
  | .all h h' hq => fun _ hs => let ⟨_, q, g⟩ := part_es hq _ hs; ⟨_, .cons (.cons q), .all h h' g⟩
  | .distinct h h' hq => fun _ hs => let ⟨_, q, g⟩ := part_es hq _ hs; ⟨_, .cons (.cons q), .distinct h h' g⟩
  | .default h hn hq => fun _ hs => let ⟨_, q, g⟩ := part_es hq _ hs; ⟨_, .cons q, .default h (nx hn q) g⟩

theorem unions_es {ts r : List Tk} {l : List Ast} : Unions e ts l r → Mv X Y (Unions e) ts l r
  | .one h hr => fun _ hs => let ⟨_, q, g⟩ := union_es h _ hs; ⟨_, q, .one g (nx hr hs)⟩
  | .cons h hl => fun _ hs => let ⟨_, q1, g1⟩ := unions_es hl _ hs; let ⟨_, q, g⟩ := union_es h _ q1; ⟨_, q, .cons g g1⟩

theorem comp_es {ts r : List Tk} {a : Ast} : Comp e ts a r → Mv X Y (Comp e) ts a r
  | .one h hr => fun _ hs => let ⟨_, q, g⟩ := part_es h _ hs; ⟨_, q, .one g (nx hr hs)⟩
  | .union h hu ho hl => fun _ hs =>
    let ⟨_, q3, g3⟩ := lim_es hl _ hs; let ⟨_, q2, g2⟩ := order_es ho _ q3; let ⟨_, q1, g1⟩ := unions_es hu _ q2; let ⟨_, q, g⟩ := part_es h _ q1
    ⟨_, q, .union g g1 g2 g3⟩

end

end SqlParse
