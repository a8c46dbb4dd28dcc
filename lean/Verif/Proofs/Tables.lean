import Verif.Spec.Tables
import Verif.Proofs.Queries
import Verif.Spec.GrammarStmt
/-! The tokens of a CREATE TABLE (Spec/Tables) are a sentence of the grammar, and its AST stands for the table. -/
namespace SqlParse
variable {o : Opts} {e : Env}

/-- The words with which a property begins. -/
def propWords : List Keyword := plainProps.map (·.1) ++ otherProps ++ [.AS]

/-- The words of properties that can stand after DEFAULT. -/
def afterWords : List Keyword := [.UNSIGNED, .ZEROFILL, .NOT, .CHARACTER, .COLLATE, .COMMENT, .DEFAULT, .UNIQUE, .PRIMARY, .CHECK, .AS]

/-- A comma, a parenthesis, the end, or a property comes next. -/
def PropNext (d : Bool) (r : List Tk) : Prop :=
  ∃ t sp r', r = (t, sp) :: r' ∧ (t = .comma ∨ t = .rParen ∨ t = .eof ∨ (t.kw ∈ propWords ∧ (d = true → t.kw ∈ afterWords)))

theorem propNext_word {t : Token} {sp : Span} {r : List Tk} {k : Keyword} {d : Bool} (h : t.isKw k = true) (h1 : k ∈ propWords)
    (h2 : d = true → k ∈ afterWords) : PropNext d ((t, sp) :: r) := by
  have : t.kw = k := by
    cases t <;> simp [Token.isKw] at h
    simp [Token.kw, h]
  exact ⟨_, _, _, rfl, .inr (.inr (.inr ⟨by rw [this]; exact h1, by rw [this]; exact h2⟩))⟩

theorem kw_ident {t : Token} (h : t.kw ≠ .NOT_A_KEYWORD) : ∃ v, t = .ident v t.kw := by
  cases t <;> simp [Token.kw] at h ⊢

theorem propWords_real : ∀ k ∈ propWords, k ≠ .NOT_A_KEYWORD := by decide +kernel

theorem propNext_weak {d : Bool} {r : List Tk} (h : PropNext d r) : PropNext false r := by
  obtain ⟨t, sp, r', rfl, h⟩ := h
  exact ⟨t, sp, r', rfl, h.imp_right (Or.imp_right (Or.imp_right fun h => ⟨h.1, by simp⟩))⟩

/-- What a property can be followed by. -/
theorem propNext_next {d : Bool} {r : List Tk} (h : PropNext d r) (P : Token → Prop) (h1 : P .comma) (h2 : P .rParen) (h0 : P .eof)
    (h3 : ∀ v, ∀ k ∈ propWords, P (.ident v k)) : Next P r := by
  obtain ⟨t, sp, r', rfl, rfl | rfl | rfl | h⟩ := h
  · exact h1
  · exact h2
  · exact h0
  · obtain ⟨v, hv⟩ := kw_ident (propWords_real _ h.1)
    show P t
    rw [hv]
    exact h3 _ _ h.1

theorem propNext_notKw {d : Bool} {r : List Tk} (h : PropNext d r) {k : Keyword} (hk : k ∉ propWords) : NotKw k r := by
  have := propNext_next h (fun t => t.isKw k = false) rfl rfl rfl fun v k' hk' => by
    simp only [Token.isKw, decide_eq_false_iff_not]
    rintro rfl
    exact hk hk'
  exact this

theorem propNext_paren {d : Bool} {r : List Tk} (h : PropNext d r) : Next (· ≠ .lParen) r :=
  propNext_next h _ (by simp) (by simp) (by simp) (by simp)

theorem propNext_afterOd {d : Bool} {r : List Tk} (h : PropNext d r) : AfterOd r := by
  obtain ⟨t, sp, r', rfl, rfl | rfl | rfl | h⟩ := h
  · exact follow_comma
  · exact follow_paren
  · exact afterOd_tok (by simp) (by simp) rfl rfl
  · obtain ⟨v, hv⟩ := kw_ident (propWords_real _ h.1)
    have ho : ∀ k ∈ propWords, k ≠ .OVER := by decide +kernel
    rw [hv]
    exact follow_kw (k := t.kw) (by simp [Token.isKw]) (ho _ h.1)

theorem propNext_stops {r : List Tk} (h : PropNext true r) : Stops e true r := by
  obtain ⟨t, sp, r', rfl, rfl | rfl | rfl | h⟩ := h
  · exact .inl (by decide)
  · exact .inl (by decide)
  · exact .inl (by decide)
  · obtain ⟨v, hv⟩ := kw_ident (propWords_real _ h.1)
    have ho : ∀ k ∈ afterWords, k.exprIdent = false ∧ k ∉ exprWords ∧ k ≠ .LEFT := by decide +kernel
    obtain ⟨h1, h2, h3⟩ := ho _ (h.2 rfl)
    rw [hv]
    exact ⟨h1, h2, fun _ => rfl, fun h => absurd h h3⟩

/-! ### Types -/

theorem width_reads {w : Option Nat} {toks : List Token} (h : SpellsWidth w toks) (ts : List Tk) (hts : ts.map (·.1) = toks) :
    ∃ a : Option (Nat × Span), Maybe MeansNat w (toF a) ∧ ∀ r, Next (· ≠ .lParen) r → OptWidth (ts ++ r) a r := by
  cases h with
  | none =>
    toks hts
    subst hts
    exact ⟨none, .none, fun r hr => .none hr⟩
  | some h =>
    toks hts
    obtain ⟨⟨t, s1⟩, _, rfl, rfl, ⟨t, s2⟩, _, rfl, rfl, ⟨t, s3⟩, _, rfl, rfl, rfl⟩ := hts
    exact ⟨some (_, s2), .some .mk, fun r _ => .some (.mk (.mk (by omega)))⟩

theorem width1_reads {n : Nat} {toks : List Token} (h : SpellsWidth (some n) toks) (ts : List Tk) (hts : ts.map (·.1) = toks) :
    ∃ s, ∀ r, Width (ts ++ r) (n, s) r := by
  cases h with
  | some h =>
    toks hts
    obtain ⟨⟨t, s1⟩, _, rfl, rfl, ⟨t, s2⟩, _, rfl, rfl, ⟨t, s3⟩, _, rfl, rfl, rfl⟩ := hts
    exact ⟨s2, fun r => .mk (.mk (by omega))⟩

theorem strs_reads {v : List Char} {toks : List Token} (h : Spells o (.str v) toks) (ts : List Tk) (hts : ts.map (·.1) = toks) :
    ∃ a, MeansStr v a ∧ ∀ r, AfterOd r → Str (ts ++ r) a r := by
  obtain ⟨sp, hr⟩ := reads_str h ts hts
  exact ⟨_, .mk, fun r hf => .mk (hr r hf)⟩

theorem strList_reads {l : List (List Char)} {toks : List Token} (h : Commas (fun v => Spells o (.str v)) l toks) (ts : List Tk)
    (hts : ts.map (·.1) = toks) (lp rp : Span) : ∃ as, EachOf MeansStr l as ∧ ∀ r, StrList ((.lParen, lp) :: (ts ++ (.rParen, rp) :: r)) as r := by
  obtain ⟨as, h1, h2⟩ := commas_reads (P := Str) (M := MeansStr) (F := AfterOd) (fun sp r => follow_comma) h
    (fun x _ toks h ts hts => strs_reads h ts hts) ts hts
  exact ⟨as, h1, fun r => .mk (h2 _ follow_paren (by simp [Next]))⟩

theorem lookup_snd {α β : Type} [BEq α] [LawfulBEq α] {l : List (α × β)} {a : α} {b : β} (h : l.lookup a = some b) : b ∈ l.map (·.2) := by
  induction l with
  | nil => simp at h
  | cons p l ih =>
    obtain ⟨x, y⟩ := p
    rw [List.lookup_cons] at h
    split at h
    · cases h; simp
    · exact List.mem_cons_of_mem _ (ih h)

theorem type_reads {ty : ColType} {toks : List Token} (h : SpellsType e.opts ty toks) (ts : List Tk) (hts : ts.map (·.1) = toks) :
    ∃ sp a, MeansType ty a ∧ ∀ r, PropNext false r → Ty e (ts ++ r) (sp, ⟨a⟩) r := by
  cases h with
  | plain h =>
    toks hts
    obtain ⟨⟨t, sp⟩, _, rfl, rfl, rfl⟩ := hts
    exact ⟨sp, _, .plain (lookup_snd h), fun r _ => .plain h⟩
  | width h hw =>
    toks hts
    obtain ⟨⟨t, sp⟩, ts, rfl, rfl, hts⟩ := hts
    obtain ⟨a, h1, h2⟩ := width_reads hw ts hts
    exact ⟨sp, _, .width (lookup_snd h) h1, fun r hr => .width h (h2 r (propNext_paren hr))⟩
  | varbinary h hw =>
    toks hts
    obtain ⟨⟨t, sp⟩, ts, rfl, rfl, hts⟩ := hts
    obtain ⟨s, h2⟩ := width1_reads hw ts hts
    exact ⟨sp, _, .varbinary (.mk (sp := s)), fun r _ => .varbinary h (h2 r)⟩
  | bit h hw =>
    toks hts
    obtain ⟨⟨t, sp⟩, ts, rfl, rfl, hts⟩ := hts
    obtain ⟨s, h2⟩ := width1_reads hw ts hts
    exact ⟨sp, _, .bit (sp := s), fun r _ => .bit h (h2 r)⟩
  | float h =>
    toks hts
    obtain ⟨⟨t, sp⟩, _, rfl, rfl, rfl⟩ := hts
    exact ⟨sp, _, .float, fun r _ => .float h⟩
  | realFloat h hd =>
    toks hts
    obtain ⟨⟨t, sp⟩, _, rfl, rfl, rfl⟩ := hts
    exact ⟨sp, _, .float, fun r _ => .real h hd⟩
  | real h hd =>
    toks hts
    obtain ⟨⟨t, sp⟩, _, rfl, rfl, rfl⟩ := hts
    exact ⟨sp, _, .double, fun r _ => .realSqlite h hd⟩
  | double h hd =>
    toks hts
    obtain ⟨⟨t, sp⟩, _, rfl, rfl, rfl⟩ := hts
    exact ⟨sp, _, .double, fun r _ => .double hd (.one h)⟩
  | doublePrecision h h' hd =>
    toks hts
    obtain ⟨⟨t, sp⟩, _, rfl, rfl, ⟨t', sp'⟩, _, rfl, rfl, rfl⟩ := hts
    exact ⟨_, _, .double, fun r _ => .doublePg hd (.cons h (.one h'))⟩
  | numeric h hv hw =>
    toks hts
    obtain ⟨⟨t, sp⟩, _, rfl, rfl, ⟨_, s1⟩, _, rfl, rfl, ⟨_, s2⟩, _, rfl, rfl, ⟨_, s3⟩, _, rfl, rfl, ⟨_, s4⟩, _, rfl, rfl, ⟨_, s5⟩, _, rfl, rfl, rfl⟩ := hts
    exact ⟨sp, _, .numeric, fun r _ => .numeric h (by omega) (by omega)⟩
  | timestamp h hw =>
    toks hts
    obtain ⟨⟨t, sp⟩, ts, rfl, rfl, hts⟩ := hts
    obtain ⟨a, h1, h2⟩ := width_reads hw ts hts
    exact ⟨sp, _, .timestamp h1 .no, fun r hr => .timestamp h (h2 r (propNext_paren hr)) (.none (propNext_notKw hr (by decide +kernel)))⟩
  | timestampZone h hw k1 k2 k3 =>
    toks hts
    obtain ⟨⟨t, sp⟩, _, rfl, rfl, ts, _, rfl, hts, ⟨t1, s1⟩, _, rfl, rfl, ⟨t2, s2⟩, _, rfl, rfl, ⟨t3, s3⟩, _, rfl, rfl, rfl⟩ := hts
    obtain ⟨a, h1, h2⟩ := width_reads hw ts hts
    refine ⟨sp, _, .timestamp h1 (.yes (sp := joinSpan s1 (joinSpan s2 s3))), fun r hr => ?_⟩
    rw [List.cons_append, List.append_assoc]
    exact .timestamp h (h2 _ (by rintro rfl; simp [Token.isKw] at k1)) (.some k1 ⟨_, rfl, .cons k2 (.one k3)⟩)
  | enum h hl =>
    toks hts
    obtain ⟨⟨t, sp⟩, _, rfl, rfl, ⟨_, lp⟩, _, rfl, rfl, us, _, rfl, hu, ⟨_, rp⟩, _, rfl, rfl, rfl⟩ := hts
    obtain ⟨as, h1, h2⟩ := strList_reads hl us hu lp rp
    refine ⟨sp, _, .enum (.mk h1), fun r _ => ?_⟩
    simp only [List.cons_append, List.append_assoc, List.nil_append]
    rw [← toF_list]
    exact .enum h (h2 r)
  | set h hl =>
    toks hts
    obtain ⟨⟨t, sp⟩, _, rfl, rfl, ⟨_, lp⟩, _, rfl, rfl, us, _, rfl, hu, ⟨_, rp⟩, _, rfl, rfl, rfl⟩ := hts
    obtain ⟨as, h1, h2⟩ := strList_reads hl us hu lp rp
    refine ⟨sp, _, .set (.mk h1), fun r _ => ?_⟩
    simp only [List.cons_append, List.append_assoc, List.nil_append]
    rw [← toF_list]
    exact .set h (h2 r)

/-! ### Properties -/

/-- An operand is an expression after DEFAULT. -/
theorem inner_ex {ts r : List Tk} {a : Ast} (h : Od e ts a r) (hs : Stops e true r) : Ex e true ts a r :=
  .mk (T := .leaf a) (.opd h (.stop hs)) trivial

theorem default_reads {x : Expr} {toks : List Token} (h : SpellsDefault e.opts x toks) (hg : x.Grouped) (ts : List Tk) (hts : ts.map (·.1) = toks) :
    ∃ a, Means x a ∧ ∀ r, PropNext true r → Ex e true (ts ++ r) a r := by
  have go : ∀ (x : Expr), (∃ a, Means x a ∧ ∀ r, AfterOd r → Od e (ts ++ r) a r) → ∃ a, Means x a ∧ ∀ r, PropNext true r → Ex e true (ts ++ r) a r :=
    fun x ⟨a, m, g⟩ => ⟨a, m, fun r hr => inner_ex (g r (propNext_afterOd hr)) (propNext_stops hr)⟩
  apply go
  cases h with
  | int h =>
    cases h with
    | int h =>
      toks hts
      obtain ⟨⟨t, sp⟩, _, rfl, rfl, rfl⟩ := hts
      exact ⟨_, .int (sp := sp), fun r _ => .integer (.mk (by omega))⟩
  | dec h =>
    cases h with
    | dec =>
      toks hts
      obtain ⟨⟨t, sp⟩, _, rfl, rfl, rfl⟩ := hts
      exact ⟨_, .dec (sp := sp), fun r _ => .float⟩
  | str h =>
    obtain ⟨sp, hr⟩ := reads_str h ts hts
    exact ⟨_, .str, fun r hf => .str (.mk (hr r hf))⟩
  | bool h =>
    cases h with
    | true h =>
      toks hts
      obtain ⟨⟨t, sp⟩, _, rfl, rfl, rfl⟩ := hts
      exact ⟨_, .bool (sp := sp), fun r _ => .true h⟩
    | false h =>
      toks hts
      obtain ⟨⟨t, sp⟩, _, rfl, rfl, rfl⟩ := hts
      exact ⟨_, .bool (sp := sp), fun r _ => .false h⟩
  | null h =>
    cases h with
    | null h =>
      toks hts
      obtain ⟨⟨t, sp⟩, _, rfl, rfl, rfl⟩ := hts
      exact ⟨_, .null (sp := sp), fun r _ => .null h⟩
  | call0 h =>
    cases h with
    | call0 hn hf =>
      toks hts
      obtain ⟨⟨t, sp⟩, _, rfl, rfl, ⟨_, lp⟩, _, rfl, rfl, ⟨_, rp⟩, _, rfl, rfl, rfl⟩ := hts
      refine ⟨_, .call0 (sp := sp), fun r hr => .func hn hf .nil ?_ rfl⟩
      cases r with
      | nil => exact hr.elim
      | cons p r => exact hr.2.2.2
    | nullary h =>
      toks hts
      obtain ⟨⟨t, sp⟩, _, rfl, rfl, rfl⟩ := hts
      refine ⟨_, .call0 (sp := sp), fun r hr => .nullary h ?_⟩
      cases r with
      | nil => exact hr.elim
      | cons p r => exact hr.1
  | paren h =>
    cases h with
    | paren h =>
      toks hts
      obtain ⟨⟨_, lp⟩, _, rfl, rfl, us, _, rfl, hu, ⟨_, rp⟩, _, rfl, rfl, rfl⟩ := hts
      rw [Expr.Grouped] at hg
      obtain ⟨a, m, k⟩ := reads_ex (spells_reads h hg us hu)
      refine ⟨_, .paren m, fun r _ => ?_⟩
      simp only [List.cons_append, List.append_assoc, List.nil_append]
      exact .paren (.expr (begins_map (by rw [hu]; exact spells_begins h) _).2.1 (k _ stops_paren follow_paren))

theorem plainProp_after {k : Keyword} {K : Kind} (h : plainProps.lookup k = some K) (ha : (ColProp.plain K).afterDefault) : k ∈ afterWords := by
  have h' : ∀ p ∈ plainProps, p.2 = .DataTypeProperty_Unsigned ∨ p.2 = .DataTypeProperty_Zerofill → p.1 ∈ afterWords := by decide +kernel
  have hm : (k, K) ∈ plainProps := by
    have := List.lookup_eq_some_iff.1 h
    obtain ⟨l1, l2, e, -⟩ := this
    rw [e]; simp
  exact h' _ hm ha

theorem prop_reads {p : ColProp} {toks : List Token} (h : SpellsProp e.opts p toks) (hg : ∀ x ∈ p.expr, x.Grouped) (ts : List Tk)
    (hts : ts.map (·.1) = toks) : (∀ d r, (d = true → p.afterDefault) → PropNext d (ts ++ r)) ∧
    ∃ a, MeansProp p a ∧ ∀ r, PropNext p.isDefault r → ∀ l r', Props e false r l r' → Props e false (ts ++ r) (a :: l) r' := by
  cases h with
  | plain h =>
    rename_i t K
    toks hts
    obtain ⟨⟨t, sp⟩, _, rfl, rfl, rfl⟩ := hts
    refine ⟨fun d r hd => ⟨_, _, _, rfl, .inr (.inr (.inr ⟨?_, fun h' => plainProp_after h (hd h')⟩))⟩, _, .plain (lookup_snd h), fun r _ l r' hp => .plain h hp⟩
    have hm : (t.kw, K) ∈ plainProps := by
      obtain ⟨l1, l2, e, -⟩ := List.lookup_eq_some_iff.1 h
      rw [e]; simp
    exact List.mem_append_left _ (List.mem_append_left _ (List.mem_map_of_mem (f := (·.1)) hm))
  | notNull h h' =>
    toks hts
    obtain ⟨⟨t, s⟩, _, rfl, rfl, ⟨t', s'⟩, _, rfl, rfl, rfl⟩ := hts
    exact ⟨fun d r _ => propNext_word h (by decide +kernel) (fun _ => by decide +kernel), _, .notNull, fun r _ l r' hp => .notNull h h' hp⟩
  | charset h h' hn =>
    toks hts
    obtain ⟨⟨t, s⟩, _, rfl, rfl, ⟨t', s'⟩, _, rfl, rfl, ⟨n, sn⟩, _, rfl, rfl, rfl⟩ := hts
    exact ⟨fun d r _ => propNext_word h (by decide +kernel) (fun _ => by decide +kernel), _, .charset .mk,
      fun r _ l r' hp => .charset (.cons h (.one h')) (name_reads hn sn r) hp⟩
  | collate h hn =>
    toks hts
    obtain ⟨⟨t, s⟩, _, rfl, rfl, ⟨n, sn⟩, _, rfl, rfl, rfl⟩ := hts
    exact ⟨fun d r _ => propNext_word h (by decide +kernel) (fun _ => by decide +kernel), _, .charset .mk,
      fun r _ l r' hp => .collate h (name_reads hn sn r) hp⟩
  | comment h hs =>
    toks hts
    obtain ⟨⟨t, s⟩, ts, rfl, rfl, hts⟩ := hts
    obtain ⟨a, m, g⟩ := strs_reads hs ts hts
    exact ⟨fun d r _ => propNext_word h (by decide +kernel) (fun _ => by decide +kernel), _, .comment m,
      fun r hr l r' hp => .comment h (g r (propNext_afterOd hr)) hp⟩
  | default h hx =>
    toks hts
    obtain ⟨⟨t, s⟩, ts, rfl, rfl, hts⟩ := hts
    obtain ⟨a, m, g⟩ := default_reads hx (hg _ rfl) ts hts
    exact ⟨fun d r _ => propNext_word h (by decide +kernel) (fun _ => by decide +kernel), _, .default m, fun r hr l r' hp => .default h (g r hr) hp⟩
  | uniqueKey h h' =>
    toks hts
    obtain ⟨⟨t, s⟩, _, rfl, rfl, ⟨t', s'⟩, _, rfl, rfl, rfl⟩ := hts
    exact ⟨fun d r _ => propNext_word h (by decide +kernel) (fun _ => by decide +kernel), _, .uniqueKey, fun r _ l r' hp => .uniqueKey h h' hp⟩
  | unique h =>
    toks hts
    obtain ⟨⟨t, s⟩, _, rfl, rfl, rfl⟩ := hts
    exact ⟨fun d r _ => propNext_word h (by decide +kernel) (fun _ => by decide +kernel), _, .unique,
      fun r hr l r' hp => .unique h (propNext_notKw hr (by decide +kernel)) hp⟩
  | generated h h' hd =>
    toks hts
    obtain ⟨⟨t, s⟩, _, rfl, rfl, ⟨t', s'⟩, _, rfl, rfl, rfl⟩ := hts
    exact ⟨fun d r hd => propNext_word h (by decide +kernel) (fun h => (hd h).elim), _, .generated,
      fun r _ l r' hp => .generated hd (.cons h (.one h')) hp⟩
  | identity h h' ha hi hd =>
    toks hts
    obtain ⟨⟨t, s⟩, _, rfl, rfl, ⟨t', s'⟩, _, rfl, rfl, ⟨a, sa⟩, _, rfl, rfl, ⟨i, si⟩, _, rfl, rfl, rfl⟩ := hts
    exact ⟨fun d r hd => propNext_word h (by decide +kernel) (fun h => (hd h).elim), _, .generated,
      fun r _ l r' hp => .generatedPg hd (.cons h (.cons h' (.cons ha (.one hi)))) hp⟩
  | as h hx =>
    toks hts
    obtain ⟨⟨t, s⟩, _, rfl, rfl, ⟨_, lp⟩, _, rfl, rfl, us, _, rfl, hu, ⟨_, rp⟩, _, rfl, rfl, rfl⟩ := hts
    obtain ⟨a, m, g⟩ := reads_ex (spells_reads hx (hg _ rfl) us hu)
    refine ⟨fun d r _ => propNext_word h (by decide +kernel) (fun _ => by decide +kernel), _, .as (sp := s) m, fun r _ l r' hp => ?_⟩
    simp only [List.cons_append, List.append_assoc, List.nil_append]
    exact .as h (g _ stops_paren follow_paren) hp
  | primaryKey h h' =>
    toks hts
    obtain ⟨⟨t, s⟩, _, rfl, rfl, ⟨t', s'⟩, _, rfl, rfl, rfl⟩ := hts
    exact ⟨fun d r _ => propNext_word h (by decide +kernel) (fun _ => by decide +kernel), _, .primaryKey, fun r _ l r' hp => .primaryKey (.cons h (.one h')) hp⟩
  | check h hx =>
    toks hts
    obtain ⟨⟨t, s⟩, _, rfl, rfl, ⟨_, lp⟩, _, rfl, rfl, us, _, rfl, hu, ⟨_, rp⟩, _, rfl, rfl, rfl⟩ := hts
    obtain ⟨a, m, g⟩ := reads_ex (spells_reads hx (hg _ rfl) us hu)
    refine ⟨fun d r _ => propNext_word h (by decide +kernel) (fun _ => by decide +kernel), _, .check (sp := s) m, fun r _ l r' hp => ?_⟩
    simp only [List.cons_append, List.append_assoc, List.nil_append]
    exact .check h (g _ stops_paren follow_paren) hp

/-- A comma, a parenthesis or the end comes next. -/
def ColNext (r : List Tk) : Prop := Next (fun t => t = .comma ∨ t = .rParen ∨ t = .eof) r

theorem colNext_prop {r : List Tk} (h : ColNext r) (d : Bool) : PropNext d r := by
  cases r with
  | nil => exact h.elim
  | cons p r => exact ⟨_, _, _, rfl, Or.imp_right (Or.imp_right Or.inl) h⟩

theorem props_reads {d : Bool} {ps : List ColProp} {toks : List Token} (h : SpellsProps e.opts d ps toks) :
    (∀ p ∈ ps, ∀ x ∈ p.expr, x.Grouped) → ∀ ts : List Tk, ts.map (·.1) = toks → ∃ l, EachOf MeansProp ps l ∧
      ∀ r, ColNext r → Props e false (ts ++ r) l r ∧ PropNext d (ts ++ r) := by
  induction h with
  | nil =>
    intro _ ts hts
    toks hts
    subst hts
    refine ⟨[], .nil, fun r hr => ⟨.nil ?_ ?_ (.inr ?_), colNext_prop hr _⟩⟩ <;> cases r <;> try exact hr.elim
    · rcases hr with h | h | h <;> (show plainProps.lookup _ = none; rw [h]; decide +kernel)
    · intro k hk
      rcases hr with h | h | h <;> rw [h] <;> rfl
    · rcases hr with h | h | h <;> (show Token.isKw _ _ = false; rw [h]; rfl)
  | cons h hd hs ih =>
    intro hg ts hts
    toks hts
    obtain ⟨xs, ys, rfl, hx, hy⟩ := hts
    obtain ⟨l, m, g⟩ := ih (fun p hp => hg p (List.mem_cons_of_mem _ hp)) ys hy
    obtain ⟨h1, a, m', g'⟩ := prop_reads h (hg _ (by simp)) xs hx
    refine ⟨a :: l, .cons m' m, fun r hr => ?_⟩
    rw [List.append_assoc]
    exact ⟨g' _ (g r hr).2 _ _ (g r hr).1, h1 _ _ hd⟩

theorem col_reads {c : ColDef} {toks : List Token} (h : SpellsCol e.opts c toks) (hg : ∀ p ∈ c.props, ∀ x ∈ p.expr, x.Grouped) (ts : List Tk)
    (hts : ts.map (·.1) = toks) : ∃ a, MeansCol c a ∧ ∀ r, ColNext r → Defn e (ts ++ r) a r := by
  cases h with
  | mk hn ht hp =>
    toks hts
    obtain ⟨⟨t, sp⟩, _, rfl, rfl, xs, ys, rfl, hx, hy⟩ := hts
    obtain ⟨s, a, m1, g1⟩ := type_reads ht xs hx
    obtain ⟨l, m2, g2⟩ := props_reads hp hg ys hy
    refine ⟨_, .mk (.mk (sp := sp)) (sp := s) m1 (.mk m2), fun r hr => ?_⟩
    rw [List.cons_append, List.append_assoc, ← toF_list]
    exact .column (name_reads hn sp _) (.mk (g1 _ (g2 r hr).2) (g2 r hr).1)

theorem cols_reads {l : List ColDef} {toks : List Token} (h : SpellsCols e.opts l toks) (hg : ∀ c ∈ l, ∀ p ∈ c.props, ∀ x ∈ p.expr, x.Grouped)
    (ts : List Tk) (hts : ts.map (·.1) = toks) : ∃ as, EachOf MeansCol l as ∧ ∀ r, Defns e (ts ++ r) as r ∧ Next (· = .lParen) (ts ++ r) := by
  cases h with
  | none =>
    toks hts
    obtain ⟨⟨_, lp⟩, _, rfl, rfl, ⟨_, rp⟩, _, rfl, rfl, rfl⟩ := hts
    exact ⟨[], .nil, fun r => ⟨.nil, rfl⟩⟩
  | some h =>
    toks hts
    obtain ⟨⟨_, lp⟩, _, rfl, rfl, us, _, rfl, hu, ⟨_, rp⟩, _, rfl, rfl, rfl⟩ := hts
    obtain ⟨as, m, g⟩ := commas_reads (P := Defn e) (M := MeansCol) (F := ColNext) (fun sp r => .inl rfl) h
      (fun c hc toks h ts hts => col_reads h (hg c hc) ts hts) us hu
    refine ⟨as, m, fun r => ?_⟩
    simp only [List.cons_append, List.append_assoc, List.nil_append]
    exact ⟨.some (.mk (g _ (.inr (.inl rfl)) (by simp [Next]))), rfl⟩

/-! ### Options -/

/-- An option or the end comes next. -/
def OptNext (r : List Tk) : Prop := Next (fun t => t = .eof ∨ ∃ k ∈ tblOptWords, t.isKw k = true) r

theorem optNext_word {t : Token} {k : Keyword} {sp : Span} {r : List Tk} (h : t.isKw k = true) (hk : k ∈ tblOptWords) : OptNext ((t, sp) :: r) :=
  .inr ⟨k, hk, h⟩

theorem optNext_afterOd {r : List Tk} (h : OptNext r) : AfterOd r := by
  cases r with
  | nil => exact h.elim
  | cons p r =>
    obtain ⟨t, sp⟩ := p
    rcases h with h | ⟨k, hk, h⟩
    · have h : t = .eof := h
      subst h; exact afterOd_tok (by simp) (by simp) rfl rfl
    · have : ∀ k ∈ tblOptWords, k ≠ .OVER := by decide +kernel
      exact follow_kw h (this k hk)

theorem value_reads {k : Keyword} {R : List Token → Prop} {P : List Tk → Ast → List Tk → Prop} {M : Ast → Prop} {F : List Tk → Prop}
    {toks : List Token} (h : SpellsValue k R toks)
    (hR : ∀ toks, R toks → ∀ ts : List Tk, ts.map (·.1) = toks → (∀ r, Next (· ≠ .eq) (ts ++ r)) ∧ ∃ a, M a ∧ ∀ r, F r → P (ts ++ r) a r)
    (ts : List Tk) (hts : ts.map (·.1) = toks) :
    (∀ r, Next (fun t => t.isKw k = true) (ts ++ r)) ∧ ∃ s a, M a ∧ ∀ r, F r → OptVal P k (ts ++ r) (s, a) r := by
  cases h with
  | eq h hr =>
    toks hts
    obtain ⟨⟨t, s⟩, _, rfl, rfl, ⟨_, q⟩, us, rfl, rfl, hu⟩ := hts
    obtain ⟨_, a, m, g⟩ := hR _ hr us hu
    exact ⟨fun r => h, s, a, m, fun r hF => .eq h (g r hF)⟩
  | plain h hr =>
    toks hts
    obtain ⟨⟨t, s⟩, us, rfl, rfl, hu⟩ := hts
    obtain ⟨h1, a, m, g⟩ := hR _ hr us hu
    exact ⟨fun r => h, s, a, m, fun r hF => .plain h (h1 r) (g r hF)⟩

theorem one_reads {v : List Char} (toks : List Token) (h : SpellsOne e.opts v toks) (ts : List Tk) (hts : ts.map (·.1) = toks) :
    (∀ r, Next (· ≠ .eq) (ts ++ r)) ∧ ∃ a, MeansName v a ∧ ∀ r, OptNext r → Idn e (ts ++ r) a r := by
  cases h with
  | mk h =>
    toks hts
    obtain ⟨⟨t, s⟩, _, rfl, rfl, rfl⟩ := hts
    refine ⟨fun r => ?_, _, .mk (sp := s), fun r _ => name_reads h s r⟩
    cases h <;> simp [Next]

theorem text_reads {v : List Char} (toks : List Token) (h : Spells o (.str v) toks) (ts : List Tk) (hts : ts.map (·.1) = toks) :
    (∀ r, Next (· ≠ .eq) (ts ++ r)) ∧ ∃ a, MeansStr v a ∧ ∀ r, OptNext r → Str (ts ++ r) a r := by
  obtain ⟨a, m, g⟩ := strs_reads h ts hts
  refine ⟨fun r => ?_, a, m, fun r hr => g r (optNext_afterOd hr)⟩
  have hh : ∀ t v, stringText t = some v → t ≠ .eq := by rintro _ v h rfl; simp [stringText] at h
  cases h with
  | str h =>
    toks hts
    obtain ⟨⟨t, sp⟩, _, rfl, rfl, rfl⟩ := hts
    exact hh _ _ h
  | strs h _ =>
    toks hts
    obtain ⟨⟨t, sp⟩, _, rfl, rfl, _⟩ := hts
    exact hh _ _ h

theorem option_reads {x : TblOption} {toks : List Token} (h : SpellsOption e.opts x toks) (ts : List Tk) (hts : ts.map (·.1) = toks) :
    (∀ r, OptNext (ts ++ r)) ∧ ∃ a, MeansOption x a ∧ ∀ r, OptNext r → TblOpt e (ts ++ r) a r := by
  have hk : ∀ k ∈ tblOptWords, ∀ r, Next (fun t => t.isKw k = true) r → OptNext r := fun k hk r h => by
    cases r with
    | nil => exact h.elim
    | cons p r => exact .inr ⟨k, hk, h⟩
  cases h with
  | engine h =>
    obtain ⟨h1, s, a, m, g⟩ := value_reads h one_reads ts hts
    exact ⟨fun r => hk _ (by decide +kernel) _ (h1 r), _, .engine (sp := s) m, fun r hr => .engine (g r hr)⟩
  | charset h =>
    obtain ⟨h1, s, a, m, g⟩ := value_reads h one_reads ts hts
    exact ⟨fun r => hk _ (by decide +kernel) _ (h1 r), _, .charset (sp := s) m, fun r hr => .charset (g r hr)⟩
  | collate h =>
    obtain ⟨h1, s, a, m, g⟩ := value_reads h one_reads ts hts
    exact ⟨fun r => hk _ (by decide +kernel) _ (h1 r), _, .collate (sp := s) m, fun r hr => .collate (g r hr)⟩
  | rowFormat h =>
    obtain ⟨h1, s, a, m, g⟩ := value_reads h one_reads ts hts
    exact ⟨fun r => hk _ (by decide +kernel) _ (h1 r), _, .rowFormat (sp := s) m, fun r hr => .rowFormat (g r hr)⟩
  | comment h =>
    obtain ⟨h1, s, a, m, g⟩ := value_reads h text_reads ts hts
    exact ⟨fun r => hk _ (by decide +kernel) _ (h1 r), _, .comment (sp := s) m, fun r hr => .comment (g r hr)⟩
  | strict h =>
    toks hts
    obtain ⟨⟨t, s⟩, _, rfl, rfl, rfl⟩ := hts
    exact ⟨fun r => optNext_word h (by decide +kernel), _, .strict (sp := s), fun r hr => .strict h⟩
  | defaultCharset ht h =>
    toks hts
    obtain ⟨⟨t, s⟩, us, rfl, rfl, hu⟩ := hts
    obtain ⟨h1, s', a, m, g⟩ := value_reads h one_reads us hu
    exact ⟨fun r => optNext_word ht (by decide +kernel), _, .defaultCharset (sp := s) m, fun r hr => .defaultCharset ht (g r hr)⟩
  | defaultCollate ht h =>
    toks hts
    obtain ⟨⟨t, s⟩, us, rfl, rfl, hu⟩ := hts
    obtain ⟨h1, s', a, m, g⟩ := value_reads h one_reads us hu
    exact ⟨fun r => optNext_word ht (by decide +kernel), _, .defaultCollate (sp := s) m, fun r hr => .defaultCollate ht (g r hr)⟩

theorem options_reads {l : List TblOption} {toks : List Token} (h : Row (SpellsOption e.opts) l toks) : ∀ ts : List Tk, ts.map (·.1) = toks →
    ∃ as, EachOf MeansOption l as ∧ ∀ sp, TblOpts e (ts ++ [(.eof, sp)]) as [(.eof, sp)] ∧ OptNext (ts ++ [(.eof, sp)]) := by
  induction h with
  | nil =>
    intro ts hts
    toks hts
    subst hts
    exact ⟨[], .nil, fun sp => ⟨.nil (.inr rfl) (fun k _ => rfl), .inl rfl⟩⟩
  | cons h hl ih =>
    intro ts hts
    toks hts
    obtain ⟨xs, ys, rfl, hx, hy⟩ := hts
    obtain ⟨as, m, g⟩ := ih ys hy
    obtain ⟨h1, a, m', g'⟩ := option_reads h xs hx
    refine ⟨a :: as, .cons m' m, fun sp => ?_⟩
    rw [List.append_assoc]
    exact ⟨.cons (g' _ (g sp).2) (g sp).1, h1 _⟩

/-! ### The statement -/

theorem create_reads {l : List Kind} {toks : List Token} (h : Row SpellsCreate l toks) : ∀ ts : List Tk, ts.map (·.1) = toks →
    ∃ as, EachOf MeansWord l as ∧ ∀ t sp r, t.isKw .TABLE = true → CrOpts e (ts ++ (t, sp) :: r) as ((t, sp) :: r) := by
  induction h with
  | nil =>
    intro ts hts
    toks hts
    subst hts
    exact ⟨[], .nil, fun t sp r ht => .nil ⟨_, by simp, ht⟩⟩
  | cons h hl ih =>
    intro ts hts
    toks hts
    obtain ⟨xs, ys, rfl, hx, hy⟩ := hts
    obtain ⟨as, m, g⟩ := ih ys hy
    cases h with
    | mk hm hw =>
      simp only [createPhrases, List.mem_cons, List.not_mem_nil, or_false, Prod.mk.injEq] at hm
      rcases hm with ⟨rfl, rfl⟩ | ⟨rfl, rfl⟩
      · obtain ⟨sp, k⟩ := kws_reads hw xs hx (by simp)
        refine ⟨_, .cons (.mk (sp := sp)) m, fun t s r ht => ?_⟩
        rw [List.append_assoc]
        exact .orReplace (k _) (g t s r ht)
      · obtain ⟨sp, k⟩ := kws_reads hw xs hx (by simp)
        refine ⟨_, .cons (.mk (sp := sp)) m, fun t s r ht => ?_⟩
        rw [List.append_assoc]
        exact .temporary (k _) (g t s r ht)

theorem ifNot_reads {i : Bool} {toks : List Token} (h : SpellsIfNot i toks) (ts : List Tk) (hts : ts.map (·.1) = toks) :
    ∃ a : Option Span, MeansFlag i (toF a) ∧ ∀ r, NotKw .IF r →
      OptKw .IF (fun i ts a r => ∃ s, Kws [.NOT, .EXISTS] ts s r ∧ a = (⟨i.start, s.stop⟩ : Span)) (ts ++ r) a r := by
  cases h with
  | no =>
    toks hts
    subst hts
    exact ⟨none, .no, fun r hr => .none hr⟩
  | yes h =>
    cases h with
    | cons h hs =>
      toks hts
      obtain ⟨⟨t, s⟩, us, rfl, rfl, hu⟩ := hts
      obtain ⟨sp, k⟩ := kws_reads hs us hu (by simp)
      exact ⟨some ⟨s.start, sp.stop⟩, .yes, fun r hr => .some h ⟨_, k r, rfl⟩⟩

theorem dotted_notIf {p : List (List Char)} {n : List Char} {toks : List Token} (h : SpellsDotted o p n toks) (ts : List Tk)
    (hts : ts.map (·.1) = toks) (r : List Tk) : NotKw .IF (ts ++ r) := by
  have hn : ∀ v t, SpellsName o v t → t.isKw .IF = false := fun v t h => by
    cases h with
    | word hk _ _ =>
      simp only [Token.isKw, decide_eq_false_iff_not]
      rintro rfl
      revert hk
      decide +kernel
    | quoted _ => rfl
  cases h with
  | last h =>
    toks hts
    obtain ⟨⟨t, s⟩, _, rfl, rfl, rfl⟩ := hts
    exact hn _ _ h
  | dot h hs =>
    toks hts
    obtain ⟨⟨t, s⟩, _, rfl, rfl, _⟩ := hts
    exact hn _ _ h

theorem tableDef_reads {d : TableDef} {toks : List Token} (h : SpellsTableDef e.opts d toks)
    (hg : ∀ c ∈ d.cols, ∀ p ∈ c.props, ∀ x ∈ p.expr, x.Grouped) (ts : List Tk) (hts : ts.map (·.1) = toks) :
    ∃ a, MeansTableDef d a ∧ ∀ sp, Stm e (ts ++ [(.eof, sp)]) ⟨a⟩ [(.eof, sp)] := by
  cases h with
  | mk hc hx ht hi hn hcs ho =>
    toks hts
    obtain ⟨⟨c, s⟩, _, rfl, rfl, xs, _, rfl, hxs, ⟨t, st⟩, _, rfl, rfl, is, _, rfl, his, ns, _, rfl, hns, cs, os, rfl, hcs', hos⟩ := hts
    obtain ⟨x, m1, g1⟩ := create_reads (e := e) hx xs hxs
    obtain ⟨i, m2, g2⟩ := ifNot_reads hi is his
    obtain ⟨p, n, m3, m4, g3⟩ := dotted_reads hn ns hns
    obtain ⟨cl, m5, g5⟩ := cols_reads hcs hg cs hcs'
    obtain ⟨ol, m6, g6⟩ := options_reads ho os hos
    refine ⟨_, .mk (c := s) (t := st) (.mk m1) m3 m4 m2 (.mk m5) (.mk m6), fun sp => ?_⟩
    simp only [List.cons_append, List.append_assoc]
    have hp : ∀ r, Next (· = .lParen) r → Next (· ≠ .period) r := fun r h => by
      cases r with
      | nil => exact h.elim
      | cons p r => intro h'; have h : p.1 = .lParen := h; rw [h] at h'; cases h'
    rw [← toF_list, ← toF_list, ← toF_list]
    exact .create hc (g1 _ _ _ ht) (.table (c := s) (os := x) (s := st) ht (g2 _ (dotted_notIf hn ns hns _)) (.mk (g3 _ (hp _ (g5 _).2))) (g5 _).1 (g6 sp).1)

end SqlParse
