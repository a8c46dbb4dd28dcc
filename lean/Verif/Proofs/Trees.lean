import Verif.Spec.Trees
/-! The tokens of an expression tree (Spec/Trees) are a sentence of the grammar, and its AST stands for the tree. -/
namespace SqlParse
variable {o : Opts} {e : Env}

/-- What may come after an operand. -/
def AfterOd (r : List Tk) : Prop :=
  Next (fun t => t ≠ .lParen ∧ t ≠ .period ∧ stringText t = none ∧ t.isKw .OVER = false) r

/-- What expressions do not begin with. -/
def OpensEx (ts : List Token) : Prop :=
  ∃ t tl, ts = t :: tl ∧ t ≠ .rParen ∧ t ≠ .comma ∧ t.isKw .SELECT = false ∧ t.isKw .WHEN = false ∧ t.isKw .DISTINCT = false

theorem begins_kw {t : Token} {tl : List Token} {k : Keyword} (h : t.isKw k = true)
    (hk : k ≠ .SELECT ∧ k ≠ .WHEN ∧ k ≠ .DISTINCT) : OpensEx (t :: tl) := by
  cases t with
  | ident v k' =>
    simp only [Token.isKw, decide_eq_true_eq] at h
    subst h
    exact ⟨_, _, rfl, by simp, by simp, by simpa [Token.isKw] using hk.1, by simpa [Token.isKw] using hk.2.1,
      by simpa [Token.isKw] using hk.2.2⟩
  | _ => simp [Token.isKw] at h

theorem begins_name {v : List Char} {k : Keyword} {tl : List Token} (h : k.exprIdent = true ∨ k = .LEFT) : OpensEx (.ident v k :: tl) := by
  refine begins_kw (k := k) (by simp [Token.isKw]) ⟨?_, ?_, ?_⟩
  · rintro rfl; revert h; decide +kernel
  · rintro rfl; revert h; decide +kernel
  · rintro rfl; revert h; decide +kernel

theorem begins_sym {t : Token} {tl : List Token} (h1 : t ≠ .rParen) (h2 : t ≠ .comma) (h : ∀ v k, t ≠ .ident v k) : OpensEx (t :: tl) := by
  have hk : ∀ k, t.isKw k = false := by
    cases t <;> first | exact fun _ => rfl | exact absurd rfl (h _ _)
  exact ⟨_, _, rfl, h1, h2, hk _, hk _, hk _⟩

theorem begins_append {ts us : List Token} (h : OpensEx ts) : OpensEx (ts ++ us) := by
  obtain ⟨t, tl, rfl, h⟩ := h
  exact ⟨t, _, rfl, h⟩

theorem begins_str {t : Token} {v : List Char} {tl : List Token} (h : stringText t = some v) : OpensEx (t :: tl) := by
  refine begins_sym ?_ ?_ ?_ <;> intros <;> rintro rfl <;> simp [stringText] at h

theorem begins_un {t : Token} {op : UnOp} {tl : List Token} (h : unTok false t = some op) : OpensEx (t :: tl) := by
  cases t with
  | ident v k =>
    by_cases hb : k = .SELECT ∨ k = .WHEN ∨ k = .DISTINCT
    · exfalso
      rcases hb with rfl | rfl | rfl
      · exact absurd h (by rw [show unTok false (.ident v .SELECT) = none from rfl]; simp)
      · exact absurd h (by rw [show unTok false (.ident v .WHEN) = none from rfl]; simp)
      · exact absurd h (by rw [show unTok false (.ident v .DISTINCT) = none from rfl]; simp)
    · simp only [not_or] at hb
      exact begins_kw (k := k) (by simp [Token.isKw]) hb
  | minus | exclamationMark => exact begins_sym (by simp) (by simp) (by simp)
  | _ => simp [unTok] at h

theorem spells_begins {x : Expr} {ts : List Token} : Spells o x ts → OpensEx ts
  | .int _ | .dec | .paren _ => begins_sym (by simp) (by simp) (by simp)
  | .str h | .strs h _ => begins_str h
  | .true h => begins_kw h (by decide)
  | .false h => begins_kw h (by decide)
  | .null h => begins_kw h (by decide)
  | .column hn _ _ => begins_name (.inl hn.1)
  | .call0 hn _ => begins_name (hn.imp_left (·.1))
  | .call hn _ _ => begins_name (hn.imp_left (·.1))
  | .un ho _ => begins_un ho
  | .bin _ h _ => begins_append (spells_begins h)
  | .notLike _ _ h _ => begins_append (spells_begins h)
  | .is _ _ h => begins_append (spells_begins h)
  | .isNot _ _ _ h => begins_append (spells_begins h)
  | .isIn _ h _ => begins_append (spells_begins h)
  | .notIn _ _ h _ => begins_append (spells_begins h)
  | .nullary (t := t) (K := K) h => by
    obtain ⟨l1, l2, h2, -⟩ := List.lookup_eq_some_iff.1 h
    have hm : (t.kw, K) ∈ nullaryWords := by rw [h2]; simp
    have hk : ∀ p ∈ nullaryWords, p.1 ≠ .SELECT ∧ p.1 ≠ .WHEN ∧ p.1 ≠ .DISTINCT := by decide +kernel
    cases t with
    | ident v k => exact begins_kw (k := k) (by simp [Token.isKw]) (hk _ hm)
    | _ =>
      have : ∀ p ∈ nullaryWords, p.1 ≠ .NOT_A_KEYWORD := by decide +kernel
      exact absurd rfl (this _ hm)
  | .count h _ => begins_kw h (by decide)
  | .countDistinct h _ _ => begins_kw h (by decide)
  | .caseWhen h _ _ _ _ _ _ => begins_kw h (by decide)
  | .caseOf h _ _ _ _ _ _ _ => begins_kw h (by decide)

theorem spellsL_begins {l : Exprs} {ts : List Token} : SpellsL o l ts → OpensEx ts
  | .one h => spells_begins h
  | .cons h _ => begins_append (spells_begins h)

/-- Nothing but the end of the operand can come now. -/
theorem afterOd_tok {t : Token} {sp : Span} {r : List Tk} (h1 : t ≠ .lParen) (h2 : t ≠ .period) (h3 : stringText t = none)
    (h4 : t.isKw .OVER = false) : AfterOd ((t, sp) :: r) := ⟨h1, h2, h3, h4⟩

theorem follow_kw {t : Token} {k : Keyword} {sp : Span} {r : List Tk} (h : t.isKw k = true) (hk : k ≠ .OVER) : AfterOd ((t, sp) :: r) := by
  cases t with
  | ident v k' =>
    simp only [Token.isKw, decide_eq_true_eq] at h
    subst h
    exact afterOd_tok (by simp) (by simp) rfl (by simpa [Token.isKw] using hk)
  | _ => simp [Token.isKw] at h

theorem follow_bin {t : Token} {op : BinOp} {sp : Span} {r : List Tk} (h : binTok false t = some op) : AfterOd ((t, sp) :: r) := by
  cases t with
  | ident v k =>
    refine follow_kw (k := k) (by simp [Token.isKw]) ?_
    rintro rfl
    exact absurd h (by rw [show binTok false (.ident v .OVER) = none from rfl]; simp)
  | lParen | period | singleQuotedString _ | doubleQuotedString _ => exact absurd h (by simp [binTok])
  | _ => exact afterOd_tok (by simp) (by simp) rfl rfl

theorem stops_kw {t : Token} {k : Keyword} {sp : Span} {r : List Tk} (h : t.isKw k = true)
    (hk : k.exprIdent = false ∧ k ∉ exprWords ∧ k ∉ opWords ∧ k ≠ .LEFT) : Stops e false ((t, sp) :: r) := by
  cases t with
  | ident v k' =>
    simp only [Token.isKw, decide_eq_true_eq] at h
    subst h
    exact ⟨hk.1, hk.2.1, fun h => absurd h hk.2.2.1, fun h => absurd h hk.2.2.2⟩
  | _ => simp [Token.isKw] at h


/-! ### Operands and operators -/

/-- The tokens are read as a tree of operands and operators that stands for the expression. -/
def ReadsE (e : Env) (x : Expr) (ts : List Tk) : Prop :=
  ∃ T : PTree, Means x T.ast ∧ T.WellPrec ∧ T.leftEdge = x.leftEdge ∧ T.rightEdge = x.rightEdge ∧
    ∀ l r r', AfterOd r → Its e false true r l r' → Its e false false (ts ++ r) (T.inorder ++ l) r'

theorem reads_ex {x : Expr} {ts : List Tk} (h : ReadsE e x ts) :
    ∃ a, Means x a ∧ ∀ r, Stops e false r → AfterOd r → Ex e false (ts ++ r) a r := by
  obtain ⟨T, h1, h2, -, -, h5⟩ := h
  exact ⟨_, h1, fun r hs hf => .mk (by simpa using h5 [] r r hf (.stop hs)) h2⟩

theorem reads_leaf {x : Expr} {a : Ast} {ts : List Tk} (hl : x.leftEdge = []) (hr : x.rightEdge = []) (hm : Means x a)
    (h : ∀ r, AfterOd r → Od e (ts ++ r) a r) : ReadsE e x ts :=
  ⟨.leaf a, hm, trivial, hl.symm, hr.symm, fun _ r _ hf hi => .opd (h r hf) hi⟩

theorem toF_list (l : List Ast) : (toF l : Ast) = .list l := by
  show Ast.list (l.map id) = _
  rw [List.map_id]

theorem reads_un {t : Token} {op : UnOp} {sp : Span} {x : Expr} {ts : List Tk} (ho : unTok false t = some op) (h : ReadsE e x ts)
    (hg : ∀ o ∈ x.leftEdge, o.level < (Opr.un op).level) : ReadsE e (.un op x) ((t, sp) :: ts) := by
  obtain ⟨T, h1, h2, h3, h4, h5⟩ := h
  refine ⟨.un op sp T, .un h1, ⟨h2, h3 ▸ hg⟩, rfl, ?_, fun l r r' hf hi => .un ho (h5 l r r' hf hi)⟩
  simp only [PTree.rightEdge, Expr.rightEdge, h4]

theorem reads_op {op : BinOp} {sp : Span} {x y : Expr} {ts us ms : List Tk} (h : ReadsE e x ts) (h' : ReadsE e y us)
    (hl : ∀ o ∈ x.rightEdge, o.level ≤ (Opr.bin op).level) (hr : ∀ o ∈ y.leftEdge, o.level < (Opr.bin op).level)
    (hf : ∀ r, AfterOd (ms ++ r)) (hi : ∀ r l r', Its e false false r l r' → Its e false true (ms ++ r) (.bin op sp :: l) r') :
    ReadsE e (.bin op x y) (ts ++ (ms ++ us)) := by
  obtain ⟨T, h1, h2, h3, h4, h5⟩ := h
  obtain ⟨U, g1, g2, g3, g4, g5⟩ := h'
  refine ⟨.bin op sp T U, .bin h1 g1, ⟨h2, g2, h4 ▸ hl, g3 ▸ hr⟩, ?_, ?_, ?_⟩
  · simp only [PTree.leftEdge, Expr.leftEdge, h3]
  · simp only [PTree.rightEdge, Expr.rightEdge, g4]
  · intro l r r' hf' hi'
    simp only [PTree.inorder, List.append_assoc, List.cons_append]
    exact h5 _ _ _ (hf _) (hi _ _ _ (g5 _ _ _ hf' hi'))

theorem reads_post {x y : Expr} {p : PostOp} {ts ms : List Tk} (h : ReadsE e x ts) (hl : ∀ o ∈ x.rightEdge, o.level ≤ Opr.post.level)
    (hL : y.leftEdge = .post :: x.leftEdge) (hR : y.rightEdge = []) (hm : ∀ T : PTree, Means x T.ast → Means y (PTree.post p T).ast)
    (hf : ∀ r, AfterOd (ms ++ r)) (hi : ∀ r l r', AfterOd r → Its e false true r l r' → Its e false true (ms ++ r) (.post p :: l) r') :
    ReadsE e y (ts ++ ms) := by
  obtain ⟨T, h1, h2, h3, h4, h5⟩ := h
  refine ⟨.post p T, hm T h1, ⟨h2, h4 ▸ hl⟩, by simp only [PTree.leftEdge, hL, h3], hR.symm, ?_⟩
  intro l r r' hf' hi'
  simp only [PTree.inorder, List.append_assoc, List.cons_append, List.nil_append]
  exact h5 _ _ _ (hf _) (hi _ _ _ hf' hi')

/-! ### Operands -/

theorem notKw_next {t : Token} {k : Keyword} {sp : Span} {r : List Tk} (h : t.isKw k = false) : NotKw k ((t, sp) :: r) := h

theorem begins_map {ts : List Tk} (h : OpensEx (ts.map (·.1))) (r : List Tk) :
    Next (· ≠ .rParen) (ts ++ r) ∧ NotKw .SELECT (ts ++ r) ∧ NotKw .WHEN (ts ++ r) ∧ NotKw .DISTINCT (ts ++ r) := by
  obtain ⟨t, tl, h0, h1, -, h2, h3, h4⟩ := h
  obtain ⟨p, us, rfl, rfl, -⟩ := List.map_eq_cons_iff.1 h0
  exact ⟨h1, h2, h3, h4⟩

theorem reads_parts {ps : List (Option (List Char))} {toks : List Token} (h : SpellsParts e.opts ps toks) :
    ∀ ts : List Tk, ts.map (·.1) = toks → ∃ l, MeansParts ps l ∧
      ∀ r, AfterOd r → Parts e (ts ++ r) l r ∧ Next (· ≠ .lParen) (ts ++ r) := by
  induction h with
  | nil =>
    intro ts hts
    obtain rfl := List.map_eq_nil_iff.1 hts
    refine ⟨[], .nil, fun r hf => ?_⟩
    cases r with
    | nil => exact hf.elim
    | cons p r => exact ⟨.nil hf.2.1, hf.1⟩
  | star h ih =>
    intro ts hts
    obtain ⟨p, ts, rfl, hp, hts'⟩ := List.map_eq_cons_iff.1 hts
    obtain ⟨q, ts, rfl, hq, hts''⟩ := List.map_eq_cons_iff.1 hts'
    obtain ⟨t, sp⟩ := p; obtain ⟨t', sp'⟩ := q
    dsimp only at hp hq; subst hp; subst hq
    obtain ⟨l, h1, h2⟩ := ih ts ‹_›
    exact ⟨_, .star (sp := sp') h1, fun r hf => ⟨.star (h2 r hf).1, by simp [Next]⟩⟩
  | name hk hq' hm h ih =>
    intro ts hts
    obtain ⟨p, ts, rfl, hp, hts'⟩ := List.map_eq_cons_iff.1 hts
    obtain ⟨q, ts, rfl, hq, hts''⟩ := List.map_eq_cons_iff.1 hts'
    obtain ⟨t, sp⟩ := p; obtain ⟨t', sp'⟩ := q
    dsimp only at hp hq; subst hp; subst hq
    obtain ⟨l, h1, h2⟩ := ih ts ‹_›
    exact ⟨_, .name (sp := sp') h1, fun r hf => ⟨.name (.word hk hq' (by simp [Env.noArg, argTk, hm])) (h2 r hf).1, by simp [Next]⟩⟩

theorem follow_paren {sp : Span} {r : List Tk} : AfterOd ((.rParen, sp) :: r) := afterOd_tok (by simp) (by simp) rfl rfl
theorem stops_paren {sp : Span} {r : List Tk} : Stops e false ((.rParen, sp) :: r) := .inl (by decide)
theorem follow_comma {sp : Span} {r : List Tk} : AfterOd ((.comma, sp) :: r) := afterOd_tok (by simp) (by simp) rfl rfl
theorem stops_comma {sp : Span} {r : List Tk} : Stops e false ((.comma, sp) :: r) := .inl (by decide)

/-- The list is read, before `)`. -/
def ReadsL (e : Env) (l : Exprs) (ts : List Tk) : Prop :=
  ∃ as, MeansL l as ∧ ∀ rp r, CommaL (Pa e) (ts ++ (.rParen, rp) :: r) as ((.rParen, rp) :: r) ∧
    CommaL (Ou e) (ts ++ (.rParen, rp) :: r) as ((.rParen, rp) :: r)

/-- The rest of a CASE is read, before END. -/
def ReadsC (e : Env) (cs : Cases) (ts : List Tk) : Prop :=
  ∃ ws el, MeansC cs ws (toF el) ∧ ∀ t ep r, Token.isKw t .END = true → ∃ r', OptKw .ELSE (Els e) r' el ((t, ep) :: r) ∧
    (Stops e false (ts ++ (t, ep) :: r) ∧ AfterOd (ts ++ (t, ep) :: r)) ∧
    ((ws = [] ∧ r' = ts ++ (t, ep) :: r ∧ NotKw .WHEN r') ∨ Whens e (ts ++ (t, ep) :: r) ws r')

theorem isKw_other {t : Token} {k k' : Keyword} (h : t.isKw k = true) (hk : k ≠ k') : t.isKw k' = false := by
  cases t with
  | ident v k'' =>
    simp only [Token.isKw, decide_eq_true_eq] at h
    subst h
    simpa [Token.isKw] using hk
  | _ => rfl

/-- Split a list of tokens with spans along the tokens. -/
macro "toks" h:ident : tactic => `(tactic| (
  simp only [List.map_eq_cons_iff, List.map_eq_append_iff, List.map_eq_nil_iff] at $h:ident))

theorem reads_str {v : List Char} {toks : List Token} : Spells o (.str v) toks → ∀ ts : List Tk, ts.map (·.1) = toks →
    ∃ sp, ∀ r, AfterOd r → Strs (ts ++ r) (v, sp) r
  | .str h, ts, hts => by
    toks hts
    obtain ⟨⟨t, sp⟩, _, rfl, rfl, rfl⟩ := hts
    refine ⟨sp, fun r hf => .one h ?_⟩
    cases r with
    | nil => exact hf.elim
    | cons p r => exact hf.2.2.1
  | .strs h hs, ts, hts => by
    toks hts
    obtain ⟨⟨t, sp⟩, ts, rfl, rfl, rfl⟩ := hts
    obtain ⟨sp', ih⟩ := reads_str hs ts rfl
    exact ⟨_, fun r hf => .cons h (ih r hf)⟩

theorem reads_whens {a b : Expr} {cs : Cases} {t th : Token} {w sp : Span} {ts us vs : List Tk} (hw : t.isKw .WHEN = true)
    (ht : th.isKw .THEN = true) (h1 : ReadsE e a ts) (h2 : ReadsE e b us) (h3 : ReadsC e cs vs) :
    ∃ a' b' ws el, Means a a' ∧ Means b b' ∧ MeansC cs ws (toF el) ∧ ∀ en ep r, Token.isKw en .END = true → ∃ r',
      OptKw .ELSE (Els e) r' el ((en, ep) :: r) ∧
      Whens e ((t, w) :: (ts ++ (th, sp) :: (us ++ (vs ++ (en, ep) :: r)))) (nd% When [w, a', sp, b'] :: ws) r' := by
  obtain ⟨a', m1, k1⟩ := reads_ex h1
  obtain ⟨b', m2, k2⟩ := reads_ex h2
  obtain ⟨ws, el, m3, k3⟩ := h3
  refine ⟨a', b', ws, el, m1, m2, m3, fun en ep r he => ?_⟩
  obtain ⟨r', g1, ⟨g2, g3⟩, g4⟩ := k3 en ep r he
  refine ⟨r', g1, ?_⟩
  have hA := k1 ((th, sp) :: (us ++ (vs ++ (en, ep) :: r))) (stops_kw ht (by decide +kernel)) (follow_kw ht (by decide))
  rcases g4 with ⟨rfl, rfl, hn⟩ | g4
  · exact .one hw hA ht (k2 _ g2 g3) hn
  · exact .cons hw hA ht (k2 _ g2 g3) g4

mutual

theorem spells_reads {x : Expr} {toks : List Token} : Spells e.opts x toks → x.Grouped → ∀ ts : List Tk, ts.map (·.1) = toks → ReadsE e x ts
  | .int h, _, ts, hts => by
    toks hts
    obtain ⟨⟨t, sp⟩, _, rfl, rfl, rfl⟩ := hts
    exact reads_leaf rfl rfl (.int (sp := sp)) fun r _ => .integer (.mk (by omega))
  | .dec, _, ts, hts => by
    toks hts
    obtain ⟨⟨t, sp⟩, _, rfl, rfl, rfl⟩ := hts
    exact reads_leaf rfl rfl (.dec (sp := sp)) fun r _ => .float
  | .str h, _, ts, hts => by
    obtain ⟨sp, hr⟩ := reads_str (.str h : Spells e.opts _ _) ts hts
    exact reads_leaf rfl rfl .str fun r hf => .str (.mk (hr r hf))
  | .strs h hs, _, ts, hts => by
    obtain ⟨sp, hr⟩ := reads_str (.strs h hs) ts hts
    exact reads_leaf rfl rfl .str fun r hf => .str (.mk (hr r hf))
  | .true h, _, ts, hts => by
    toks hts
    obtain ⟨⟨t, sp⟩, _, rfl, rfl, rfl⟩ := hts
    exact reads_leaf rfl rfl (.bool (sp := sp)) fun r _ => .true h
  | .false h, _, ts, hts => by
    toks hts
    obtain ⟨⟨t, sp⟩, _, rfl, rfl, rfl⟩ := hts
    exact reads_leaf rfl rfl (.bool (sp := sp)) fun r _ => .false h
  | .null h, _, ts, hts => by
    toks hts
    obtain ⟨⟨t, sp⟩, _, rfl, rfl, rfl⟩ := hts
    exact reads_leaf rfl rfl (.null (sp := sp)) fun r _ => .null h
  | .column hn hk hp, _, ts, hts => by
    toks hts
    obtain ⟨⟨t, sp⟩, ts, rfl, rfl, hts⟩ := hts
    obtain ⟨l, h1, h2⟩ := reads_parts hp ts hts
    refine reads_leaf rfl rfl (.column (sp := sp) h1) fun r hf => ?_
    rw [← toF_list]
    exact .name hn hk (h2 r hf).2 (h2 r hf).1
  | .un ho h, hg, ts, hts => by
    toks hts
    obtain ⟨⟨t, sp⟩, ts, rfl, rfl, hts⟩ := hts
    rw [Expr.Grouped] at hg
    exact reads_un ho (spells_reads h hg.1 ts hts) hg.2
  | .bin ho h1 h2, hg, ts, hts => by
    toks hts
    obtain ⟨xs, _, rfl, hx, ⟨t, sp⟩, ys, rfl, rfl, hy⟩ := hts
    rw [Expr.Grouped] at hg
    exact reads_op (ms := [(t, sp)]) (spells_reads h1 hg.1 xs hx) (spells_reads h2 hg.2.1 ys hy) hg.2.2.1 hg.2.2.2
      (fun r => follow_bin ho) (fun r l r' hi => .bin ho hi)
  | .notLike h h' h1 h2, hg, ts, hts => by
    toks hts
    obtain ⟨xs, _, rfl, hx, ⟨t, sp⟩, _, rfl, rfl, ⟨t', sp'⟩, ys, rfl, rfl, hy⟩ := hts
    rw [Expr.Grouped] at hg
    exact reads_op (ms := [(t, sp), (t', sp')]) (spells_reads h1 hg.1 xs hx) (spells_reads h2 hg.2.1 ys hy) hg.2.2.1 hg.2.2.2
      (fun r => follow_kw h (by decide)) (fun r l r' hi => .notLike h h' hi)
  | .is h hK h1, hg, ts, hts => by
    toks hts
    obtain ⟨xs, _, rfl, hx, ⟨t, sp⟩, _, rfl, rfl, ⟨t', sp'⟩, _, rfl, rfl, rfl⟩ := hts
    rw [Expr.Grouped] at hg
    exact reads_post (ms := [(t, sp), (t', sp')]) (spells_reads h1 hg.1 xs hx) hg.2 rfl rfl (fun T hm => .is hm)
      (fun r => follow_kw h (by decide)) (fun r l r' _ hi => .is h hK hi)
  | .isNot h hn hK h1, hg, ts, hts => by
    toks hts
    obtain ⟨xs, _, rfl, hx, ⟨t, sp⟩, _, rfl, rfl, ⟨n, sn⟩, _, rfl, rfl, ⟨t', sp'⟩, _, rfl, rfl, rfl⟩ := hts
    rw [Expr.Grouped] at hg
    exact reads_post (ms := [(t, sp), (n, sn), (t', sp')]) (spells_reads h1 hg.1 xs hx) hg.2 rfl rfl (fun T hm => .is hm)
      (fun r => follow_kw h (by decide)) (fun r l r' _ hi => .isNot h hn hK hi)
  | .isIn h h1 h2, hg, ts, hts => by
    toks hts
    obtain ⟨xs, _, rfl, hx, ⟨t, sp⟩, _, rfl, rfl, ⟨_, lp⟩, _, rfl, rfl, us, _, rfl, hu, ⟨_, rp⟩, _, rfl, rfl, rfl⟩ := hts
    rw [Expr.Grouped] at hg
    obtain ⟨as, m, k⟩ := spellsL_reads h2 hg.2.2 us hu
    exact reads_post (p := .isIn as sp false) (spells_reads h1 hg.1 xs hx) hg.2.1 rfl rfl (fun T hm => .isIn hm m)
      (fun r => follow_kw h (by decide)) (fun r l r' _ hi => by
        simp only [List.cons_append, List.append_assoc, List.nil_append]
        exact .isIn h (k _ _).1 hi)
  | .notIn h h' h1 h2, hg, ts, hts => by
    toks hts
    obtain ⟨xs, _, rfl, hx, ⟨t, sp⟩, _, rfl, rfl, ⟨t', sp'⟩, _, rfl, rfl, ⟨_, lp⟩, _, rfl, rfl, us, _, rfl, hu, ⟨_, rp⟩, _, rfl, rfl, rfl⟩ := hts
    rw [Expr.Grouped] at hg
    obtain ⟨as, m, k⟩ := spellsL_reads h2 hg.2.2 us hu
    exact reads_post (p := .isIn as (joinSpan sp' sp) true) (spells_reads h1 hg.1 xs hx) hg.2.1 rfl rfl (fun T hm => .isIn hm m)
      (fun r => follow_kw h (by decide)) (fun r l r' _ hi => by
        simp only [List.cons_append, List.append_assoc, List.nil_append]
        exact .notIn h h' (k _ _).1 hi)
  | .call0 hn hf, _, ts, hts => by
    toks hts
    obtain ⟨⟨t, sp⟩, _, rfl, rfl, ⟨_, lp⟩, _, rfl, rfl, ⟨_, rp⟩, _, rfl, rfl, rfl⟩ := hts
    refine reads_leaf rfl rfl (.call0 (sp := sp)) fun r hr => .func hn hf .nil ?_ rfl
    cases r with
    | nil => exact hr.elim
    | cons p r => exact hr.2.2.2
  | .nullary h, _, ts, hts => by
    toks hts
    obtain ⟨⟨t, sp⟩, _, rfl, rfl, rfl⟩ := hts
    refine reads_leaf rfl rfl (.call0 (sp := sp)) fun r hr => .nullary h ?_
    cases r with
    | nil => exact hr.elim
    | cons p r => exact hr.1
  | .call hn hf h, hg, ts, hts => by
    toks hts
    obtain ⟨⟨t, sp⟩, _, rfl, rfl, ⟨_, lp⟩, _, rfl, rfl, us, _, rfl, hu, ⟨_, rp⟩, _, rfl, rfl, rfl⟩ := hts
    rw [Expr.Grouped] at hg
    obtain ⟨as, m, k⟩ := spellsL_reads h hg us hu
    refine reads_leaf rfl rfl (.call (sp := sp) m) fun r hr => ?_
    simp only [List.cons_append, List.append_assoc, List.nil_append]
    rw [← toF_list]
    refine .func hn hf (.some (begins_map (by rw [hu]; exact spellsL_begins h) _).1 (k rp r).2) ?_ rfl
    cases r with
    | nil => exact hr.elim
    | cons p r => exact hr.2.2.2
  | .count h h1, hg, ts, hts => by
    toks hts
    obtain ⟨⟨t, sp⟩, _, rfl, rfl, ⟨_, lp⟩, _, rfl, rfl, us, _, rfl, hu, ⟨_, rp⟩, _, rfl, rfl, rfl⟩ := hts
    rw [Expr.Grouped] at hg
    obtain ⟨a, m, k⟩ := reads_ex (spells_reads h1 hg us hu)
    refine reads_leaf rfl rfl (.count (sp := sp) m) fun r hr => ?_
    simp only [List.cons_append, List.append_assoc, List.nil_append]
    have hb := begins_map (by rw [hu]; exact spells_begins h1) ((.rParen, rp) :: r)
    exact .count h (.none hb.2.2.2) (.expr hb.2.1 (k _ stops_paren follow_paren))
  | .countDistinct h hd h1, hg, ts, hts => by
    toks hts
    obtain ⟨⟨t, sp⟩, _, rfl, rfl, ⟨_, lp⟩, _, rfl, rfl, ⟨d, dp⟩, _, rfl, rfl, us, _, rfl, hu, ⟨_, rp⟩, _, rfl, rfl, rfl⟩ := hts
    rw [Expr.Grouped] at hg
    obtain ⟨a, m, k⟩ := reads_ex (spells_reads h1 hg us hu)
    refine reads_leaf rfl rfl (.countDistinct (sp := sp) (d := dp) m) fun r hr => ?_
    simp only [List.cons_append, List.append_assoc, List.nil_append]
    have hb := begins_map (by rw [hu]; exact spells_begins h1) ((.rParen, rp) :: r)
    exact .count h (.some hd) (.expr hb.2.1 (k _ stops_paren follow_paren))
  | .caseWhen hc hw ht he h1 h2 h3, hg, ts, hts => by
    toks hts
    obtain ⟨⟨c, cp⟩, _, rfl, rfl, ⟨w, wp⟩, _, rfl, rfl, xs, _, rfl, hx, ⟨th, tp⟩, _, rfl, rfl, us, _, rfl, hu, vs, _, rfl, hv, ⟨en, ep⟩, _, rfl, rfl, rfl⟩ := hts
    rw [Expr.Grouped] at hg
    obtain ⟨a', b', ws, el, m1, m2, m3, k⟩ := reads_whens (w := wp) (sp := tp) hw ht (spells_reads h1 hg.1 xs hx)
      (spells_reads h2 hg.2.1 us hu) (spellsC_reads h3 hg.2.2 vs hv)
    refine reads_leaf rfl rfl (.caseWhen (c := cp) (w := wp) (th := tp) (en := ep) m1 m2 m3) fun r hr => ?_
    obtain ⟨r', g1, g2⟩ := k en ep r he
    simp only [List.cons_append, List.append_assoc, List.nil_append]
    rw [← toF_list]
    exact .caseWhen hc hw g2 g1 he
  | .caseOf hc hw ht he h0 h1 h2 h3, hg, ts, hts => by
    toks hts
    obtain ⟨⟨c, cp⟩, _, rfl, rfl, zs, _, rfl, hz, ⟨w, wp⟩, _, rfl, rfl, xs, _, rfl, hx, ⟨th, tp⟩, _, rfl, rfl, us, _, rfl, hu, vs, _, rfl, hv, ⟨en, ep⟩, _, rfl, rfl, rfl⟩ := hts
    rw [Expr.Grouped] at hg
    obtain ⟨v', m0, k0⟩ := reads_ex (spells_reads h0 hg.1 zs hz)
    obtain ⟨a', b', ws, el, m1, m2, m3, k⟩ := reads_whens (w := wp) (sp := tp) hw ht (spells_reads h1 hg.2.1 xs hx)
      (spells_reads h2 hg.2.2.1 us hu) (spellsC_reads h3 hg.2.2.2 vs hv)
    refine reads_leaf rfl rfl (.caseOf (c := cp) (w := wp) (th := tp) (en := ep) m0 m1 m2 m3) fun r hr => ?_
    obtain ⟨r', g1, g2⟩ := k en ep r he
    simp only [List.cons_append, List.append_assoc, List.nil_append]
    rw [← toF_list]
    exact .caseOf hc (begins_map (by rw [hz]; exact spells_begins h0) _).2.2.1
      (k0 _ (stops_kw hw (by decide +kernel)) (follow_kw hw (by decide))) g2 g1 he
  | .paren h, hg, ts, hts => by
    toks hts
    obtain ⟨⟨_, lp⟩, _, rfl, rfl, us, _, rfl, hu, ⟨_, rp⟩, _, rfl, rfl, rfl⟩ := hts
    rw [Expr.Grouped] at hg
    obtain ⟨a, m, k⟩ := reads_ex (spells_reads h hg us hu)
    refine reads_leaf rfl rfl (.paren m) fun r hr => ?_
    simp only [List.cons_append, List.append_assoc, List.nil_append]
    exact .paren (.expr (begins_map (by rw [hu]; exact spells_begins h) _).2.1 (k _ stops_paren follow_paren))

theorem spellsL_reads {l : Exprs} {toks : List Token} : SpellsL e.opts l toks → l.Grouped → ∀ ts : List Tk, ts.map (·.1) = toks → ReadsL e l ts
  | .one h, hg, ts, hts => by
    rw [Exprs.Grouped] at hg
    obtain ⟨a, m, k⟩ := reads_ex (spells_reads h hg ts hts)
    refine ⟨_, .one m, fun rp r => ?_⟩
    have hb := (begins_map (by rw [hts]; exact spells_begins h) ((.rParen, rp) :: r)).2.1
    have hk := k ((.rParen, rp) :: r) stops_paren follow_paren
    exact ⟨.one (.expr hb hk) (by simp [Next]), .one (.expr hb hk) (by simp [Next])⟩
  | .cons h hl, hg, ts, hts => by
    toks hts
    obtain ⟨xs, _, rfl, hx, ⟨_, cp⟩, us, rfl, rfl, hu⟩ := hts
    rw [Exprs.Grouped] at hg
    obtain ⟨a, m, k⟩ := reads_ex (spells_reads h hg.1 xs hx)
    obtain ⟨as, m', k'⟩ := spellsL_reads hl hg.2 us hu
    refine ⟨_, .cons m m', fun rp r => ?_⟩
    simp only [List.cons_append, List.append_assoc]
    have hb := (begins_map (by rw [hx]; exact spells_begins h) ((.comma, cp) :: (us ++ (.rParen, rp) :: r))).2.1
    have hk := k ((.comma, cp) :: (us ++ (.rParen, rp) :: r)) stops_comma follow_comma
    exact ⟨.cons (.expr hb hk) (k' rp r).1, .cons (.expr hb hk) (k' rp r).2⟩

theorem spellsC_reads {cs : Cases} {toks : List Token} : SpellsC e.opts cs toks → cs.Grouped → ∀ ts : List Tk, ts.map (·.1) = toks → ReadsC e cs ts
  | .done, _, ts, hts => by
    toks hts
    subst hts
    refine ⟨[], none, .done, fun t ep r ht => ⟨_, .none (isKw_other ht (by decide)), ⟨?_, ?_⟩, .inl ⟨rfl, rfl, isKw_other ht (by decide)⟩⟩⟩
    · exact stops_kw ht (by decide +kernel)
    · exact follow_kw ht (by decide)
  | .els hl h, hg, ts, hts => by
    toks hts
    obtain ⟨⟨t, sp⟩, us, rfl, rfl, hu⟩ := hts
    rw [Cases.Grouped] at hg
    obtain ⟨a, m, k⟩ := reads_ex (spells_reads h hg us hu)
    refine ⟨[], some (sp, a), .els m, fun t' ep r ht => ⟨_, .some hl (.mk (k _ ?_ ?_)), ⟨?_, ?_⟩, .inl ⟨rfl, rfl, isKw_other hl (by decide)⟩⟩⟩
    · exact stops_kw ht (by decide +kernel)
    · exact follow_kw ht (by decide)
    · exact stops_kw hl (by decide +kernel)
    · exact follow_kw hl (by decide)
  | .when hw ht h1 h2 h3, hg, ts, hts => by
    toks hts
    obtain ⟨⟨w, wp⟩, _, rfl, rfl, xs, _, rfl, hx, ⟨th, tp⟩, _, rfl, rfl, us, vs, rfl, hu, hv⟩ := hts
    rw [Cases.Grouped] at hg
    obtain ⟨a', b', ws, el, m1, m2, m3, k⟩ := reads_whens (w := wp) (sp := tp) hw ht (spells_reads h1 hg.1 xs hx)
      (spells_reads h2 hg.2.1 us hu) (spellsC_reads h3 hg.2.2 vs hv)
    refine ⟨_, el, .when (w := wp) (th := tp) m1 m2 m3, fun en ep r he => ?_⟩
    obtain ⟨r', g1, g2⟩ := k en ep r he
    simp only [List.cons_append, List.append_assoc]
    exact ⟨r', g1, ⟨stops_kw hw (by decide +kernel), follow_kw hw (by decide)⟩, .inr g2⟩

end

/-! ### One AST, one tree -/

theorem meansParts_unique {ps qs : List (Option (List Char))} {l : List Ast} (h : MeansParts ps l) (h' : MeansParts qs l) : ps = qs := by
  induction h generalizing qs with
  | nil => cases h'; rfl
  | star _ ih => cases h' with | star h' => rw [ih h']
  | name _ ih => cases h' with | name h' => rw [ih h']

mutual

theorem means_unique {x y : Expr} {a : Ast} (h : Means x a) (h' : Means y a) : x.bare = y.bare := by
  cases h with
  | paren h => rw [Expr.bare]; exact means_unique h h'
  | int => cases h' with | paren h' => rw [Expr.bare.eq_9]; exact means_unique .int h' | int => rfl
  | dec => cases h' with | paren h' => rw [Expr.bare.eq_9]; exact means_unique .dec h' | dec => rfl
  | str => cases h' with | paren h' => rw [Expr.bare.eq_9]; exact means_unique .str h' | str => rfl
  | bool => cases h' with | paren h' => rw [Expr.bare.eq_9]; exact means_unique .bool h' | bool => rfl
  | null => cases h' with | paren h' => rw [Expr.bare.eq_9]; exact means_unique .null h' | null => rfl
  | column h => cases h' with
    | paren h' => rw [Expr.bare.eq_9]; exact means_unique (.column h) h'
    | column h' => rw [meansParts_unique h h']
  | un h => cases h' with
    | paren h' => rw [Expr.bare.eq_9]; exact means_unique (.un h) h'
    | un h' => simp only [Expr.bare]; rw [means_unique h h']
  | bin h1 h2 => cases h' with
    | paren h' => rw [Expr.bare.eq_9]; exact means_unique (.bin h1 h2) h'
    | bin h1' h2' => simp only [Expr.bare]; rw [means_unique h1 h1', means_unique h2 h2']
  | is h => cases h' with
    | paren h' => rw [Expr.bare.eq_9]; exact means_unique (.is h) h'
    | is h' => simp only [Expr.bare]; rw [means_unique h h']
  | isIn h hl => cases h' with
    | paren h' => rw [Expr.bare.eq_9]; exact means_unique (.isIn h hl) h'
    | isIn h' hl' => simp only [Expr.bare]; rw [means_unique h h', meansL_unique hl hl']
  | call0 => cases h' with
    | paren h' => rw [Expr.bare.eq_9]; exact means_unique .call0 h'
    | call0 => rfl
    | call h' => cases h'
  | call h => cases h' with
    | paren h' => rw [Expr.bare.eq_9]; exact means_unique (.call h) h'
    | call0 => cases h
    | call h' => simp only [Expr.bare]; rw [meansL_unique h h']
  | count h => cases h' with
    | paren h' => rw [Expr.bare.eq_9]; exact means_unique (.count h) h'
    | count h' => simp only [Expr.bare]; rw [means_unique h h']
  | countDistinct h => cases h' with
    | paren h' => rw [Expr.bare.eq_9]; exact means_unique (.countDistinct h) h'
    | countDistinct h' => simp only [Expr.bare]; rw [means_unique h h']
  | caseWhen h1 h2 h3 => cases h' with
    | paren h' => rw [Expr.bare.eq_9]; exact means_unique (.caseWhen h1 h2 h3) h'
    | caseWhen h1' h2' h3' => simp only [Expr.bare]; rw [means_unique h1 h1', means_unique h2 h2', meansC_unique h3 h3']
  | caseOf h0 h1 h2 h3 => cases h' with
    | paren h' => rw [Expr.bare.eq_9]; exact means_unique (.caseOf h0 h1 h2 h3) h'
    | caseOf h0' h1' h2' h3' =>
      simp only [Expr.bare]; rw [means_unique h0 h0', means_unique h1 h1', means_unique h2 h2', meansC_unique h3 h3']
termination_by sizeOf x + sizeOf y

theorem meansL_unique {x y : Exprs} {a : List Ast} (h : MeansL x a) (h' : MeansL y a) : x.bare = y.bare := by
  cases h with
  | one h => cases h' with
    | one h' => simp only [Exprs.bare]; rw [means_unique h h']
    | cons h' hl => cases hl
  | cons h hl => cases h' with
    | one h' => cases hl
    | cons h' hl' => simp only [Exprs.bare]; rw [means_unique h h', meansL_unique hl hl']
termination_by sizeOf x + sizeOf y

theorem meansC_unique {x y : Cases} {a : List Ast} {b : Ast} (h : MeansC x a b) (h' : MeansC y a b) : x.bare = y.bare := by
  cases h with
  | done => cases h'; rfl
  | els h => cases h' with | els h' => simp only [Cases.bare]; rw [means_unique h h']
  | when h1 h2 h3 => cases h' with
    | when h1' h2' h3' => simp only [Cases.bare]; rw [means_unique h1 h1', means_unique h2 h2', meansC_unique h3 h3']
termination_by sizeOf x + sizeOf y

end

end SqlParse
