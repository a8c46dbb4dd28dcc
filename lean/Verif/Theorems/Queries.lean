import Verif.Proofs.Queries
import Verif.Theorems.Trees
/-! C61: queries are read back as they were written. -/
namespace SqlParse
variable {o : Opts} {chk : Bool}

/-- **C61** (reading): if the tokens of a source spell a query, and in none of its expressions parentheses are missing, then the source is
parsed without issues, and the AST of the returned SELECT stands for the query. -/
theorem C61_reads (chk : Bool) (iss : Issues) (opts : Opts) (src : List Char) (q : Query) (toks : List Token) (ts : List Tk)
    (hu : opts.warnUnquoted = false) (hc : opts.warnCaps = false) (hq : SpellsQuery opts q toks) (hg : ∀ x ∈ q.exprs, x.Grouped)
    (hw : Written chk 0 src ts) (hts : ts.map (·.1) = toks) :
    ∃ v, Api.one.Returns chk src iss opts (some v) iss.issues ∧ MeansQuery q v.ast := by
  have ho : opts = (Env.start opts noData noArgs ts).opts := by
    cases opts; dsimp only at hu hc; subst hu; subst hc; rfl
  rw [ho] at hq
  obtain ⟨a, m, g⟩ := query_reads hq hg ts hts
  have hr : ComesNow [] false [eofTk src] := ⟨.eof, _, [], rfl, .inl rfl, fun h => by simp [Token.isKw] at h⟩
  exact ⟨⟨a⟩, C38_statement chk src iss opts _ hu hc (isStatement_written (args := noArgs) hw (.query (.one (.select (g _ hr)) rfl))), m⟩

/-! ### An AST stands for one query -/

theorem eachOf_unique {α β γ : Type} {M : α → β → Prop} {f : α → γ} (hM : ∀ x y a, M x a → M y a → f x = f y) {l l' : List α} {as : List β}
    (h : EachOf M l as) : EachOf M l' as → l.map f = l'.map f := by
  induction h generalizing l' with
  | nil => intro h'; cases h'; rfl
  | cons h _ ih =>
    intro h'
    cases h' with
    | cons g hl => simp only [List.map_cons]; rw [hM _ _ _ h g, ih hl]

theorem listOf_unique {α γ : Type} {M : α → Ast → Prop} {f : α → γ} (hM : ∀ x y a, M x a → M y a → f x = f y) {l l' : List α} {a : Ast}
    (h : ListOf M l a) (h' : ListOf M l' a) : l.map f = l'.map f := by
  cases h with | mk h => cases h' with | mk h' => exact eachOf_unique hM h h'

theorem maybe_unique {α γ : Type} {M : α → Ast → Prop} {f : α → γ} (hM : ∀ x y a, M x a → M y a → f x = f y) {x y : Option α} {a : Ast}
    (h : Maybe M x a) (h' : Maybe M y a) : x.map f = y.map f := by
  cases h with
  | none => cases h'; rfl
  | some h => cases h' with | some h' => simp only [Option.map_some]; rw [hM _ _ _ h h']

theorem name_unique (v w : List Char) (a : Ast) (h : MeansName v a) (h' : MeansName w a) : v = w := by
  cases h; cases h'; rfl

theorem word_unique (v w : Kind) (a : Ast) (h : MeansWord v a) (h' : MeansWord w a) : v = w := by
  cases h; cases h'; rfl

theorem withSpan_unique {α γ : Type} {M : α → Ast → Prop} {f : α → γ} (hM : ∀ x y a, M x a → M y a → f x = f y) (x y : α) (a : Ast)
    (h : WithSpan M x a) (h' : WithSpan M y a) : f x = f y := by
  cases h with | mk h => cases h' with | mk h' => exact hM _ _ _ h h'

theorem spanAnd_unique {α γ : Type} {M : α → Ast → Prop} {f : α → γ} (hM : ∀ x y a, M x a → M y a → f x = f y) (x y : α) (a : Ast)
    (h : SpanAnd M x a) (h' : SpanAnd M y a) : f x = f y := by
  cases h with | mk h => cases h' with | mk h' => exact hM _ _ _ h h'

theorem map_same {α : Type} {l l' : List α} (h : l.map (fun x => x) = l'.map (fun x => x)) : l = l' := by simpa using h
theorem omap_same {α : Type} {l l' : Option α} (h : l.map (fun x => x) = l'.map (fun x => x)) : l = l' := by simpa using h

theorem table_unique (t t' : Table) (a : Ast) (h : MeansTable t a) (h' : MeansTable t' a) : t = t' := by
  cases h with
  | mk hp hn _ ha =>
    cases h' with
    | mk hp' hn' _ ha' =>
      have h1 := map_same (listOf_unique (withSpan_unique (f := fun x => x) name_unique) hp hp')
      have h2 := name_unique _ _ _ hn hn'
      have h3 := omap_same (maybe_unique name_unique ha ha')
      subst h1; subst h2; subst h3; rfl

/-- The join without parentheses. -/
def bareJoin (j : Join) : Join := ⟨j.kind, j.table, j.cond.map Expr.bare⟩

theorem table_ne_join {t : Table} {j a b s : Ast} : ¬ MeansTable t (.node .TableReference_Join [j, a, b, s]) := fun h => by cases h

theorem on_unique (x y : Expr) (a : Ast) (h : MeansOn x a) (h' : MeansOn y a) : x.bare = y.bare := by
  cases h with | mk h => cases h' with | mk h' => exact means_unique h h'

/-- The joins from the last one. -/
inductive Joined : Table → List Join → Ast → Prop where
  | first {t : Table} {a : Ast} (h : MeansTable t a) : Joined t [] a
  | join {t : Table} {js : List Join} {j : Join} {a k x s : Ast} (h : Joined t js a) (hk : MeansWord j.kind k) (ht : MeansTable j.table x)
      (hs : Maybe MeansOn j.cond s) : Joined t (js ++ [j]) (.node .TableReference_Join [k, a, x, s])

theorem joined_of {a b : Ast} {js : List Join} (h : MeansJoins a js b) {t : Table} {is : List Join} (h0 : Joined t is a) : Joined t (is ++ js) b := by
  induction h generalizing is with
  | nil => simpa using h0
  | cons hj ht hs _ ih =>
    rename_i K tb c js _
    have := ih (.join (j := ⟨K, tb, c⟩) h0 hj ht hs)
    rwa [List.append_assoc] at this

theorem joined_unique {t t' : Table} {js js' : List Join} {a : Ast} (h : Joined t js a) (h' : Joined t' js' a) :
    t = t' ∧ js.map bareJoin = js'.map bareJoin := by
  induction h generalizing js' with
  | first h =>
    cases h' with
    | first h' => exact ⟨table_unique _ _ _ h h', rfl⟩
    | join => exact (table_ne_join h).elim
  | join h hk ht hs ih =>
    cases h' with
    | first h' => exact (table_ne_join h').elim
    | join h' hk' ht' hs' =>
      obtain ⟨h1, h2⟩ := ih h'
      refine ⟨h1, ?_⟩
      simp only [List.map_append, List.map_cons, List.map_nil, h2, bareJoin, word_unique _ _ _ hk hk', table_unique _ _ _ ht ht',
        maybe_unique on_unique hs hs']

theorem tables_unique (t t' : Tables) (a : Ast) (h : MeansTables t a) (h' : MeansTables t' a) :
    (⟨t.first, t.joins.map bareJoin⟩ : Tables) = ⟨t'.first, t'.joins.map bareJoin⟩ := by
  cases h with
  | mk h hj =>
    cases h' with
    | mk h' hj' =>
      obtain ⟨h1, h2⟩ := joined_unique (joined_of hj (.first h)) (joined_of hj' (.first h'))
      simp only [List.nil_append] at h1 h2
      simp only [h1, h2]

theorem order_unique (x y : Expr × RowOrder) (a : Ast) (h : MeansOrder x a) (h' : MeansOrder y a) : (x.1.bare, x.2) = (y.1.bare, y.2) := by
  cases h <;> rename_i h <;> cases h' <;> rename_i h' <;> simp only [means_unique h h']

theorem number_unique (x y : Nat) (a : Ast) (h : MeansNumber x a) (h' : MeansNumber y a) : x = y := by
  cases h; cases h'; rfl

theorem limit_unique (x y : Option Nat × Nat) (a : Ast) (h : MeansLimit x a) (h' : MeansLimit y a) : x = y := by
  cases h with
  | mk h1 h2 =>
    cases h' with
    | mk h1' h2' => rw [number_unique _ _ _ h2 h2', omap_same (maybe_unique number_unique h1 h1')]

theorem column_unique (x y : Expr × Option (List Char)) (a : Ast) (h : MeansColumn x a) (h' : MeansColumn y a) : (x.1.bare, x.2) = (y.1.bare, y.2) := by
  cases h with
  | mk h1 h2 =>
    cases h' with
    | mk h1' h2' => rw [means_unique h1 h1', omap_same (maybe_unique name_unique h2 h2')]

/-- **C61** (determined): an AST stands for only one query, except for parentheses in its expressions. -/
theorem C61_determined (q q' : Query) (a : Ast) (h : MeansQuery q a) (h' : MeansQuery q' a) : q.mapE Expr.bare = q'.mapE Expr.bare := by
  have hE := fun (x y : Expr) (a : Ast) (h : Means x a) (h' : Means y a) => means_unique h h'
  cases h with
  | noFrom hf hl =>
    cases h' with
    | noFrom hf' hl' =>
      simp only [Query.mapE]
      rw [listOf_unique column_unique hl hl', map_same (listOf_unique word_unique hf hf')]
  | «from» hf hl ht hw hg hh ho hli =>
    cases h' with
    | «from» hf' hl' ht' hw' hg' hh' ho' hli' =>
      have h1 := listOf_unique column_unique hl hl'
      have h2 := map_same (listOf_unique word_unique hf hf')
      have h3 := listOf_unique tables_unique ht ht'
      have h4 := maybe_unique (withSpan_unique hE) hw hw'
      have h5 := maybe_unique (spanAnd_unique (M := ListOf Means) (f := List.map Expr.bare) (fun _ _ _ h h' => listOf_unique hE h h')) hg hg'
      have h6 := maybe_unique (withSpan_unique hE) hh hh'
      have h7 := maybe_unique (spanAnd_unique (M := ListOf MeansOrder) (f := List.map fun p => (p.1.bare, p.2)) (fun _ _ _ h h' => listOf_unique order_unique h h')) ho ho'
      have h8 := omap_same (maybe_unique (spanAnd_unique limit_unique) hli hli')
      simp only [Query.mapE, Option.map_some]
      unfold bareJoin at h3
      rw [h1, h2, h3, h4, h5, h6, h7, h8]

/-! ### Writing -/

theorem can_nil {R : List Token → Prop} (h : R []) : CanSay chk R := ⟨[], by simp, h⟩

theorem can_append {A B C : List Token → Prop} (hA : CanSay chk A) (hB : CanSay chk B) (h : ∀ ts us, A ts → B us → C (ts ++ us)) : CanSay chk C := by
  obtain ⟨ws, h1, h2⟩ := hA
  obtain ⟨us, k1, k2⟩ := hB
  refine ⟨ws ++ us, ?_, by rw [List.map_append]; exact h _ _ h2 k2⟩
  simp only [List.forall_mem_append]
  exact ⟨h1, k1⟩

theorem can_cons {A C : List Token → Prop} {p : Token × List Char} (hp : SaidAs chk p) (hA : CanSay chk A) (h : ∀ ts, A ts → C (p.1 :: ts)) :
    CanSay chk C := by
  obtain ⟨ws, h1, h2⟩ := hA
  refine ⟨p :: ws, ?_, h _ h2⟩
  simp only [List.forall_mem_cons]
  exact ⟨hp, h1⟩

theorem can_commas {α : Type} {R : α → List Token → Prop} : ∀ l : List α, l ≠ [] → (∀ x ∈ l, CanSay chk (R x)) → CanSay chk (Commas R l)
  | [], h, _ => absurd rfl h
  | [x], _, h => by
    obtain ⟨ws, h1, h2⟩ := h x (by simp)
    exact ⟨ws, h1, .one h2⟩
  | x :: y :: l, _, h =>
    can_append (h x (by simp)) (can_cons says_comma (can_commas (y :: l) (by simp) fun z hz => h z (List.mem_cons_of_mem _ hz))
      (C := fun ts => ∃ us, ts = .comma :: us ∧ Commas R (y :: l) us) fun ts h => ⟨ts, rfl, h⟩)
      fun ts us h1 ⟨vs, h2, h3⟩ => by subst h2; exact .cons h1 h3

theorem can_clause {α : Type} {k : Keyword} {R : α → List Token → Prop} (hk : KwSaid k) (x : Option α) (h : ∀ y ∈ x, CanSay chk (R y)) :
    CanSay chk (Clause k R x) := by
  cases x with
  | none => exact can_nil .none
  | some x =>
    obtain ⟨w, hw⟩ := hk chk
    exact can_cons hw (h x rfl) fun ts h => .some (by simp [Token.isKw]) h

theorem can_name {v : List Char} (h : SayablePart o v) : ∃ p : Token × List Char, SaidAs chk p ∧ SpellsName o v p.1 ∧ ∃ w k, p.1 = .ident w k := by
  rcases h with ⟨⟨g1, g2, g3⟩, g4, g5⟩ | ⟨g1, g2⟩
  · exact ⟨(.ident v (Keyword.ofStr (upper v)), v), says_word g1 g2 g3, .word g4 (fun h => (word_unquoted h).elim) g5, _, _, rfl⟩
  · exact ⟨(.ident v .QUOTED_IDENTIFIER, '`' :: (v ++ ['`'])), says_quoted g2, .word (by decide +kernel) (fun _ => g1) (nameWord_quoted o v).2.2.2, _, _, rfl⟩

theorem can_dotted (n : List Char) (hn : SayablePart o n) : ∀ p : List (List Char), (∀ v ∈ p, SayablePart o v) →
    CanSay chk (fun ts => SpellsDotted o p n ts ∧ ∃ w k us, ts = .ident w k :: us)
  | [], _ => by
    obtain ⟨⟨t, w⟩, h1, h2, v, k, rfl⟩ := can_name (chk := chk) hn
    exact said_one h1 ⟨.last h2, _, _, _, rfl⟩
  | v :: p, h => by
    obtain ⟨⟨t, w⟩, h1, h2, v', k, rfl⟩ := can_name (chk := chk) (h v (by simp))
    exact can_cons h1 (can_cons says_period (can_dotted n hn p fun v hv => h v (List.mem_cons_of_mem _ hv))
      (C := fun ts => ∃ us, ts = .period :: us ∧ SpellsDotted o p n us) fun ts h => ⟨ts, rfl, h.1⟩)
      fun ts ⟨us, h3, h4⟩ => by subst h3; exact ⟨.dot h2 h4, _, _, _, rfl⟩

theorem can_alias (al : Option (List Char)) (h : ∀ v ∈ al, SayablePart o v) : CanSay chk (SpellsAlias o al) := by
  cases al with
  | none => exact can_nil .none
  | some v =>
    obtain ⟨⟨t, w⟩, h1, h2, v', k, rfl⟩ := can_name (chk := chk) (h v rfl)
    exact said_one h1 (.plain h2)

theorem can_table (t : Table) (h : SayableTable o t) : CanSay chk (SpellsTable o t) := by
  obtain ⟨h1, h2⟩ := h
  refine can_append (can_dotted t.name h2 t.path fun v hv => h1 v (List.mem_append_left _ hv))
    (can_alias t.alias fun v hv => h1 v (List.mem_append_right _ (Option.mem_toList.2 hv))) ?_
  rintro ts us ⟨h3, w, k, vs, rfl⟩ h4
  exact .mk h3 h4

/-- The words of joins can be written. -/
theorem join_kws : ∀ p ∈ joinPhrases, ∀ k ∈ p.1, KwSaid k := by
  have h : ∀ k ∈ [Keyword.INNER, .CROSS, .JOIN, .STRAIGHT_JOIN, .LEFT, .RIGHT, .OUTER, .NATURAL], KwSaid k := by
    simp only [List.forall_mem_cons]
    exact ⟨kwSaid c!"INNER" (by simp) rfl (by decide) (by decide +kernel), kwSaid c!"CROSS" (by simp) rfl (by decide) (by decide +kernel),
      kwSaid c!"JOIN" (by simp) rfl (by decide) (by decide +kernel), kwSaid c!"STRAIGHT_JOIN" (by simp) rfl (by decide) (by decide +kernel),
      kwSaid c!"LEFT" (by simp) rfl (by decide) (by decide +kernel), kwSaid c!"RIGHT" (by simp) rfl (by decide) (by decide +kernel),
      kwSaid c!"OUTER" (by simp) rfl (by decide) (by decide +kernel), kwSaid c!"NATURAL" (by simp) rfl (by decide) (by decide +kernel), by simp⟩
  have h' : ∀ p ∈ joinPhrases, ∀ k ∈ p.1, k ∈ [Keyword.INNER, .CROSS, .JOIN, .STRAIGHT_JOIN, .LEFT, .RIGHT, .OUTER, .NATURAL] := by decide
  exact fun p hp k hk => h k (h' p hp k hk)

theorem can_kws : ∀ ks : List Keyword, (∀ k ∈ ks, KwSaid k) → CanSay chk (IsKws ks)
  | [], _ => can_nil .nil
  | k :: ks, h => by
    obtain ⟨w, hw⟩ := h k (by simp) chk
    exact can_cons hw (can_kws ks fun k hk => h k (List.mem_cons_of_mem _ hk)) fun ts h => .cons (by simp [Token.isKw]) h

theorem can_joins : ∀ (on : Bool) (js : List Join), (∀ j ∈ js, SayableTable o j.table ∧ j.kind ∈ joinPhrases.map (·.2) ∧ ∀ x ∈ j.cond, CanSay chk (Spells o x)) →
    (on = true → ∀ j ∈ js.head?, j.kind ≠ .JoinType_Right) → (∀ a i j b, js = a ++ i :: j :: b → i.cond.isSome = true → j.kind ≠ .JoinType_Right) →
    CanSay chk (SpellsJoins o on js)
  | _, [], _, _, _ => can_nil .nil
  | on, ⟨K, tb, c⟩ :: js, h, h1, h2 => by
    obtain ⟨g1, g2, g3⟩ := h _ List.mem_cons_self
    obtain ⟨⟨ks, K'⟩, hk, rfl⟩ := List.mem_map.1 g2
    have hR : ∀ p ∈ joinPhrases, p.2 ≠ .JoinType_Right → p.1.head? ≠ some .RIGHT := by decide
    have ih := can_joins c.isSome js (fun j hj => h j (List.mem_cons_of_mem _ hj))
      (fun hc j hj => by
        cases js with
        | nil => cases hj
        | cons j' js => cases hj; exact h2 [] _ _ js rfl hc)
      (fun a i j b e hi => h2 (_ :: a) i j b (by rw [e]; rfl) hi)
    have hon : KwSaid .ON := kwSaid c!"ON" (by simp) rfl (by decide) (by decide +kernel)
    exact can_append (can_kws ks (join_kws _ hk)) (can_append (can_table tb g1) (can_append (can_clause hon c g3) ih
      (C := fun ts => ∃ us vs, ts = us ++ vs ∧ Clause .ON (Spells o) c us ∧ SpellsJoins o c.isSome js vs) fun us vs k1 k2 => ⟨us, vs, rfl, k1, k2⟩)
      (C := fun ts => ∃ xs us vs, ts = xs ++ (us ++ vs) ∧ SpellsTable o tb xs ∧ Clause .ON (Spells o) c us ∧ SpellsJoins o c.isSome js vs)
      fun xs _ k0 ⟨us, vs, e, k1, k2⟩ => ⟨xs, us, vs, by rw [e], k0, k1, k2⟩)
      fun ws _ k ⟨xs, us, vs, e, k0, k1, k2⟩ => by subst e; exact .cons hk k (fun ho => hR _ hk (h1 ho _ rfl)) k0 k1 k2

theorem can_number (n : Nat) : ∃ w : List Char, SaidAs chk (.integer w, w) ∧ numberOf w = n := by
  obtain ⟨w, h1, h2, h3⟩ := digits_exist n
  exact ⟨w, ⟨by simp, fun _ => ⟨by simp, ⟨rfl, h1, h2, notHead_blank rfl⟩, notHead_blank (glued_blank _)⟩⟩, h3⟩

theorem can_limit (l : Option Nat × Nat) (h : l.2 < 2 ^ 64 ∧ ∀ n ∈ l.1, n < 2 ^ 64) : CanSay chk (SpellsLimit l) := by
  obtain ⟨m, n⟩ := l
  obtain ⟨h1, h2⟩ := h
  obtain ⟨v, hv, rfl⟩ := can_number (chk := chk) n
  cases m with
  | none => exact said_one hv (.plain h1)
  | some m =>
    obtain ⟨w, hw, rfl⟩ := can_number (chk := chk) m
    exact ⟨[(.integer w, w), (.comma, [',']), (.integer v, v)], by simp only [List.forall_mem_cons]; exact ⟨hw, says_comma, hv, by simp⟩,
      .comma (h2 _ rfl) h1⟩

theorem can_flags : ∀ fl : List Kind, (∀ k ∈ fl, k ∈ selectFlagWords.map (·.2)) → CanSay chk (SpellsFlags fl)
  | [], _ => can_nil .nil
  | K :: fl, h => by
    have hK : ∃ k, KwSaid k ∧ selectFlagWords.lookup k = some K := by
      have := h K (by simp)
      simp only [selectFlagWords, List.map_cons, List.map_nil, List.mem_cons, List.not_mem_nil, or_false] at this
      rcases this with rfl | rfl | rfl | rfl | rfl | rfl | rfl | rfl | rfl | rfl
      · exact ⟨.ALL, kwSaid c!"ALL" (by simp) rfl (by decide) (by decide +kernel), by decide +kernel⟩
      · exact ⟨.DISTINCT, kwSaid c!"DISTINCT" (by simp) rfl (by decide) (by decide +kernel), by decide +kernel⟩
      · exact ⟨.DISTINCTROW, kwSaid c!"DISTINCTROW" (by simp) rfl (by decide) (by decide +kernel), by decide +kernel⟩
      · exact ⟨.HIGH_PRIORITY, kwSaid c!"HIGH_PRIORITY" (by simp) rfl (by decide) (by decide +kernel), by decide +kernel⟩
      · exact ⟨.STRAIGHT_JOIN, kwSaid c!"STRAIGHT_JOIN" (by simp) rfl (by decide) (by decide +kernel), by decide +kernel⟩
      · exact ⟨.SQL_SMALL_RESULT, kwSaid c!"SQL_SMALL_RESULT" (by simp) rfl (by decide) (by decide +kernel), by decide +kernel⟩
      · exact ⟨.SQL_BIG_RESULT, kwSaid c!"SQL_BIG_RESULT" (by simp) rfl (by decide) (by decide +kernel), by decide +kernel⟩
      · exact ⟨.SQL_BUFFER_RESULT, kwSaid c!"SQL_BUFFER_RESULT" (by simp) rfl (by decide) (by decide +kernel), by decide +kernel⟩
      · exact ⟨.SQL_NO_CACHE, kwSaid c!"SQL_NO_CACHE" (by simp) rfl (by decide) (by decide +kernel), by decide +kernel⟩
      · exact ⟨.SQL_CALC_FOUND_ROWS, kwSaid c!"SQL_CALC_FOUND_ROWS" (by simp) rfl (by decide) (by decide +kernel), by decide +kernel⟩
    obtain ⟨k, hk, hl⟩ := hK
    obtain ⟨w, hw⟩ := hk chk
    exact can_cons hw (can_flags fl fun k hk => h k (List.mem_cons_of_mem _ hk)) fun ts h => .cons hl h

theorem can_column (c : Expr × Option (List Char)) (hx : CanSay chk (Spells o c.1)) (h : ∀ v ∈ c.2, SayablePart o v) : CanSay chk (SpellsColumn o c) := by
  obtain ⟨x, n⟩ := c
  obtain ⟨ws, h1, h2⟩ := hx
  cases n with
  | none => exact ⟨ws, h1, .plain h2⟩
  | some v =>
    obtain ⟨⟨t, w⟩, k1, k2, -⟩ := can_name (chk := chk) (h v rfl)
    obtain ⟨a, ha⟩ := kwSaid c!"AS" (k := .AS) (by simp) rfl (by decide) (by decide +kernel) chk
    refine ⟨ws ++ [(.ident a .AS, a), (t, w)], ?_, by rw [List.map_append]; exact .as h2 (by simp [Token.isKw]) k2⟩
    simp only [List.forall_mem_append, List.forall_mem_cons]
    exact ⟨h1, ha, k1, by simp⟩

theorem can_order (x : Expr × RowOrder) (hx : CanSay chk (Spells o x.1)) : CanSay chk (SpellsOrder o x) := by
  obtain ⟨x, d⟩ := x
  obtain ⟨ws, h1, h2⟩ := hx
  obtain ⟨a, ha⟩ := kwSaid c!"ASC" (k := .ASC) (by simp) rfl (by decide) (by decide +kernel) chk
  obtain ⟨b, hb⟩ := kwSaid c!"DESC" (k := .DESC) (by simp) rfl (by decide) (by decide +kernel) chk
  cases d with
  | none => exact ⟨ws, h1, .none h2⟩
  | asc =>
    refine ⟨ws ++ [(.ident a .ASC, a)], ?_, by rw [List.map_append]; exact .asc h2 (by simp [Token.isKw])⟩
    simp only [List.forall_mem_append, List.forall_mem_cons]
    exact ⟨h1, ha, by simp⟩
  | desc =>
    refine ⟨ws ++ [(.ident b .DESC, b)], ?_, by rw [List.map_append]; exact .desc h2 (by simp [Token.isKw])⟩
    simp only [List.forall_mem_append, List.forall_mem_cons]
    exact ⟨h1, hb, by simp⟩

theorem can_by {α : Type} {R : α → List Token → Prop} {x : α} (h : CanSay chk (R x)) : CanSay chk (AfterWord .BY R x) := by
  obtain ⟨w, hw⟩ := kwSaid c!"BY" (k := .BY) (by simp) rfl (by decide) (by decide +kernel) chk
  exact can_cons hw h fun ts h => .mk (by simp [Token.isKw]) h

theorem can_from (f : From) (ht : f.tables ≠ [] ∧ ∀ t ∈ f.tables, SayableTable o t.first ∧
      (∀ j ∈ t.joins, SayableTable o j.table ∧ j.kind ∈ joinPhrases.map (·.2) ∧ ∀ x ∈ j.cond, CanSay chk (Spells o x)) ∧
      ∀ a i j b, t.joins = a ++ i :: j :: b → i.cond.isSome = true → j.kind ≠ .JoinType_Right)
    (hw : ∀ x ∈ f.cond, CanSay chk (Spells o x)) (hg : f.group ≠ some [] ∧ ∀ l ∈ f.group, ∀ x ∈ l, CanSay chk (Spells o x))
    (hh : ∀ x ∈ f.having, CanSay chk (Spells o x)) (ho : f.order ≠ some [] ∧ ∀ l ∈ f.order, ∀ x ∈ l, CanSay chk (Spells o x.1))
    (hl : ∀ l ∈ f.limit, l.2 < 2 ^ 64 ∧ ∀ n ∈ l.1, n < 2 ^ 64) : CanSay chk (SpellsFrom o f) := by
  obtain ⟨tb, w, g, h, od, li⟩ := f
  obtain ⟨a1, b1, c1⟩ := can_commas (chk := chk) (R := SpellsTables o) tb ht.1 fun t hm => by
    obtain ⟨k1, k2, k3⟩ := ht.2 t hm
    exact can_append (can_table t.first k1) (can_joins false t.joins k2 (by simp) k3) fun ts us m1 m2 => .mk m1 m2
  obtain ⟨a2, b2, c2⟩ := can_clause (chk := chk) (kwSaid c!"WHERE" (k := .WHERE) (by simp) rfl (by decide) (by decide +kernel)) w hw
  obtain ⟨a3, b3, c3⟩ := can_clause (chk := chk) (R := AfterWord .BY (Commas (Spells o))) (kwSaid c!"GROUP" (k := .GROUP) (by simp) rfl (by decide) (by decide +kernel)) g
    fun l hm => can_by (can_commas l (by rintro rfl; exact hg.1 hm) (hg.2 l hm))
  obtain ⟨a4, b4, c4⟩ := can_clause (chk := chk) (kwSaid c!"HAVING" (k := .HAVING) (by simp) rfl (by decide) (by decide +kernel)) h hh
  obtain ⟨a5, b5, c5⟩ := can_clause (chk := chk) (R := AfterWord .BY (Commas (SpellsOrder o))) (kwSaid c!"ORDER" (k := .ORDER) (by simp) rfl (by decide) (by decide +kernel)) od
    fun l hm => can_by (can_commas l (by rintro rfl; exact ho.1 hm) fun x hx => can_order x (ho.2 l hm x hx))
  obtain ⟨a6, b6, c6⟩ := can_clause (chk := chk) (R := SpellsLimit) (kwSaid c!"LIMIT" (k := .LIMIT) (by simp) rfl (by decide) (by decide +kernel)) li
    fun l hm => can_limit l (hl l hm)
  refine ⟨a1 ++ (a2 ++ (a3 ++ (a4 ++ (a5 ++ a6)))), ?_, by simp only [List.map_append]; exact .mk c1 c2 c3 c4 c5 c6⟩
  simp only [List.forall_mem_append]
  exact ⟨b1, b2, b3, b4, b5, b6⟩

/-! ### A query with other expressions -/

theorem mapE_exprs (f : Expr → Expr) (q : Query) : (q.mapE f).exprs = q.exprs.map f := by
  obtain ⟨fl, l, r⟩ := q
  cases r with
  | none => simp [Query.mapE, Query.exprs, List.map_map, Function.comp_def]
  | some r =>
    obtain ⟨tb, w, g, h, od, li⟩ := r
    have h1 : ∀ x : Option Expr, (x.map f).toList = x.toList.map f := fun x => by cases x <;> rfl
    have h2 : ∀ x : Option (List Expr), (x.map (·.map f)).toList.flatten = x.toList.flatten.map f := fun x => by cases x <;> simp
    have h3 : ∀ x : Option (List (Expr × RowOrder)), (x.map (·.map fun p => (f p.1, p.2))).toList.flatten.map (·.1) = (x.toList.flatten.map (·.1)).map f :=
      fun x => by cases x <;> simp [List.map_map, Function.comp_def]
    simp only [Query.mapE, Query.exprs, Option.map_some, Option.toList_some, List.flatMap_cons, List.flatMap_nil, List.append_nil, List.map_append, h1, h2, h3]
    simp [List.map_map, Function.comp_def, List.flatMap_map, List.map_flatMap, h1]

theorem eachOf_map {α α' β : Type} {M : α' → β → Prop} {N : α → β → Prop} {f : α → α'} (h : ∀ x a, M (f x) a → N x a) : ∀ (l : List α) {as : List β},
    EachOf M (l.map f) as → EachOf N l as
  | [], _, g => by cases g; exact .nil
  | x :: l, _, g => by
    rw [List.map_cons] at g
    cases g with | cons g1 g2 => exact .cons (h _ _ g1) (eachOf_map h l g2)

theorem listOf_map {α α' : Type} {M : α' → Ast → Prop} {N : α → Ast → Prop} {f : α → α'} (h : ∀ x a, M (f x) a → N x a) (l : List α) (a : Ast)
    (g : ListOf M (l.map f) a) : ListOf N l a := by
  cases g with | mk g => exact .mk (eachOf_map h l g)

theorem maybe_map {α α' : Type} {M : α' → Ast → Prop} {N : α → Ast → Prop} {f : α → α'} (h : ∀ x a, M (f x) a → N x a) (x : Option α) (a : Ast)
    (g : Maybe M (x.map f) a) : Maybe N x a := by
  cases x with
  | none => cases g; exact .none
  | some x => rw [Option.map_some] at g; cases g with | some g => exact .some (h _ _ g)

theorem withSpan_map {α α' : Type} {M : α' → Ast → Prop} {N : α → Ast → Prop} {f : α → α'} (h : ∀ x a, M (f x) a → N x a) (x : α) (a : Ast)
    (g : WithSpan M (f x) a) : WithSpan N x a := by
  cases g with | mk g => exact .mk (h _ _ g)

theorem spanAnd_map {α α' : Type} {M : α' → Ast → Prop} {N : α → Ast → Prop} {f : α → α'} (h : ∀ x a, M (f x) a → N x a) (x : α) (a : Ast)
    (g : SpanAnd M (f x) a) : SpanAnd N x a := by
  cases g with | mk g => exact .mk (h _ _ g)

theorem joins_map {f : Expr → Expr} (hf : ∀ x a, Means (f x) a → Means x a) : ∀ (js : List Join) {a b : Ast},
    MeansJoins a (js.map fun j => ⟨j.kind, j.table, j.cond.map f⟩) b → MeansJoins a js b
  | [], _, _, g => by cases g; exact .nil
  | ⟨K, tb, c⟩ :: js, _, _, g => by
    rw [List.map_cons] at g
    cases g with
    | cons hj ht hs h =>
      exact .cons hj ht (maybe_map (fun x a h => by cases h with | mk h => exact .mk (hf _ _ h)) _ _ hs) (joins_map hf js h)

/-- An AST that stands for the query with `f x` in place of `x` stands for the query, when this is so for the expressions. -/
theorem means_mapE {f : Expr → Expr} (hf : ∀ x a, Means (f x) a → Means x a) (q : Query) {a : Ast} (h : MeansQuery (q.mapE f) a) : MeansQuery q a := by
  have hcol : ∀ (c : Expr × Option (List Char)) (a : Ast), MeansColumn (f c.1, c.2) a → MeansColumn c a := fun c a h => by
    cases h with | mk h hn => exact .mk (hf _ _ h) hn
  obtain ⟨fl, l, r⟩ := q
  cases r with
  | none =>
    simp only [Query.mapE, Option.map_none] at h
    cases h with | noFrom h1 h2 => exact .noFrom h1 (listOf_map hcol _ _ h2)
  | some r =>
    obtain ⟨tb, w, g, hv, od, li⟩ := r
    simp only [Query.mapE, Option.map_some] at h
    cases h with
    | «from» h1 h2 h3 h4 h5 h6 h7 h8 =>
      refine .from h1 (listOf_map hcol _ _ h2) (listOf_map (fun t a h => ?_) _ _ h3) (maybe_map (withSpan_map hf) _ _ h4)
        (maybe_map (spanAnd_map (listOf_map hf)) _ _ h5) (maybe_map (withSpan_map hf) _ _ h6) (maybe_map (spanAnd_map (listOf_map fun p a h => ?_)) _ _ h7) h8
      · obtain ⟨tb, js⟩ := t
        cases h with | mk h hj => exact .mk h (joins_map hf js hj)
      · obtain ⟨x, d⟩ := p
        cases d <;> cases h <;> rename_i h
        · exact .asc (hf _ _ h)
        · exact .desc (hf _ _ h)
        · exact .none (hf _ _ h)

/-- The query with `f x` in place of `x` can be written, when the expressions can be, and none begins with a flag. -/
theorem can_mapped {f : Expr → Expr} (q : Query) (hq : q.Sayable o) (hx : ∀ x ∈ q.exprs, CanSay chk (Spells o (f x)))
    (hn : ∀ x ts, Spells o (f x) ts → ∃ t us, ts = t :: us ∧ selectFlagWords.lookup t.kw = none) : CanSay chk (SpellsQuery o (q.mapE f)) := by
  obtain ⟨q1, q2, q3, q4, q5, q6, q7⟩ := hq
  obtain ⟨fl, l, r⟩ := q
  obtain ⟨w, hw⟩ := kwSaid c!"SELECT" (k := .SELECT) (by simp) rfl (by decide) (by decide +kernel) chk
  obtain ⟨a1, b1, c1⟩ := can_flags (chk := chk) fl q2
  obtain ⟨a2, b2, c2⟩ := can_commas (chk := chk) (R := SpellsColumn o) (l.map fun c => (f c.1, c.2)) (by simpa using q3) fun c hc => by
    obtain ⟨c0, hc0, e⟩ := List.mem_map.1 hc
    subst e
    exact can_column _ (hx _ (List.mem_append_left _ (List.mem_map_of_mem hc0))) (q4 c0 hc0)
  have hh : ∀ t ∈ (a2.map (·.1)).head?, selectFlagWords.lookup t.kw = none := by
    have hc : ∀ (c : Expr × Option (List Char)) ts, SpellsColumn o (f c.1, c.2) ts → ∃ t us, ts = t :: us ∧ selectFlagWords.lookup t.kw = none := fun c ts h => by
      obtain ⟨x, n⟩ := c
      cases h with
      | plain h => exact hn _ _ h
      | as h _ _ => obtain ⟨t, us, rfl, h2⟩ := hn _ _ h; exact ⟨t, _, rfl, h2⟩
    have : ∃ t us, a2.map (·.1) = t :: us ∧ selectFlagWords.lookup t.kw = none := by
      generalize a2.map (·.1) = ts at c2
      cases l with
      | nil => cases c2
      | cons c l =>
        rw [List.map_cons] at c2
        generalize l.map (fun c => (f c.1, c.2)) = l' at c2
        cases c2 with
        | one h => exact hc _ _ h
        | cons h _ => obtain ⟨t, us, rfl, h2⟩ := hc _ _ h; exact ⟨t, _, rfl, h2⟩
    obtain ⟨t, us, e, h⟩ := this
    rw [e]; intro t' h'; cases h'; exact h
  obtain ⟨a3, b3, c3⟩ := can_clause (chk := chk) (R := SpellsFrom o) (kwSaid c!"FROM" (k := .FROM) (by simp) rfl (by decide) (by decide +kernel)) (Query.mapE f ⟨fl, l, r⟩).from_
    fun y hy => by
      cases r with
      | none => cases hy
      | some r =>
        cases hy
        obtain ⟨t1, t2⟩ := q5 r rfl
        obtain ⟨l1, l2⟩ := q6 r rfl
        have hx' : ∀ x ∈ (r.tables.flatMap fun t => t.joins.flatMap (·.cond.toList)) ++ (r.cond.toList ++ (r.group.toList.flatten ++ (r.having.toList ++
            r.order.toList.flatten.map (·.1)))), CanSay chk (Spells o (f x)) := fun x hm => hx x (List.mem_append_right _ (by simpa using hm))
        simp only [List.forall_mem_append] at hx'
        obtain ⟨x1, x2, x3, x4, x5⟩ := hx'
        have hopt : ∀ z : Option Expr, (∀ x ∈ z.toList, CanSay chk (Spells o (f x))) → ∀ x ∈ z.map f, CanSay chk (Spells o x) := fun z h x hm => by
          cases z with
          | none => cases hm
          | some z => cases hm; exact h z (by simp)
        refine can_from _ ⟨by simpa using t1, fun t ht => ?_⟩ (hopt _ x2) ⟨?_, fun g hg x hm => ?_⟩ (hopt _ x4) ⟨?_, fun g hg x hm => ?_⟩ (q7 r rfl)
        · obtain ⟨t0, ht0, e⟩ := List.mem_map.1 ht
          subst e
          obtain ⟨u1, u2, u3⟩ := t2 t0 ht0
          refine ⟨u1, fun j hj => ?_, fun a i j b e => ?_⟩
          · obtain ⟨j0, hj0, e⟩ := List.mem_map.1 hj
            subst e
            exact ⟨(u2 j0 hj0).1, (u2 j0 hj0).2, hopt _ fun x hm => x1 x (List.mem_flatMap.2 ⟨t0, ht0, List.mem_flatMap.2 ⟨j0, hj0, hm⟩⟩)⟩
          · obtain ⟨a', b', e1, rfl, e2⟩ := List.map_eq_append_iff.1 e
            obtain ⟨i, b', rfl, rfl, e3⟩ := List.map_eq_cons_iff.1 e2
            obtain ⟨j, b', rfl, rfl, rfl⟩ := List.map_eq_cons_iff.1 e3
            exact fun h => u3 a' i j b' e1 (by simpa using h)
        · cases hg : r.group with
          | none => simp [hg]
          | some g => rw [hg] at l1; simpa [hg] using l1
        · cases hr : r.group with
          | none => simp [hr] at hg
          | some g' =>
            rw [hr] at x3; simp only [hr, Option.map_some, Option.mem_def, Option.some.injEq] at hg; subst hg
            obtain ⟨x0, hm0, e⟩ := List.mem_map.1 hm
            subst e
            exact x3 x0 (by simpa using hm0)
        · cases hg : r.order with
          | none => simp [hg]
          | some g => rw [hg] at l2; simpa [hg] using l2
        · cases hr : r.order with
          | none => simp [hr] at hg
          | some g' =>
            rw [hr] at x5; simp only [hr, Option.map_some, Option.mem_def, Option.some.injEq] at hg; subst hg
            obtain ⟨x0, hm0, e⟩ := List.mem_map.1 hm
            subst e
            exact x5 x0.1 (List.mem_map_of_mem (by simpa using hm0))
  refine ⟨(.ident w .SELECT, w) :: (a1 ++ (a2 ++ a3)), ?_, by simp only [List.map_append, List.map_cons]; exact .mk (by simp [Token.isKw]) c1 hh c2 c3⟩
  simp only [List.forall_mem_append, List.forall_mem_cons]
  exact ⟨hw, b1, b2, b3⟩

/-- **C61** (writing): for every query that can be written there is a source that is parsed without issues, and the AST of the returned
SELECT stands for the query; by `C61_determined` for no other one, except for parentheses. -/
theorem C61_every (chk : Bool) (opts : Opts) (hu : opts.warnUnquoted = false) (hc : opts.warnCaps = false) (q : Query) (hq : q.Sayable opts) :
    ∃ src, ∀ iss, ∃ v, Api.one.Returns chk src iss opts (some v) iss.issues ∧ MeansQuery q v.ast := by
  obtain ⟨ws, h1, h2⟩ := can_mapped (chk := chk) (f := fun x => .paren x.full) q hq
    (fun x hx => sayable_said (chk := chk) (.paren x.full) (by rw [Expr.Sayable]; exact full_sayable x (hq.exprs x hx)))
    (fun x ts h => by cases h; exact ⟨_, _, rfl, by decide +kernel⟩)
  obtain ⟨ts, k1, k2⟩ := written_blanks ws h1 0
  refine ⟨blanks ws, fun iss => ?_⟩
  obtain ⟨v, g1, g2⟩ := C61_reads chk iss opts _ _ _ ts hu hc h2 (by
    rw [mapE_exprs]
    intro x hx
    obtain ⟨x, _, rfl⟩ := List.mem_map.1 hx
    rw [Expr.Grouped]; exact full_grouped x) k2 k1
  exact ⟨v, g1, means_mapE (fun x a h => means_full x (means_paren h)) q g2⟩

/-- **C61** (no ambiguity): if the tokens of a source spell two queries, and in the expressions of both no parentheses are missing, then
these are the same query, except for parentheses. -/
theorem C61_unambiguous (chk : Bool) (opts : Opts) (src : List Char) (q q' : Query) (toks : List Token) (ts : List Tk)
    (hu : opts.warnUnquoted = false) (hc : opts.warnCaps = false) (hq : SpellsQuery opts q toks) (hg : ∀ x ∈ q.exprs, x.Grouped)
    (hq' : SpellsQuery opts q' toks) (hg' : ∀ x ∈ q'.exprs, x.Grouped) (hw : Written chk 0 src ts) (hts : ts.map (·.1) = toks) :
    q.mapE Expr.bare = q'.mapE Expr.bare := by
  obtain ⟨v, h1, h2⟩ := C61_reads chk (Issues.new src) opts src q toks ts hu hc hq hg hw hts
  obtain ⟨v', h1', h2'⟩ := C61_reads chk (Issues.new src) opts src q' toks ts hu hc hq' hg' hw hts
  have : v = v' := Option.some.inj (returns_unique .one h1 h1').1
  subst this
  exact C61_determined _ _ _ h2 h2'

end SqlParse
