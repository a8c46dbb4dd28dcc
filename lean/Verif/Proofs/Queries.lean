import Verif.Spec.Queries
import Verif.Proofs.Trees
/-! The tokens of a query (Spec/Queries) are a sentence of the grammar, and its AST stands for the query. -/
namespace SqlParse
variable {o : Opts} {e : Env}

/-! ### What comes next -/

/-- The end of the source, a comma (if `c`), or one of the keywords comes next. -/
def ComesNow (ks : List Keyword) (c : Bool) (r : List Tk) : Prop :=
  ∃ t sp r', r = (t, sp) :: r' ∧ (t = .eof ∨ (c = true ∧ t = .comma) ∨ ∃ k ∈ ks, t.isKw k = true) ∧
    (t.isKw .LEFT = true → Next (· ≠ .lParen) r')

theorem ahead_mono {ks ks' : List Keyword} {c c' : Bool} {r : List Tk} (h : ComesNow ks c r) (hk : ∀ k ∈ ks, k ∈ ks') (hc : c = true → c' = true) :
    ComesNow ks' c' r := by
  obtain ⟨t, sp, r', rfl, h1, h2⟩ := h
  exact ⟨t, sp, r', rfl, h1.imp_right (Or.imp (fun h => ⟨hc h.1, h.2⟩) fun ⟨k, h, h'⟩ => ⟨k, hk k h, h'⟩), h2⟩

theorem ahead_kw {k : Keyword} {t : Token} {sp : Span} {r : List Tk} (h : t.isKw k = true) (hk : k ≠ .LEFT) (ks : List Keyword) (c : Bool) :
    ComesNow (k :: ks) c ((t, sp) :: r) :=
  ⟨t, sp, r, rfl, .inr (.inr ⟨k, by simp, h⟩), fun h' => by rw [isKw_other h hk] at h'; cases h'⟩

/-- Words with which something ends. -/
def Ending (k : Keyword) : Prop := k.exprIdent = false ∧ k ∉ exprWords ∧ k ∉ opWords ∧ k ≠ .OVER

theorem ahead_stops {ks : List Keyword} {c : Bool} {r : List Tk} (h : ComesNow ks c r) (hks : ∀ k ∈ ks, Ending k) : Stops e false r ∧ AfterOd r := by
  obtain ⟨t, sp, r', rfl, rfl | ⟨-, rfl⟩ | ⟨k, hk, hk'⟩, h2⟩ := h
  · exact ⟨.inl (by decide), afterOd_tok (by simp) (by simp) rfl rfl⟩
  · exact ⟨stops_comma, follow_comma⟩
  · obtain ⟨g1, g2, g3, g4⟩ := hks k hk
    refine ⟨?_, follow_kw hk' g4⟩
    cases t with
    | ident v k' =>
      simp only [Token.isKw, decide_eq_true_eq] at hk' h2
      subst hk'
      exact ⟨g1, g2, fun h => absurd h g3, h2⟩
    | _ => simp [Token.isKw] at hk'

theorem ahead_not {ks : List Keyword} {c : Bool} {r : List Tk} (h : ComesNow ks c r) {k : Keyword} (hk : k ∉ ks) : NotKw k r := by
  obtain ⟨t, sp, r', rfl, rfl | ⟨-, rfl⟩ | ⟨k', hk', h⟩, -⟩ := h
  · rfl
  · rfl
  · exact isKw_other h (by rintro rfl; exact hk hk')

theorem ahead_noKw {ks : List Keyword} {c : Bool} {r : List Tk} (h : ComesNow ks c r) (l : List Keyword) (hk : ∀ k ∈ l, k ∉ ks) : NoKw l r := by
  have h' := fun k hm => ahead_not h (hk k hm)
  obtain ⟨t, sp, r', rfl, -⟩ := h
  exact h'

theorem ahead_comma {ks : List Keyword} {r : List Tk} (h : ComesNow ks false r) : Next (· ≠ .comma) r := by
  obtain ⟨t, sp, r', rfl, rfl | ⟨h, -⟩ | ⟨k', hk', h⟩, -⟩ := h
  · simp [Next]
  · cases h
  · rintro rfl; simp [Token.isKw] at h

theorem ahead_plain {ks : List Keyword} {c : Bool} {r : List Tk} (h : ComesNow ks c r) (hk : ∀ k ∈ ks, k.reserved = true) :
    Next (fun t => plainWord t = false) r ∧ Next (· ≠ .period) r := by
  obtain ⟨t, sp, r', rfl, rfl | ⟨h, rfl⟩ | ⟨k', hk', h⟩, -⟩ := h
  · exact ⟨rfl, by simp [Next]⟩
  · exact ⟨rfl, by simp [Next]⟩
  · cases t with
    | ident v k =>
      simp only [Token.isKw, decide_eq_true_eq] at h
      subst h
      exact ⟨by simp [Next, plainWord, hk _ hk'], by simp [Next]⟩
    | _ => simp [Token.isKw] at h

/-- The words that begin the clauses after the tables of SELECT, UPDATE and DELETE. -/
def tailWords : List Keyword := [.WHERE, .GROUP, .HAVING, .ORDER, .LIMIT, .SET, .RETURNING]

/-- The words that can come after a table. -/
def tableWords : List Keyword := .ON :: joinWords ++ tailWords

/-- The words that can begin a join after a table (`on`: after ON). -/
def joinStarts (on : Bool) : List Keyword := (if on then joinWords.erase .RIGHT else joinWords) ++ tailWords

/-! ### Lists and clauses -/

theorem commas_reads {α β : Type} {R : α → List Token → Prop} {P : List Tk → β → List Tk → Prop} {M : α → β → Prop} {F : List Tk → Prop}
    (hc : ∀ sp r, F ((.comma, sp) :: r)) {l : List α} {toks : List Token} (h : Commas R l toks) :
    (∀ x ∈ l, ∀ toks, R x toks → ∀ ts : List Tk, ts.map (·.1) = toks → ∃ b, M x b ∧ ∀ r, F r → P (ts ++ r) b r) →
    ∀ ts : List Tk, ts.map (·.1) = toks → ∃ bs, EachOf M l bs ∧ ∀ r, F r → Next (· ≠ .comma) r → CommaL P (ts ++ r) bs r := by
  induction h with
  | one h =>
    intro hR ts hts
    obtain ⟨b, h1, h2⟩ := hR _ (by simp) _ h ts hts
    exact ⟨_, .cons h1 .nil, fun r hF hr => .one (h2 r hF) hr⟩
  | cons h hl ih =>
    intro hR ts hts
    toks hts
    obtain ⟨xs, _, rfl, hx, ⟨t, sp⟩, ys, rfl, rfl, hy⟩ := hts
    obtain ⟨b, h1, h2⟩ := hR _ (by simp) _ h xs hx
    obtain ⟨bs, h3, h4⟩ := ih (fun x hx => hR x (List.mem_cons_of_mem _ hx)) ys hy
    refine ⟨_, .cons h1 h3, fun r hF hr => ?_⟩
    rw [List.append_assoc, List.cons_append]
    exact .cons (h2 _ (hc _ _)) (h4 r hF hr)

theorem commas_ne {α : Type} {R : α → List Token → Prop} {l : List α} {toks : List Token} (h : Commas R l toks)
    (hR : ∀ x toks, R x toks → toks ≠ []) : toks ≠ [] := by
  cases h with
  | one h => exact hR _ _ h
  | cons h hl => simp

theorem each_map {α β : Type} {M : α → Ast → Prop} {f : β → Ast} {l : List α} {bs : List β} (h : EachOf (fun x b => M x (f b)) l bs) :
    EachOf M l (bs.map f) := by
  induction h with
  | nil => exact .nil
  | cons h _ ih => exact .cons h ih

theorem each_id {α : Type} {M : α → Ast → Prop} {l : List α} {as : List Ast} (h : EachOf M l as) : ListOf M l (toF as) := by
  rw [toF_list]; exact .mk h

theorem clause_reads {α β : Type} [ToF β] {k : Keyword} {R : α → List Token → Prop} {P : Span → List Tk → β → List Tk → Prop} {M : α → Ast → Prop}
    {F : List Tk → Prop} {ox : Option α} {toks : List Token} (hk : k ≠ .LEFT) (h : Clause k R ox toks)
    (hR : ∀ x ∈ ox, ∀ toks, R x toks → ∀ sp (ts : List Tk), ts.map (·.1) = toks → ∃ b, M x (toF b) ∧ ∀ r, F r → P sp (ts ++ r) b r)
    (ts : List Tk) (hts : ts.map (·.1) = toks) : ∃ ob : Option β, Maybe M ox (toF ob) ∧
      ∀ ks c r, ComesNow ks c r → k ∉ ks → F r → OptKw k P (ts ++ r) ob r ∧ ComesNow (k :: ks) c (ts ++ r) := by
  cases h with
  | none =>
    toks hts
    subst hts
    exact ⟨none, .none, fun ks c r h1 h2 _ => ⟨.none (ahead_not h1 h2), ahead_mono h1 (fun _ => List.mem_cons_of_mem _) id⟩⟩
  | some h hx =>
    toks hts
    obtain ⟨⟨t, sp⟩, ts, rfl, rfl, hts⟩ := hts
    obtain ⟨b, h1, h2⟩ := hR _ rfl _ hx sp ts hts
    exact ⟨some b, .some h1, fun ks c r _ _ hF => ⟨.some h (h2 r hF), ahead_kw h hk _ _⟩⟩

/-! ### Names and tables -/

theorem name_reads {v : List Char} {t : Token} (h : SpellsName e.opts v t) (sp : Span) (r : List Tk) : Idn e ((t, sp) :: r) (.ident v sp) r := by
  cases h with
  | word hk hq hm => exact .word hk hq (by simp [Env.noArg, argTk, hm])
  | quoted hd => exact .quoted hd

theorem dotted_reads {p : List (List Char)} {n : List Char} {toks : List Token} (h : SpellsDotted e.opts p n toks) :
    ∀ ts : List Tk, ts.map (·.1) = toks → ∃ (ps : List (Ast × Span)) (i : Ast), ListOf (WithSpan MeansName) p (toF ps) ∧ MeansName n i ∧
      ∀ r, Next (· ≠ .period) r → Dotted e (ts ++ r) ps i r := by
  induction h with
  | last h =>
    intro ts hts
    toks hts
    obtain ⟨⟨t, sp⟩, _, rfl, rfl, rfl⟩ := hts
    exact ⟨[], _, .mk .nil, .mk, fun r hr => .last (name_reads h sp r) hr⟩
  | dot h hs ih =>
    intro ts hts
    toks hts
    obtain ⟨⟨t, sp⟩, _, rfl, rfl, ⟨t', sp'⟩, ts, rfl, rfl, hts⟩ := hts
    obtain ⟨ps, i, ⟨h1⟩, h2, h3⟩ := ih ts hts
    exact ⟨(_, sp') :: ps, i, .mk (.cons (.mk .mk) h1), h2, fun r hr => .dot (name_reads h sp _) (h3 r hr)⟩

theorem alias_reads {al : Option (List Char)} {toks : List Token} (h : SpellsAlias e.opts al toks) (ts : List Tk) (hts : ts.map (·.1) = toks) :
    ∃ (s : Option Span) (a : Option Ast), SpanOpt (toF s) ∧ Maybe MeansName al (toF a) ∧ ∀ r, NotKw .AS r → Next (fun t => plainWord t = false) r →
      Next (· ≠ .period) r → Alias e (ts ++ r) (s, a) r ∧ Next (· ≠ .period) (ts ++ r) := by
  cases h with
  | none =>
    toks hts
    subst hts
    exact ⟨none, none, .none, .none, fun r h1 h2 h3 => ⟨.none h1 h2, h3⟩⟩
  | as h hn =>
    toks hts
    obtain ⟨⟨t, sp⟩, _, rfl, rfl, ⟨t', sp'⟩, _, rfl, rfl, rfl⟩ := hts
    refine ⟨some _, some _, .some, .some .mk, fun r _ _ _ => ⟨.as h (name_reads hn sp' r), ?_⟩⟩
    rintro rfl; simp [Token.isKw] at h
  | plain hn =>
    toks hts
    obtain ⟨⟨t, sp⟩, _, rfl, rfl, rfl⟩ := hts
    refine ⟨none, some _, .none, .some .mk, fun r _ _ _ => ⟨.plain ?_ (name_reads hn sp r), by simp [Next]⟩⟩
    rintro rfl
    cases hn with
    | word hk _ _ => revert hk; decide +kernel

theorem table_reads {tb : Table} {toks : List Token} (h : SpellsTable e.opts tb toks) (ts : List Tk) (hts : ts.map (·.1) = toks) :
    ∃ a, MeansTable tb a ∧ ∀ r, ComesNow tableWords true r → TRi e (ts ++ r) a r := by
  cases h with
  | mk h ha =>
    rename_i p n w k al xs ys
    rw [← List.cons_append] at hts
    obtain ⟨us, vs, rfl, hu, hv⟩ := List.map_eq_append_iff.1 hts
    obtain ⟨ps, i, h1, h2, h3⟩ := dotted_reads h us hu
    obtain ⟨s, a, h4, h5, h6⟩ := alias_reads ha vs hv
    obtain ⟨⟨t, sp⟩, us, rfl, rfl, -⟩ := List.map_eq_cons_iff.1 hu
    refine ⟨_, .mk h1 h2 h4 h5, fun r hr => ?_⟩
    obtain ⟨g1, g2⟩ := ahead_plain hr (by decide +kernel)
    obtain ⟨k1, k2⟩ := h6 r (ahead_not hr (by decide)) g1 g2
    rw [List.append_assoc]
    exact .table (.mk (h3 _ k2)) k1 (.nil (ahead_noKw hr _ (by decide)))

/-! ### Joins -/

theorem kws_reads {ks : List Keyword} {toks : List Token} (h : IsKws ks toks) : ∀ ts : List Tk, ts.map (·.1) = toks → ks ≠ [] →
    ∃ sp, ∀ r, Kws ks (ts ++ r) sp r := by
  induction h with
  | nil => intro ts _ h; exact absurd rfl h
  | cons h hs ih =>
    intro ts hts _
    toks hts
    obtain ⟨⟨t, sp⟩, ts, rfl, rfl, hts⟩ := hts
    cases hs with
    | nil =>
      toks hts
      subst hts
      exact ⟨sp, fun r => .one h⟩
    | cons h' hs' =>
      obtain ⟨sp', ih⟩ := ih ts hts (by simp)
      exact ⟨_, fun r => .cons h (ih r)⟩

theorem join_reads {ks : List Keyword} {K : Kind} {toks : List Token} (hk : (ks, K) ∈ joinPhrases) (h : IsKws ks toks) (ts : List Tk)
    (hts : ts.map (·.1) = toks) : ∃ sp, ∀ r, JoinTy (ts ++ r) (.node K [.span sp]) r := by
  have hn : ∀ p ∈ joinPhrases, p.1 ≠ [] := by decide
  simp only [joinPhrases, List.mem_cons, Prod.mk.injEq, List.not_mem_nil, or_false] at hk
  obtain ⟨sp, hK⟩ := kws_reads h ts hts (by rcases hk with hk | hk | hk | hk | hk | hk | hk | hk | hk | hk | hk | hk | hk | hk <;> simp [hk.1])
  rcases hk with ⟨rfl, rfl⟩ | ⟨rfl, rfl⟩ | ⟨rfl, rfl⟩ | ⟨rfl, rfl⟩ | ⟨rfl, rfl⟩ | ⟨rfl, rfl⟩ | ⟨rfl, rfl⟩ | ⟨rfl, rfl⟩ | ⟨rfl, rfl⟩ | hk | hk | hk | hk |
    ⟨rfl, rfl⟩
  · exact ⟨sp, fun r => .inner (hK r)⟩
  · exact ⟨sp, fun r => .cross (hK r)⟩
  · exact ⟨sp, fun r => .join (hK r)⟩
  · exact ⟨sp, fun r => .straight (hK r)⟩
  · exact ⟨sp, fun r => .left (.plain (hK r))⟩
  · exact ⟨sp, fun r => .left (.outer (hK r))⟩
  · exact ⟨sp, fun r => .right (.plain (hK r))⟩
  · exact ⟨sp, fun r => .right (.outer (hK r))⟩
  · exact ⟨sp, fun r => .naturalInner (hK r)⟩
  all_goals first
    | exact ⟨sp, fun r => .natural (hK r)⟩
    | (obtain ⟨rfl, rfl⟩ := hk
       cases h with
       | cons h hs =>
         toks hts
         obtain ⟨⟨t, sp⟩, ts, rfl, rfl, hts⟩ := hts
         obtain ⟨sp', hK⟩ := kws_reads hs ts hts (by simp)
         first
           | exact ⟨sp', fun r => .naturalLeft h (.plain (hK r))⟩
           | exact ⟨sp', fun r => .naturalLeft h (.outer (hK r))⟩
           | exact ⟨sp', fun r => .naturalRight h (.plain (hK r))⟩
           | exact ⟨sp', fun r => .naturalRight h (.outer (hK r))⟩)

theorem join_ahead {ks : List Keyword} {K : Kind} {toks : List Token} (hk : (ks, K) ∈ joinPhrases) (h : IsKws ks toks) (ts r : List Tk)
    (hts : ts.map (·.1) = toks) : ∃ k ∈ joinWords, ks.head? = some k ∧ ComesNow [k] true (ts ++ r) := by
  have hn : ∀ p ∈ joinPhrases, ∃ k ∈ joinWords, p.1.head? = some k ∧ (k = .LEFT → ∃ k' l, p.1 = k :: k' :: l) := by
    simp only [joinPhrases, joinWords]
    intro p hp
    simp only [List.mem_cons, List.not_mem_nil, or_false] at hp
    rcases hp with rfl | rfl | rfl | rfl | rfl | rfl | rfl | rfl | rfl | rfl | rfl | rfl | rfl | rfl <;>
      exact ⟨_, by simp, rfl, by first | exact fun _ => ⟨_, _, rfl⟩ | exact fun h => absurd h (by decide)⟩
  obtain ⟨k, h1, h2, h3⟩ := hn _ hk
  refine ⟨k, h1, h2, ?_⟩
  dsimp only at h2 h3
  cases h with
  | nil => cases h2
  | cons h hs =>
    cases h2
    toks hts
    obtain ⟨⟨t, sp⟩, ts, rfl, rfl, hts⟩ := hts
    refine ⟨t, sp, _, rfl, .inr (.inr ⟨_, by simp, h⟩), fun hl => ?_⟩
    by_cases hL : k = .LEFT
    · obtain ⟨k', l, hl'⟩ := h3 hL
      cases hl'
      cases hs with
      | cons h' hs' =>
        toks hts
        obtain ⟨⟨t', sp'⟩, ts, rfl, rfl, hts⟩ := hts
        rintro rfl; simp [Token.isKw] at h'
    · rw [isKw_other h hL] at hl; cases hl

theorem joins_reads {on : Bool} {js : List Join} {toks : List Token} (h : SpellsJoins e.opts on js toks) :
    (∀ j ∈ js, ∀ x ∈ j.cond, x.Grouped) → ∀ (a : Ast) (ts : List Tk), ts.map (·.1) = toks → ∃ b, MeansJoins a js b ∧
      ∀ r, ComesNow tailWords true r → Joins e a (ts ++ r) b r ∧ ComesNow (joinStarts on) true (ts ++ r) := by
  induction h with
  | nil =>
    rename_i on
    intro _ a ts hts
    toks hts
    subst hts
    exact ⟨a, .nil, fun r hr => ⟨.nil (ahead_noKw hr _ (by decide)), ahead_mono hr (by cases on <;> decide) id⟩⟩
  | cons hk hw hr ht hc h ih =>
    rename_i on ks K tb c js _ _ _ _
    intro hg a ts hts
    toks hts
    obtain ⟨ws, _, rfl, h1, xs, _, rfl, h2, us, vs, rfl, h3, h4⟩ := hts
    obtain ⟨sp, g1⟩ := join_reads hk hw ws h1
    obtain ⟨tb', m2, g2⟩ := table_reads ht xs h2
    have hc' : ∃ s : Option Ast, Maybe MeansOn c (toF s) ∧ ∀ r, ComesNow (joinStarts c.isSome) true r → JSpec e (us ++ r) s r ∧ ComesNow tableWords true (us ++ r) := by
      cases hc with
      | none =>
        toks h3
        subst h3
        exact ⟨none, .none, fun r hr => ⟨.none (ahead_noKw hr _ (by decide)), ahead_mono hr (by decide) id⟩⟩
      | some ho hx =>
        toks h3
        obtain ⟨⟨t, s⟩, us, rfl, rfl, hu⟩ := h3
        obtain ⟨x', m3, g3⟩ := reads_ex (spells_reads hx (hg _ List.mem_cons_self _ rfl) us hu)
        refine ⟨some _, .some (.mk m3), fun r hr => ⟨.on ho ?_, ahead_kw ho (by decide) _ _⟩⟩
        have := ahead_stops (e := e) hr (by show ∀ k ∈ joinStarts true, Ending k; simp only [Ending]; decide +kernel)
        exact g3 r this.1 this.2
    obtain ⟨s, m3, g3⟩ := hc'
    obtain ⟨b, m4, g4⟩ := ih (fun j hj => hg j (List.mem_cons_of_mem _ hj)) (nd% TableReference_Join [Ast.node K [.span sp], a, tb', s]) vs h4
    refine ⟨b, .cons .mk m2 m3 m4, fun r hr' => ?_⟩
    obtain ⟨k1, k2⟩ := g4 r hr'
    obtain ⟨k3, k4⟩ := g3 _ k2
    simp only [List.append_assoc]
    refine ⟨.cons (g1 _) (g2 _ k4) k3 k1, ?_⟩
    obtain ⟨k, n1, n2, n3⟩ := join_ahead hk hw ws (xs ++ (us ++ (vs ++ r))) h1
    refine ahead_mono n3 ?_ id
    simp only [List.mem_singleton]
    rintro _ rfl
    cases on with
    | false => exact List.mem_append_left _ n1
    | true =>
      have := hr rfl
      rw [n2] at this
      exact List.mem_append_left _ ((List.mem_erase_of_ne (fun h => this (by rw [h]))).2 n1)

theorem tables_reads {tb : Tables} {toks : List Token} (h : SpellsTables e.opts tb toks) (hg : ∀ j ∈ tb.joins, ∀ x ∈ j.cond, x.Grouped)
    (ts : List Tk) (hts : ts.map (·.1) = toks) : ∃ b, MeansTables tb b ∧ ∀ r, ComesNow tailWords true r → TR e (ts ++ r) b r := by
  cases h with
  | mk h hj =>
    toks hts
    obtain ⟨us, vs, rfl, hu, hv⟩ := hts
    obtain ⟨a, m1, g1⟩ := table_reads h us hu
    obtain ⟨b, m2, g2⟩ := joins_reads hj hg a vs hv
    refine ⟨b, .mk m1 m2, fun r hr => ?_⟩
    obtain ⟨k1, k2⟩ := g2 r hr
    rw [List.append_assoc]
    exact .mk (g1 _ (ahead_mono k2 (by decide) id)) k1

/-! ### The clauses -/

theorem order_reads {x : Expr × RowOrder} {toks : List Token} (h : SpellsOrder e.opts x toks) (hg : x.1.Grouped) (ts : List Tk)
    (hts : ts.map (·.1) = toks) : ∃ b : Ast × OAst, MeansOrder x (toF b) ∧ ∀ r, ComesNow [.LIMIT] true r → Ord e (ts ++ r) b r := by
  cases h with
  | asc h ht =>
    toks hts
    obtain ⟨ts, _, rfl, hts, ⟨t, sp⟩, _, rfl, rfl, rfl⟩ := hts
    obtain ⟨a, m, g⟩ := reads_ex (spells_reads h hg ts hts)
    refine ⟨(a, _), .asc m, fun r _ => .asc (t := t) (sp := sp) ?_ ht⟩
    rw [List.append_assoc]
    exact g _ (stops_kw ht (by decide +kernel)) (follow_kw ht (by decide))
  | desc h ht =>
    toks hts
    obtain ⟨ts, _, rfl, hts, ⟨t, sp⟩, _, rfl, rfl, rfl⟩ := hts
    obtain ⟨a, m, g⟩ := reads_ex (spells_reads h hg ts hts)
    refine ⟨(a, _), .desc m, fun r _ => .desc (t := t) (sp := sp) ?_ ht⟩
    rw [List.append_assoc]
    exact g _ (stops_kw ht (by decide +kernel)) (follow_kw ht (by decide))
  | none h =>
    obtain ⟨a, m, g⟩ := reads_ex (spells_reads h hg ts hts)
    refine ⟨(a, _), .none m, fun r hr => .none ?_ (ahead_noKw hr _ (by decide))⟩
    have := ahead_stops (e := e) hr (by simp only [Ending]; decide +kernel)
    exact g r this.1 this.2

theorem num_reads {w : List Char} {sp : Span} {r : List Tk} (h : numberOf w < 2 ^ 64) (hs : Stops e true r) :
    Ex e true ((.integer w, sp) :: r) (nd% Integer [(numberOf w, sp)]) r :=
  .mk (T := .leaf _) (.opd (.integer (.mk (by omega))) (.stop hs)) trivial

theorem limit_reads {l : Option Nat × Nat} {toks : List Token} (h : SpellsLimit l toks) (s : Span) (ts : List Tk) (hts : ts.map (·.1) = toks) :
    ∃ b : Span × Option Ast × Ast, SpanAnd MeansLimit l (toF b) ∧ ∀ r, ComesNow [] false r → Lim e s (ts ++ r) b r := by
  have hstop : ∀ r, ComesNow [] false r → Stops e true r ∧ Next (fun t => t ≠ .comma ∧ t.isKw .OFFSET = false) r := by
    rintro _ ⟨t, sp, r', rfl, rfl | ⟨h, -⟩ | ⟨k', hk', -⟩, -⟩
    · exact ⟨.inl (by decide), by simp [Next, Token.isKw]⟩
    · cases h
    · cases hk'
  cases h with
  | plain h =>
    toks hts
    obtain ⟨⟨t, sp⟩, _, rfl, rfl, rfl⟩ := hts
    exact ⟨(s, none, _), .mk (.mk .none (.mk (sp := sp))), fun r hr => .plain (num_reads h (hstop r hr).1) (hstop r hr).2⟩
  | comma h h' =>
    toks hts
    obtain ⟨⟨t, sp⟩, _, rfl, rfl, ⟨c, cp⟩, _, rfl, rfl, ⟨t', sp'⟩, _, rfl, rfl, rfl⟩ := hts
    exact ⟨(s, some _, _), .mk (.mk (.some (.mk (sp := sp))) (.mk (sp := sp'))), fun r hr =>
      .comma (c := cp) (num_reads h (.inl (by decide))) (num_reads h' (hstop r hr).1)⟩
  | offset ht h h' =>
    toks hts
    obtain ⟨⟨t, sp⟩, _, rfl, rfl, ⟨c, cp⟩, _, rfl, rfl, ⟨t', sp'⟩, _, rfl, rfl, rfl⟩ := hts
    refine ⟨(s, some _, _), .mk (.mk (.some (.mk (sp := sp'))) (.mk (sp := sp))), fun r hr =>
      .offset (t := c) (c := cp) (num_reads h' ?_) ht (num_reads h (hstop r hr).1)⟩
    dsimp only at ht
    cases c with
    | ident v k =>
      simp only [Token.isKw, decide_eq_true_eq] at ht
      subst ht
      exact ⟨by decide +kernel, by decide, fun _ => rfl, fun h => absurd h (by decide)⟩
    | _ => simp [Token.isKw] at ht

theorem cond_reads {x : Expr} {toks : List Token} {ks : List Keyword} (hks : ∀ k ∈ ks, Ending k) (h : Spells e.opts x toks) (hg : x.Grouped)
    (s : Span) (ts : List Tk) (hts : ts.map (·.1) = toks) :
    ∃ b : Ast × Span, WithSpan Means x (toF b) ∧ ∀ r, ComesNow ks false r → ExK e s (ts ++ r) b r := by
  obtain ⟨a, m, g⟩ := reads_ex (spells_reads h hg ts hts)
  refine ⟨(a, s), .mk m, fun r hr => .mk ?_⟩
  have := ahead_stops (e := e) hr hks
  exact g r this.1 this.2

theorem group_reads {l : List Expr} {toks : List Token} (h : AfterWord .BY (Commas (Spells e.opts)) l toks) (hg : ∀ x ∈ l, x.Grouped) (s : Span)
    (ts : List Tk) (hts : ts.map (·.1) = toks) : ∃ b : Span × List Ast, SpanAnd (ListOf Means) l (toF b) ∧
      ∀ r, ComesNow [.HAVING, .ORDER, .LIMIT] false r → GroupBy e s (ts ++ r) b r := by
  cases h with
  | mk h hl =>
    toks hts
    obtain ⟨⟨t, sp⟩, ts, rfl, rfl, hts⟩ := hts
    obtain ⟨bs, m, g⟩ := commas_reads (P := Ex e false) (M := fun x a => Means x a) (F := fun r => Stops e false r ∧ AfterOd r)
      (fun sp r => ⟨stops_comma, follow_comma⟩) hl (fun x hx toks h ts hts => by
        obtain ⟨a, m, g⟩ := reads_ex (spells_reads h (hg x hx) ts hts)
        exact ⟨a, m, fun r hr => g r hr.1 hr.2⟩) ts hts
    refine ⟨(_, bs), .mk (each_id m), fun r hr => .mk h (g r ?_ (ahead_comma hr))⟩
    exact ahead_stops (e := e) hr (by simp only [Ending]; decide +kernel)

theorem orders_reads {l : List (Expr × RowOrder)} {toks : List Token} (h : AfterWord .BY (Commas (SpellsOrder e.opts)) l toks)
    (hg : ∀ x ∈ l, x.1.Grouped) (s : Span) (ts : List Tk) (hts : ts.map (·.1) = toks) :
    ∃ b : Span × List (Ast × OAst), SpanAnd (ListOf MeansOrder) l (toF b) ∧ ∀ r, ComesNow [.LIMIT] false r → OrderBy e s (ts ++ r) b r := by
  cases h with
  | mk h hl =>
    toks hts
    obtain ⟨⟨t, sp⟩, ts, rfl, rfl, hts⟩ := hts
    obtain ⟨bs, m, g⟩ := commas_reads (P := Ord e) (M := fun x b => MeansOrder x (toF b)) (F := fun r => ComesNow [.LIMIT] true r)
      (fun sp r => ⟨_, _, _, rfl, .inr (.inl ⟨rfl, rfl⟩), fun h => by simp [Token.isKw] at h⟩) hl
      (fun x hx toks h ts hts => order_reads h (hg x hx) ts hts) ts hts
    exact ⟨(_, bs), .mk (.mk (each_map m)), fun r hr => .mk h (g r (ahead_mono hr (fun _ h => h) (by simp)) (ahead_comma hr))⟩

theorem flags_reads {fl : List Kind} {toks : List Token} (h : SpellsFlags fl toks) : ∀ ts : List Tk, ts.map (·.1) = toks →
    ∃ l, EachOf MeansWord fl l ∧ ∀ r, Next (fun t => selectFlagWords.lookup t.kw = none) r → Flags selectFlagWords (ts ++ r) l r := by
  induction h with
  | nil =>
    intro ts hts
    toks hts
    subst hts
    exact ⟨[], .nil, fun r hr => .nil hr⟩
  | cons h hl ih =>
    intro ts hts
    toks hts
    obtain ⟨⟨t, sp⟩, ts, rfl, rfl, hts⟩ := hts
    obtain ⟨l, m, g⟩ := ih ts hts
    exact ⟨_, .cons (.mk (sp := sp)) m, fun r hr => .cons h (g r hr)⟩

theorem column_reads {c : Expr × Option (List Char)} {toks : List Token} (h : SpellsColumn e.opts c toks) (hg : c.1.Grouped) (ts : List Tk)
    (hts : ts.map (·.1) = toks) : ∃ b, MeansColumn c b ∧ ∀ r, ComesNow [.FROM] true r → SelE e (ts ++ r) b r := by
  cases h with
  | plain h =>
    obtain ⟨a, m, g⟩ := reads_ex (spells_reads h hg ts hts)
    refine ⟨_, .mk m .none, fun r hr => .plain ?_ (ahead_not hr (by decide))⟩
    have := ahead_stops (e := e) hr (by simp only [Ending]; decide +kernel)
    exact g r this.1 this.2
  | as h ht hn =>
    toks hts
    obtain ⟨ts, _, rfl, hts, ⟨t, sp⟩, _, rfl, rfl, ⟨t', sp'⟩, _, rfl, rfl, rfl⟩ := hts
    obtain ⟨a, m, g⟩ := reads_ex (spells_reads h hg ts hts)
    refine ⟨_, .mk m (.some (.mk (sp := sp'))), fun r hr => .as (t := t) (sp := sp) (r1 := (t', sp') :: r) ?_ ht (name_reads hn sp' r)⟩
    rw [List.append_assoc]
    exact g _ (stops_kw ht (by decide +kernel)) (follow_kw ht (by decide))

theorem column_ne {c : Expr × Option (List Char)} {toks : List Token} (h : SpellsColumn o c toks) : toks ≠ [] := by
  cases h with
  | plain h => obtain ⟨t, tl, rfl, -⟩ := spells_begins h; simp
  | as h ht hn => simp

theorem exists_snd {α β : Type} {p : α × β} {l : List (α × β)} (h : p ∈ l) : ∃ b, (p.1, b) ∈ l := ⟨p.2, h⟩

theorem query_reads {q : Query} {toks : List Token} (h : SpellsQuery e.opts q toks) (hg : ∀ x ∈ q.exprs, x.Grouped) (ts : List Tk)
    (hts : ts.map (·.1) = toks) : ∃ a, MeansQuery q a ∧ ∀ r, ComesNow [] false r → Sel e (ts ++ r) a r := by
  cases h with
  | mk h hf hn hl hF =>
    toks hts
    obtain ⟨⟨t, s⟩, _, rfl, rfl, us, _, rfl, hu, xs, vs, rfl, hx, hv⟩ := hts
    obtain ⟨fl', m1, g1⟩ := flags_reads hf us hu
    obtain ⟨l', m2, g2⟩ := commas_reads (P := SelE e) (M := fun x b => MeansColumn x b) (F := fun r => ComesNow [.FROM] true r)
      (fun sp r => ⟨_, _, _, rfl, .inr (.inl ⟨rfl, rfl⟩), fun h => by simp [Token.isKw] at h⟩) hl
      (fun x hx toks h ts hts => column_reads h (hg _ (List.mem_append_left _ (List.mem_map_of_mem hx))) ts hts) xs hx
    have hhead : ∀ r, Next (fun t => selectFlagWords.lookup t.kw = none) (xs ++ r) := by
      intro r
      have hne := commas_ne hl (fun _ _ => column_ne)
      cases xs with
      | nil => exact absurd hx.symm hne
      | cons p xs => subst hx; exact hn p.1 (by simp)
    cases hF with
    | none =>
      toks hv
      subst hv
      refine ⟨_, .noFrom (s := s) (.mk m1) (.mk m2), fun r hr => ?_⟩
      simp only [List.append_nil, List.append_assoc, List.cons_append]
      have := Sel.noFrom (e := e) (s := s) h (g1 _ (hhead _)) (g2 r (ahead_mono hr (by simp) (by simp)) (ahead_comma hr)) (ahead_not hr (by simp))
      rwa [toF_list, toF_list] at this
    | some hfr hF =>
      toks hv
      obtain ⟨⟨t', f⟩, vs, rfl, rfl, hv⟩ := hv
      cases hF with
      | mk ht hw hgr hh ho hli =>
        toks hv
        obtain ⟨as, _, rfl, ha, bs, _, rfl, hb, cs, _, rfl, hc, ds, _, rfl, hd, es, fs, rfl, he, hf⟩ := hv
        obtain ⟨tb', m3, g3⟩ := commas_reads (P := TR e) (M := fun x b => MeansTables x b) (F := fun r => ComesNow tailWords true r)
          (fun sp r => ⟨_, _, _, rfl, .inr (.inl ⟨rfl, rfl⟩), fun h => by simp [Token.isKw] at h⟩) ht
          (fun x hx toks h ts hts => tables_reads h (fun j hj y hy => hg y (List.mem_append_right _ (List.mem_flatMap.2 ⟨_, Option.mem_toList.2 rfl,
            List.mem_append_left _ (List.mem_flatMap.2 ⟨x, hx, List.mem_flatMap.2 ⟨j, hj, Option.mem_toList.2 hy⟩⟩)⟩))) ts hts) as ha
        obtain ⟨w', m4, g4⟩ := clause_reads (P := ExK e) (F := ComesNow [.GROUP, .HAVING, .ORDER, .LIMIT] false) (by decide) hw
          (fun x hx toks h sp ts hts => cond_reads (by simp only [Ending]; decide +kernel) h (hg x (by cases hx; simp [Query.exprs])) sp ts hts) bs hb
        obtain ⟨gr', m5, g5⟩ := clause_reads (P := GroupBy e) (F := ComesNow [.HAVING, .ORDER, .LIMIT] false) (by decide) hgr
          (fun x hx toks h sp ts hts => group_reads h (fun y hy => hg y (by cases hx; simp [Query.exprs, hy])) sp ts hts) cs hc
        obtain ⟨h', m6, g6⟩ := clause_reads (P := ExK e) (F := ComesNow [.ORDER, .LIMIT] false) (by decide) hh
          (fun x hx toks h sp ts hts => cond_reads (by simp only [Ending]; decide +kernel) h (hg x (by cases hx; simp [Query.exprs])) sp ts hts) ds hd
        obtain ⟨o', m7, g7⟩ := clause_reads (P := OrderBy e) (F := ComesNow [.LIMIT] false) (by decide) ho
          (fun x hx toks h sp ts hts => orders_reads h (fun y hy => hg y.1 (by cases hx; simp [Query.exprs, exists_snd hy])) sp ts hts) es he
        obtain ⟨li', m8, g8⟩ := clause_reads (P := Lim e) (F := ComesNow [] false) (by decide) hli
          (fun x hx toks h sp ts hts => limit_reads h sp ts hts) fs hf
        refine ⟨_, .from (s := s) (f := f) (.mk m1) (.mk m2) (.mk m3) m4 m5 m6 m7 m8, fun r hr => ?_⟩
        obtain ⟨k8, a8⟩ := g8 _ _ r hr (by decide) hr
        obtain ⟨k7, a7⟩ := g7 _ _ _ a8 (by decide) a8
        obtain ⟨k6, a6⟩ := g6 _ _ _ a7 (by decide) a7
        obtain ⟨k5, a5⟩ := g5 _ _ _ a6 (by decide) a6
        obtain ⟨k4, a4⟩ := g4 _ _ _ a5 (by decide) a5
        have k3 := g3 _ (ahead_mono a4 (by decide) (by simp)) (ahead_comma a4)
        have a3 := ahead_kw (sp := f) (r := as ++ (bs ++ (cs ++ (ds ++ (es ++ (fs ++ r)))))) hfr (by decide) [] false
        have := Sel.from (e := e) (s := s) h (g1 _ (hhead _)) (g2 _ (ahead_mono a3 (fun _ h => h) (by simp)) (ahead_comma a3)) hfr k3 k4 k5 k6
          (.none (ahead_not a7 (by decide))) k7 k8 (.none (ahead_not hr (by decide)))
        have e3 : (toF (some tb') : Ast) = .some (.list tb') := by show Ast.some (toF tb') = _; rw [toF_list]
        rw [toF_list, toF_list, e3] at this
        simp only [List.append_assoc, List.cons_append]
        exact this

end SqlParse
