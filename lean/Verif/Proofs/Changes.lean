import Verif.Spec.Changes
import Verif.Proofs.Tables
/-! The tokens of a change of data (Spec/Changes) are a sentence of the grammar, and its AST stands for the change. -/
namespace SqlParse
variable {o : Opts} {e : Env}

theorem words_reads {tbl : List (Keyword × Kind)} {fl : List Kind} {toks : List Token} (h : SpellsWords tbl fl toks) :
    ∀ ts : List Tk, ts.map (·.1) = toks →
    ∃ l, EachOf MeansWord fl l ∧ ∀ r, Next (fun t => tbl.lookup t.kw = none) r → Flags tbl (ts ++ r) l r := by
  induction h with
  | nil =>
    intro ts hts
    toks hts
    subst hts
    exact ⟨[], .nil, fun r hr => .nil hr⟩
  | cons h hl ih =>
    intro ts hts
    toks hts
    obtain ⟨⟨t, sp⟩, ts, rfl, rfl, hts⟩ := hts
    obtain ⟨l, m, g⟩ := ih ts hts
    exact ⟨_, .cons (.mk (sp := sp)) m, fun r hr => .cons h (g r hr)⟩

theorem kw_eq_of_isKw {t : Token} {k : Keyword} (h : t.isKw k = true) : t.kw = k := by
  cases t <;> simp [Token.isKw] at h
  simp [Token.kw, h]

/-- A name is not in a table of reserved words. -/
theorem name_lookup {v : List Char} {t : Token} (h : SpellsName o v t) {tbl : List (Keyword × Kind)} (ht : ∀ p ∈ tbl, p.1.reserved = true) :
    tbl.lookup t.kw = none := by
  rw [List.lookup_eq_none_iff]
  intro p hp
  have : t.kw.reserved = false := by
    cases h with
    | word h => exact h
    | quoted => show Keyword.NOT_A_KEYWORD.reserved = false; decide +kernel
  simp only [bne_iff_ne, ne_eq]
  intro hk
  rw [hk, ht p hp] at this
  cases this

theorem name_next {v : List Char} {t : Token} (h : SpellsName o v t) (k : Keyword) (hk : k.reserved = true) : t.isKw k = false := by
  cases h with
  | word h =>
    simp only [Token.isKw, decide_eq_false_iff_not]
    rintro rfl
    rw [hk] at h; cases h
  | quoted => rfl

theorem begins_next {toks : List Token} {P : Token → Prop} (h : ∃ t us, toks = t :: us ∧ P t) (ts r : List Tk) (hts : ts.map (·.1) = toks) :
    Next P (ts ++ r) := by
  obtain ⟨t, us, rfl, hP⟩ := h
  obtain ⟨⟨t', s⟩, ts, rfl, rfl, -⟩ := List.map_eq_cons_iff.1 hts
  exact hP

theorem commas_begins {α : Type} {R : α → List Token → Prop} {P : Token → Prop} (hR : ∀ x toks, R x toks → ∃ t us, toks = t :: us ∧ P t) {l : List α}
    {toks : List Token} (h : Commas R l toks) : ∃ t us, toks = t :: us ∧ P t := by
  cases h with
  | one h => exact hR _ _ h
  | cons h _ => obtain ⟨t, us, rfl, hP⟩ := hR _ _ h; exact ⟨t, _, rfl, hP⟩

theorem dotted_begins {p : List (List Char)} {n : List Char} {toks : List Token} (h : SpellsDotted o p n toks) :
    ∃ t us, toks = t :: us ∧ ∃ v, SpellsName o v t := by
  cases h with
  | last h => exact ⟨_, _, rfl, _, h⟩
  | dot h _ => exact ⟨_, _, rfl, _, h⟩

theorem tables_begin {tb : Tables} {toks : List Token} (h : SpellsTables o tb toks) : ∃ t us, toks = t :: us ∧ ∃ v, SpellsName o v t := by
  cases h with
  | mk h _ =>
    cases h with
    | mk h _ =>
      obtain ⟨t, us, e, h⟩ := dotted_begins h
      cases e
      exact ⟨_, _, rfl, h⟩

/-- What comes after values: a comma (if `c`), one of the keywords, or the end. -/
theorem operand_reads {x : Expr} {toks : List Token} {ks : List Keyword} {c : Bool} (hks : ∀ k ∈ ks, Ending k) (h : Spells e.opts x toks) (hg : x.Grouped)
    (ts : List Tk) (hts : ts.map (·.1) = toks) : ∃ a, Means x a ∧ ∀ r, ComesNow ks c r → Ex e false (ts ++ r) a r := by
  obtain ⟨a, m, g⟩ := reads_ex (spells_reads h hg ts hts)
  refine ⟨a, m, fun r hr => ?_⟩
  have := ahead_stops (e := e) hr hks
  exact g r this.1 this.2

theorem comma_comes (ks : List Keyword) (sp : Span) (r : List Tk) : ComesNow ks true ((.comma, sp) :: r) :=
  ⟨_, _, _, rfl, .inr (.inl ⟨rfl, rfl⟩), fun h => by simp [Token.isKw] at h⟩

theorem returning_reads {x : Returned} {toks : List Token} (h : SpellsReturning e.opts x toks) (hg : ∀ l ∈ x, ∀ c ∈ l, c.1.Grouped) (ts : List Tk)
    (hts : ts.map (·.1) = toks) : ∃ ob : Option (Span × List Ast), MeansReturned x (toF ob) ∧ (x = none → ob = none) ∧
      ∀ ks r, ComesNow [] false r → .RETURNING ∉ ks → Returning e (ts ++ r) ob r ∧ ComesNow (.RETURNING :: ks) false (ts ++ r) := by
  obtain ⟨ob, m, g⟩ := clause_reads (P := fun sp ts a r => ∃ l, a = (sp, l) ∧ CommaL (SelE e) ts l r) (M := SpanAnd (ListOf MeansColumn))
    (F := ComesNow [] false) (by decide) h (fun x hx toks h sp ts hts => by
      obtain ⟨l, m, g⟩ := commas_reads (P := SelE e) (M := fun x b => MeansColumn x b) (F := fun r => ComesNow [.FROM] true r)
        (fun sp r => comma_comes _ sp r) h (fun c hc toks h ts hts => column_reads h (hg x hx c hc) ts hts) ts hts
      exact ⟨(sp, l), .mk (each_id m), fun r hr => ⟨l, rfl, g r (ahead_mono hr (by simp) (by simp)) (ahead_comma hr)⟩⟩) ts hts
  refine ⟨ob, m, fun hx => ?_, fun ks r hr hk => g ks false r (ahead_mono hr (by simp) id) hk hr⟩
  subst hx
  cases ob with
  | none => rfl
  | some b => cases m

theorem where_reads {x : Option Expr} {toks : List Token} (h : Clause .WHERE (Spells e.opts) x toks) (hg : ∀ y ∈ x, y.Grouped) (ts : List Tk)
    (hts : ts.map (·.1) = toks) : ∃ ob : Option (Ast × Span), Maybe (WithSpan Means) x (toF ob) ∧
      ∀ r, ComesNow [.RETURNING] false r → Where e (ts ++ r) ob r ∧ ComesNow [.WHERE, .RETURNING] false (ts ++ r) := by
  obtain ⟨ob, m, g⟩ := clause_reads (P := ExK e) (M := WithSpan Means) (F := ComesNow [.RETURNING] false) (by decide) h
    (fun x hx toks h sp ts hts => cond_reads (by simp only [Ending]; decide +kernel) h (hg x hx) sp ts hts) ts hts
  exact ⟨ob, m, fun r hr => g _ _ r hr (by decide) hr⟩

/-- The last two clauses. -/
theorem tail_reads {x : Option Expr} {y : Returned} {tw tr : List Token} (hw : Clause .WHERE (Spells e.opts) x tw) (hr : SpellsReturning e.opts y tr)
    (hx : ∀ z ∈ x, z.Grouped) (hy : ∀ l ∈ y, ∀ c ∈ l, c.1.Grouped) (ws rs : List Tk) (hws : ws.map (·.1) = tw) (hrs : rs.map (·.1) = tr) :
    ∃ (w : Option (Ast × Span)) (ret : Option (Span × List Ast)), Maybe (WithSpan Means) x (toF w) ∧ MeansReturned y (toF ret) ∧ (y = none → ret = none) ∧
      ∀ r, ComesNow [] false r → Where e (ws ++ (rs ++ r)) w (rs ++ r) ∧ Returning e (rs ++ r) ret r ∧
        ComesNow [.WHERE, .RETURNING] false (ws ++ (rs ++ r)) := by
  obtain ⟨w, m1, g1⟩ := where_reads hw hx ws hws
  obtain ⟨ret, m2, hn, g2⟩ := returning_reads hr hy rs hrs
  refine ⟨w, ret, m1, m2, hn, fun r hr => ?_⟩
  obtain ⟨k1, k2⟩ := g2 [] r hr (by simp)
  obtain ⟨k3, k4⟩ := g1 _ k2
  exact ⟨k3, k1, k4⟩

theorem tableList_reads {l : List Tables} {toks : List Token} (h : Commas (SpellsTables e.opts) l toks) (hg : ∀ t ∈ l, ∀ x ∈ t.exprs, x.Grouped)
    (ts : List Tk) (hts : ts.map (·.1) = toks) : ∃ tb, EachOf MeansTables l tb ∧
      ∀ r, ComesNow tailWords false r → CommaL (TR e) (ts ++ r) tb r := by
  obtain ⟨tb, m, g⟩ := commas_reads (P := TR e) (M := fun x b => MeansTables x b) (F := fun r => ComesNow tailWords true r)
    (fun sp r => comma_comes _ sp r) h (fun x hx toks h ts hts => tables_reads h (fun j hj y hy => hg x hx y (List.mem_flatMap.2 ⟨j, hj, Option.mem_toList.2 hy⟩)) ts hts) ts hts
  exact ⟨tb, m, fun r hr => g r (ahead_mono hr (fun _ h => h) (by simp)) (ahead_comma hr)⟩

theorem eachOf_append {α β : Type} {M : α → β → Prop} {l l' : List α} {as bs : List β} (h : EachOf M l as) (h' : EachOf M l' bs) :
    EachOf M (l ++ l') (as ++ bs) := by
  induction h with
  | nil => exact h'
  | cons h _ ih => exact .cons h ih

theorem names_each {p : List (List Char)} {ps : List (Ast × Span)} (h : ListOf (WithSpan MeansName) p (toF ps)) : EachOf MeansName p (ps.map Prod.fst) := by
  have h' : ListOf (WithSpan MeansName) p (.list (ps.map toF)) := h
  cases h' with
  | mk h =>
    induction ps generalizing p with
    | nil => cases h; exact .nil
    | cons a ps ih =>
      rw [List.map_cons] at h
      cases h with
      | cons h hl =>
        refine .cons ?_ (ih (.mk hl) hl)
        obtain ⟨a, s⟩ := a
        have h : WithSpan MeansName _ (.node .Tuple [toF a, .span s]) := h
        cases h with | mk h => exact h

theorem setting_reads {s : Setting} {toks : List Token} (h : SpellsSetting e.opts s toks) (hg : s.value.Grouped) (ts : List Tk)
    (hts : ts.map (·.1) = toks) : ∃ b : List Ast × Ast, MeansSetting s (toF b) ∧ ∀ r, ComesNow [.WHERE, .RETURNING] true r → USet e (ts ++ r) b r := by
  cases h with
  | mk h hx =>
    toks hts
    obtain ⟨ns, _, rfl, hns, ⟨q, sp⟩, xs, rfl, rfl, hxs⟩ := hts
    obtain ⟨ps, i, h1, h2, h3⟩ := dotted_reads h ns hns
    obtain ⟨a, m, g⟩ := operand_reads (ks := [.WHERE, .RETURNING]) (c := true) (by simp only [Ending]; decide +kernel) hx hg xs hxs
    refine ⟨(ps.map Prod.fst ++ [i], a), ?_, fun r hr => ?_⟩
    · refine .mk ?_ m
      exact each_id (eachOf_append (names_each h1) (.cons h2 .nil))
    · rw [List.append_assoc, List.cons_append]
      exact .mk (h3 _ (by simp [Next])) (g r hr)

theorem pair_reads {p : List Char × Expr} {toks : List Token} (h : SpellsPair e.opts p toks) (hg : p.2.Grouped) (ts : List Tk)
    (hts : ts.map (·.1) = toks) : ∃ b, MeansPair p b ∧ ∀ r, ComesNow [.ON, .RETURNING] true r → SetPair e (ts ++ r) b r := by
  cases h with
  | mk h hx =>
    toks hts
    obtain ⟨⟨t, s⟩, _, rfl, rfl, ⟨q, sp⟩, xs, rfl, rfl, hxs⟩ := hts
    obtain ⟨a, m, g⟩ := operand_reads (ks := [.ON, .RETURNING]) (c := true) (by simp only [Ending]; decide +kernel) hx hg xs hxs
    exact ⟨_, .mk (.mk (sp := s)) m (q := sp), fun r hr => .mk (name_reads h s _) (g r hr)⟩

theorem target_reads {n : List (List Char) × List Char} {toks : List Token} (h : SpellsTarget e.opts n toks) (ts : List Tk) (hts : ts.map (·.1) = toks) :
    ∃ b, MeansTarget n b ∧ ∀ r, Next (· ≠ .period) r → QName e (ts ++ r) b r := by
  cases h with
  | mk h =>
    obtain ⟨ps, i, h1, h2, h3⟩ := dotted_reads h ts hts
    exact ⟨_, .mk h1 h2, fun r hr => .mk (h3 r hr)⟩

theorem targets_reads {l : List (List (List Char) × List Char)} {toks : List Token} (h : Commas (SpellsTarget e.opts) l toks) (ts : List Tk)
    (hts : ts.map (·.1) = toks) : ∃ tb, EachOf MeansTarget l tb ∧ ∀ r, Next (· ≠ .period) r → Next (· ≠ .comma) r → CommaL (QName e) (ts ++ r) tb r :=
  commas_reads (P := QName e) (M := fun x b => MeansTarget x b) (F := fun r => Next (· ≠ .period) r) (fun sp r => by simp [Next]) h
    (fun x hx toks h ts hts => target_reads h ts hts) ts hts

theorem update_reads {u : Update} {toks : List Token} (h : SpellsUpdate e.opts u toks) (hg : ∀ x ∈ (Change.update u).exprs, x.Grouped) (ts : List Tk)
    (hts : ts.map (·.1) = toks) : ∃ a, MeansChange (.update u) a ∧ ∀ r, ComesNow [] false r → Upd e (ts ++ r) a r := by
  cases h with
  | mk h hf ht h' hs hw hr hd =>
    toks hts
    obtain ⟨⟨t, d⟩, _, rfl, rfl, fs, _, rfl, hfs, xs, _, rfl, hxs, ⟨t', s⟩, _, rfl, rfl, ss, _, rfl, hss, ws, rs, rfl, hws, hrs⟩ := hts
    simp only [Change.exprs, List.mem_append] at hg
    obtain ⟨fl', m1, g1⟩ := words_reads hf fs hfs
    obtain ⟨tb', m2, g2⟩ := tableList_reads ht (fun t h x hx => hg x (.inl (List.mem_flatMap.2 ⟨t, h, hx⟩))) xs hxs
    obtain ⟨l', m3, g3⟩ := commas_reads (P := USet e) (M := fun x b => MeansSetting x (toF b)) (F := fun r => ComesNow [.WHERE, .RETURNING] true r)
      (fun sp r => comma_comes _ sp r) hs (fun x hx toks h ts hts => setting_reads h (hg _ (.inr (.inl (List.mem_map_of_mem hx)))) ts hts) ss hss
    obtain ⟨w', r', m4, m5, hn, g4⟩ := tail_reads hw hr (fun z hz => hg z (.inr (.inr (.inl (Option.mem_toList.2 hz)))))
      (fun l hl c hc => hg c.1 (.inr (.inr (.inr (by cases hl; simp [exists_snd hc]))))) ws rs hws hrs
    refine ⟨_, .update (d := d) (s := s) (.mk m1) (.mk m2) (.mk (each_map m3)) m4 m5, fun r hr => ?_⟩
    obtain ⟨k1, k2, k3⟩ := g4 r hr
    have k4 := g3 _ (ahead_mono k3 (fun _ h => h) (by simp)) (ahead_comma k3)
    have k5 := g2 _ (ahead_mono (ahead_kw (sp := s) (r := ss ++ (ws ++ (rs ++ r))) h' (by decide) [] false) (by decide) id)
    have hh : Next (fun t => updateFlagWords.lookup t.kw = none) (xs ++ (t', s) :: (ss ++ (ws ++ (rs ++ r)))) :=
      begins_next (commas_begins (fun x toks h => by
        obtain ⟨t, us, e, v, hv⟩ := tables_begin h
        exact ⟨t, us, e, name_lookup hv (by decide +kernel)⟩) ht) xs _ hxs
    have := Upd.mk (e := e) (d := d) (s := s) h (g1 _ hh) k5 h' k4 k1 k2 (fun h0 => hd fun h1 => h0 (hn h1))
    rw [toF_list, toF_list] at this
    simp only [List.append_assoc, List.cons_append]
    exact this

theorem comes_period {ks : List Keyword} {c : Bool} {r : List Tk} (h : ComesNow ks c r) : Next (· ≠ .period) r := by
  obtain ⟨t, sp, r', rfl, rfl | ⟨-, rfl⟩ | ⟨k', hk', h⟩, -⟩ := h
  · simp [Next]
  · simp [Next]
  · rintro rfl; simp [Token.isKw] at h

theorem using_getD {u : Option (List Tables)} {b : Option (List Ast)} (h : Maybe (ListOf MeansTables) u (toF b)) :
    ListOf MeansTables (u.getD []) (toF (b.getD [])) := by
  cases b with
  | none => cases h; exact .mk .nil
  | some b => cases h with | some h => exact h

theorem deletion_reads {d : Deletion} {toks : List Token} (h : SpellsDeletion e.opts d toks) (hg : ∀ x ∈ (Change.delete d).exprs, x.Grouped)
    (ts : List Tk) (hts : ts.map (·.1) = toks) : ∃ a, MeansChange (.delete d) a ∧ ∀ r, ComesNow [] false r → Del e (ts ++ r) a r := by
  cases h with
  | «from» h hf h' hn hu hw hr =>
    rename_i u _ _ _ _ _ _ _ _ _
    toks hts
    obtain ⟨⟨t, d⟩, _, rfl, rfl, fs, _, rfl, hfs, ⟨t', s⟩, _, rfl, rfl, ns, _, rfl, hns, us, _, rfl, hus, ws, rs, rfl, hws, hrs⟩ := hts
    simp only [Change.exprs, List.mem_append] at hg
    obtain ⟨fl', m1, g1⟩ := words_reads hf fs hfs
    obtain ⟨n', m2, g2⟩ := targets_reads (e := e) hn ns hns
    obtain ⟨u', m3, g3⟩ := clause_reads (P := fun _ => CommaL (TR e)) (M := ListOf MeansTables) (F := ComesNow [.WHERE, .RETURNING] false) (by decide) hu
      (fun x hx toks h sp ts hts => by
        obtain ⟨l, m, g⟩ := tableList_reads h (fun t h x hx' => hg x (.inl (List.mem_flatMap.2 ⟨t, by cases hx; exact h, hx'⟩))) ts hts
        exact ⟨l, each_id m, fun r hr => g r (ahead_mono hr (by decide) id)⟩) us hus
    obtain ⟨w', r', m4, m5, -, g4⟩ := tail_reads hw hr (fun z hz => hg z (.inr (.inl (Option.mem_toList.2 hz))))
      (fun l hl c hc => hg c.1 (.inr (.inr (by cases hl; simp [exists_snd hc])))) ws rs hws hrs
    refine ⟨_, .delete (d := d) (f := s) (.mk m1) (.mk m2) (using_getD m3) m4 m5, fun r hr => ?_⟩
    obtain ⟨k1, k2, k3⟩ := g4 r hr
    obtain ⟨k4, k5⟩ := g3 _ _ _ k3 (by decide) k3
    have hh : Next (fun t => deleteFlagWords.lookup t.kw = none) ((t', s) :: (ns ++ (us ++ (ws ++ (rs ++ r))))) := by
      show deleteFlagWords.lookup t'.kw = none
      rw [kw_eq_of_isKw h']; decide +kernel
    have := Del.from (e := e) (d := d) (f := s) h (g1 _ hh) h' (g2 _ (comes_period k5) (ahead_comma k5)) k4 k1 k2
    rw [toF_list, toF_list] at this
    simp only [List.append_assoc, List.cons_append]
    exact this
  | multi h hf hn hq h' hu hw hr =>
    toks hts
    obtain ⟨⟨t, d⟩, _, rfl, rfl, fs, _, rfl, hfs, ns, _, rfl, hns, ⟨t', s⟩, _, rfl, rfl, us, _, rfl, hus, ws, rs, rfl, hws, hrs⟩ := hts
    simp only [Change.exprs, List.mem_append] at hg
    obtain ⟨fl', m1, g1⟩ := words_reads hf fs hfs
    obtain ⟨n', m2, g2⟩ := targets_reads (e := e) hn ns hns
    obtain ⟨u', m3, g3⟩ := tableList_reads hu (fun t h x hx => hg x (.inl (List.mem_flatMap.2 ⟨t, h, hx⟩))) us hus
    obtain ⟨w', r', m4, m5, -, g4⟩ := tail_reads hw hr (fun z hz => hg z (.inr (.inl (Option.mem_toList.2 hz))))
      (fun l hl c hc => hg c.1 (.inr (.inr (by cases hl; simp [exists_snd hc])))) ws rs hws hrs
    refine ⟨_, .delete (d := d) (f := s) (.mk m1) (.mk m2) (.mk m3) m4 m5, fun r hr => ?_⟩
    obtain ⟨k1, k2, k3⟩ := g4 r hr
    have hc : ComesNow [.FROM] false ((t', s) :: (us ++ (ws ++ (rs ++ r)))) := ahead_kw h' (by decide) [] false
    have hh : Next (fun t => deleteFlagWords.lookup t.kw = none) (ns ++ (t', s) :: (us ++ (ws ++ (rs ++ r)))) := by
      obtain ⟨t, l, e, -⟩ := commas_begins (P := fun _ => True) (fun x toks h => by
        cases h with | mk h => obtain ⟨t, us, e, -⟩ := dotted_begins h; exact ⟨t, us, e, trivial⟩) hn
      exact begins_next ⟨t, l, e, hq t (by rw [e]; rfl)⟩ ns _ hns
    have := Del.multi (e := e) (d := d) (f := s) h (g1 _ hh) (g2 _ (comes_period hc) (ahead_comma hc)) h' (g3 _ (ahead_mono k3 (by decide) id))
      (ahead_not k3 (by decide)) k1 k2
    rw [toF_list, toF_list, toF_list] at this
    simp only [List.append_assoc, List.cons_append]
    exact this

theorem row_reads {l : List Expr} {toks : List Token} (h : SpellsRow e.opts l toks) (hg : ∀ x ∈ l, x.Grouped) (ts : List Tk) (hts : ts.map (·.1) = toks) :
    ∃ b : List Ast, ListOf Means l (toF b) ∧ ∀ r, Paren (Ex e false) (ts ++ r) b r := by
  cases h with
  | mk h =>
    toks hts
    obtain ⟨⟨_, lp⟩, _, rfl, rfl, xs, _, rfl, hxs, ⟨_, rp⟩, _, rfl, rfl, rfl⟩ := hts
    obtain ⟨bs, m, g⟩ := commas_reads (P := Ex e false) (M := fun x a => Means x a) (F := fun r => Stops e false r ∧ AfterOd r)
      (fun sp r => ⟨stops_comma, follow_comma⟩) h (fun x hx toks h ts hts => by
        obtain ⟨a, m, g⟩ := reads_ex (spells_reads h (hg x hx) ts hts)
        exact ⟨a, m, fun r hr => g r hr.1 hr.2⟩) xs hxs
    refine ⟨bs, each_id m, fun r => ?_⟩
    simp only [List.append_assoc, List.cons_append, List.nil_append]
    exact .mk (rp := rp) (g _ ⟨stops_paren, follow_paren⟩ (by simp [Next]))

theorem assigned_reads {p : List Char × Expr} {toks : List Token} (h : SpellsPair e.opts p toks) (hg : p.2.Grouped) (ts : List Tk)
    (hts : ts.map (·.1) = toks) : ∃ b : Ast × Ast, MeansAssigned p (toF b) ∧ ∀ r, ComesNow [.WHERE, .RETURNING] true r → Assign e (ts ++ r) b r := by
  cases h with
  | mk h hx =>
    toks hts
    obtain ⟨⟨t, s⟩, _, rfl, rfl, ⟨q, sp⟩, xs, rfl, rfl, hxs⟩ := hts
    obtain ⟨a, m, g⟩ := operand_reads (ks := [.WHERE, .RETURNING]) (c := true) (by simp only [Ending]; decide +kernel) hx hg xs hxs
    exact ⟨(_, a), .mk (.mk (sp := s)) m, fun r hr => .mk (q := sp) (name_reads h s _) (g r hr)⟩

theorem pairs_reads {l : List (List Char × Expr)} {toks : List Token} (h : Commas (SpellsPair e.opts) l toks) (hg : ∀ p ∈ l, p.2.Grouped) (ts : List Tk)
    (hts : ts.map (·.1) = toks) : ∃ bs, EachOf MeansPair l bs ∧ ∀ r, ComesNow [.ON, .RETURNING] false r → CommaL (SetPair e) (ts ++ r) bs r := by
  obtain ⟨bs, m, g⟩ := commas_reads (P := SetPair e) (M := fun x a => MeansPair x a) (F := fun r => ComesNow [.ON, .RETURNING] true r)
    (fun sp r => comma_comes _ sp r) h (fun x hx toks h ts hts => pair_reads h (hg x hx) ts hts) ts hts
  exact ⟨bs, m, fun r hr => g r (ahead_mono hr (fun _ h => h) (by simp)) (ahead_comma hr)⟩

theorem isKws_begins {k : Keyword} {ks : List Keyword} {toks : List Token} (h : IsKws (k :: ks) toks) : ∃ t us, toks = t :: us ∧ t.isKw k = true := by
  cases h with | cons h _ => exact ⟨_, _, rfl, h⟩

theorem conflict_reads {c : Conflict} {toks : List Token} (h : SpellsConflict e.opts c toks) (ts : List Tk) (hts : ts.map (·.1) = toks) :
    ∃ b : OAst, MeansConflict c (toF b) ∧ ∀ r, Next (fun t => t.isKw .DO = true) r → ConflictTarget e (ts ++ r) b r := by
  cases h with
  | any =>
    toks hts
    subst hts
    refine ⟨_, .any, fun r hr => .none ?_⟩
    cases r with
    | nil => exact hr
    | cons p r =>
      have hr : p.1.isKw .DO = true := hr
      exact ⟨by intro h; rw [h] at hr; simp [Token.isKw] at hr, isKw_other hr (by decide)⟩
  | cols h =>
    toks hts
    obtain ⟨⟨_, lp⟩, _, rfl, rfl, xs, _, rfl, hxs, ⟨_, rp⟩, _, rfl, rfl, rfl⟩ := hts
    obtain ⟨bs, m, g⟩ := commas_reads (P := Idn e) (M := fun x a => MeansName x a) (F := fun _ => True) (fun sp r => trivial) h (fun x hx toks h ts hts => by
      cases h with
      | mk h =>
        toks hts
        obtain ⟨⟨t, s⟩, _, rfl, rfl, rfl⟩ := hts
        exact ⟨_, .mk (sp := s), fun r _ => name_reads h s r⟩) xs hxs
    refine ⟨_, .cols (each_id m), fun r _ => ?_⟩
    simp only [List.append_assoc, List.cons_append, List.nil_append]
    exact .cols (.mk (rp := rp) (g _ trivial (by simp [Next])))
  | constraint h hn =>
    toks hts
    obtain ⟨ws, _, rfl, hws, ⟨t, s⟩, _, rfl, rfl, rfl⟩ := hts
    obtain ⟨sp, g⟩ := kws_reads h ws hws (by simp)
    refine ⟨_, .constraint (s := sp) (.mk (sp := s)), fun r _ => ?_⟩
    rw [List.append_assoc]
    exact .constraint (g _) (name_reads hn s r)

theorem where_flip {w : Option Expr} {b : Option (Ast × Span)} (h : Maybe (WithSpan Means) w (toF b)) :
    Maybe (SpanAnd Means) w (toF (b.map fun p => (p.2, p.1))) := by
  cases b with
  | none => cases h; exact .none
  | some b =>
    obtain ⟨a, s⟩ := b
    have h : Maybe (WithSpan Means) w (.some (.node .Tuple [toF a, .span s])) := h
    cases h with | some h => cases h with | mk h => exact .some (.mk h)

theorem on_comes {ks : List Keyword} {toks : List Token} (h : IsKws (.ON :: ks) toks) (ts : List Tk) (hts : ts.map (·.1) = toks) (r : List Tk) :
    ComesNow [.ON, .RETURNING] false (ts ++ r) := by
  cases h with
  | cons h _ =>
    obtain ⟨⟨t, s⟩, ts, rfl, rfl, -⟩ := List.map_eq_cons_iff.1 hts
    exact ahead_kw h (by decide) _ _

theorem clash_reads {c : Clash} {toks : List Token} (h : SpellsClash e.opts c toks) (hg : ∀ x ∈ c.exprs, x.Grouped) (ts : List Tk)
    (hts : ts.map (·.1) = toks) : ∃ b : Option Ast × Option Ast, MeansClash c (toF b.1) (toF b.2) ∧ ∀ r, ComesNow [.RETURNING] false r →
      InsOn e (ts ++ r) b r ∧ ComesNow [.ON, .RETURNING] false (ts ++ r) := by
  cases h with
  | none =>
    toks hts
    subst hts
    exact ⟨(none, none), .none, fun r hr => ⟨.none (ahead_not hr (by decide)), ahead_mono hr (by simp) id⟩⟩
  | duplicate hd h hl =>
    toks hts
    obtain ⟨ws, xs, rfl, hws, hxs⟩ := hts
    obtain ⟨sp, g⟩ := kws_reads h ws hws (by simp)
    obtain ⟨bs, m, g'⟩ := pairs_reads hl (fun p hp => hg _ (List.mem_map_of_mem hp)) xs hxs
    refine ⟨(some (nd% InsertReplaceOnDuplicateKeyUpdate [sp, bs]), none), .duplicate (s := sp) (each_id m), fun r hr => ?_⟩
    rw [List.append_assoc]
    exact ⟨.dup hd (g _) (g' r (ahead_mono hr (by simp) id)), on_comes h ws hws _⟩
  | nothing hd h hc h' =>
    toks hts
    obtain ⟨ws, _, rfl, hws, cs, ds, rfl, hcs, hds⟩ := hts
    obtain ⟨sp, g⟩ := kws_reads h ws hws (by simp)
    obtain ⟨c', m, g1⟩ := conflict_reads hc cs hcs
    obtain ⟨sp', g2⟩ := kws_reads h' ds hds (by simp)
    refine ⟨(none, some (nd% OnConflict [sp, c', nd% OnConflictAction_DoNothing [sp']])), .nothing (s := sp) (d := sp') m, fun r hr => ?_⟩
    rw [List.append_assoc, List.append_assoc]
    exact ⟨.conflict hd (g _) (g1 _ (begins_next (isKws_begins h') ds r hds)) (.nothing (g2 r)), on_comes h ws hws _⟩
  | update hd h hc h' hl hw =>
    toks hts
    obtain ⟨ws, _, rfl, hws, cs, _, rfl, hcs, ds, _, rfl, hds, xs, us, rfl, hxs, hus⟩ := hts
    simp only [Clash.exprs, List.mem_append] at hg
    obtain ⟨sp, g⟩ := kws_reads h ws hws (by simp)
    obtain ⟨c', m, g1⟩ := conflict_reads hc cs hcs
    obtain ⟨sp', g2⟩ := kws_reads h' ds hds (by simp)
    obtain ⟨bs, m3, g3⟩ := commas_reads (P := Assign e) (M := fun x (a : Ast × Ast) => MeansAssigned x (toF a)) (F := fun r => ComesNow [.WHERE, .RETURNING] true r)
      (fun sp r => comma_comes _ sp r) hl (fun x hx toks h ts hts => assigned_reads h (hg _ (.inl (List.mem_map_of_mem hx))) ts hts) xs hxs
    obtain ⟨w', m4, g4⟩ := where_reads hw (fun z hz => hg z (.inr (Option.mem_toList.2 hz))) us hus
    refine ⟨(none, some (nd% OnConflict [sp, c', nd% OnConflictAction_DoUpdateSet [sp', bs, w'.map fun p => (p.2, p.1)]])),
      .update (s := sp) (d := sp') m (.mk (each_map m3)) (where_flip m4), fun r hr => ?_⟩
    obtain ⟨k1, k2⟩ := g4 r hr
    simp only [List.append_assoc]
    exact ⟨.conflict hd (g _) (g1 _ (begins_next (isKws_begins h') ds _ hds))
      (.update (g2 _) (g3 _ (ahead_mono k2 (fun _ h => h) (by simp)) (ahead_comma k2)) k1), on_comes h ws hws _⟩

theorem inserted_reads {cols : List (List Char)} {cols' : List Ast} {s : Source} {c : Clash} {y : Returned} {toks : List Token}
    (h : SpellsSource e.opts cols s c y toks) (hc' : cols = [] → cols' = []) (hg : ∀ x ∈ s.exprs, x.Grouped) (hk : ∀ x ∈ c.exprs, x.Grouped)
    (hy : ∀ l ∈ y, ∀ c ∈ l, c.1.Grouped) (ts : List Tk) (hts : ts.map (·.1) = toks) :
    ∃ (b : Option (Span × List (List Ast)) × Option Ast × Option Ast) (on : Option Ast × Option Ast) (ret : Option (Span × List Ast)),
      MeansSource s (toF b.1) (toF b.2.1) (toF b.2.2) ∧ MeansClash c (toF on.1) (toF on.2) ∧ MeansReturned y (toF ret) ∧
      ∀ r, ComesNow [] false r → ∃ r1 r2, InsBody e cols' (ts ++ r) b r1 ∧ InsOn e r1 on r2 ∧ Returning e r2 ret r := by
  cases h with
  | values h hl ho hr =>
    toks hts
    obtain ⟨⟨t, s⟩, _, rfl, rfl, xs, _, rfl, hxs, os, rs, rfl, hos, hrs⟩ := hts
    obtain ⟨ret, m2, -, g2⟩ := returning_reads hr hy rs hrs
    obtain ⟨on, m3, g3⟩ := clash_reads ho hk os hos
    obtain ⟨bs, m1, g1⟩ := commas_reads (P := Paren (Ex e false)) (M := fun x a => ListOf Means x (toF a)) (F := fun _ => True)
      (fun sp r => trivial) hl (fun x hx toks h ts hts => by
        obtain ⟨a, m, g⟩ := row_reads h (fun y hy => hg y (List.mem_flatten.2 ⟨x, hx, hy⟩)) ts hts
        exact ⟨a, m, fun r _ => g r⟩) xs hxs
    refine ⟨(some (s, bs), none, none), on, ret, .values (.mk (.mk (each_map m1)) (sp := s)), m3, m2, fun r hr => ?_⟩
    obtain ⟨k1, k2⟩ := g2 [] r hr (by simp)
    obtain ⟨k3, k4⟩ := g3 _ k2
    refine ⟨os ++ (rs ++ r), rs ++ r, ?_, k3, k1⟩
    simp only [List.cons_append, List.append_assoc]
    exact .values h (g1 _ trivial (ahead_comma k4))
  | query h =>
    obtain ⟨a, m, g⟩ := query_reads h hg ts hts
    exact ⟨(none, some a, none), (none, none), none, .query m, .none, .none, fun r hr =>
      ⟨r, r, .select (g r hr), .none (ahead_not hr (by simp)), .none (ahead_not hr (by simp))⟩⟩
  | set hc h hl ho hr =>
    toks hts
    obtain ⟨⟨t, s⟩, _, rfl, rfl, xs, _, rfl, hxs, os, rs, rfl, hos, hrs⟩ := hts
    obtain ⟨ret, m2, -, g2⟩ := returning_reads hr hy rs hrs
    obtain ⟨on, m3, g3⟩ := clash_reads ho hk os hos
    obtain ⟨bs, m1, g1⟩ := pairs_reads hl (fun p hp => hg _ (List.mem_map_of_mem hp)) xs hxs
    refine ⟨(none, none, some (nd% InsertReplaceSet [s, bs])), on, ret, .set (s := s) (each_id m1), m3, m2, fun r hr => ?_⟩
    obtain ⟨k1, k2⟩ := g2 [] r hr (by simp)
    obtain ⟨k3, k4⟩ := g3 _ k2
    refine ⟨os ++ (rs ++ r), rs ++ r, ?_, k3, k1⟩
    simp only [List.cons_append, List.append_assoc]
    exact .set (hc' hc) h (g1 _ k4)

theorem cols_of_insert {cols : List (List Char)} {toks : List Token} (h : SpellsNames e.opts cols toks) (ts : List Tk) (hts : ts.map (·.1) = toks) :
    ∃ l, EachOf MeansName cols l ∧ ∀ r, Next (· ≠ .lParen) r → Next (· ≠ .period) r → InsCols e (ts ++ r) l r ∧ Next (· ≠ .period) (ts ++ r) := by
  cases h with
  | none =>
    toks hts
    subst hts
    exact ⟨[], .nil, fun r hr hp => ⟨.none hr, hp⟩⟩
  | some h =>
    toks hts
    obtain ⟨⟨_, lp⟩, _, rfl, rfl, xs, _, rfl, hxs, ⟨_, rp⟩, _, rfl, rfl, rfl⟩ := hts
    obtain ⟨bs, m, g⟩ := commas_reads (P := Idn e) (M := fun x a => MeansName x a) (F := fun _ => True) (fun sp r => trivial) h (fun x hx toks h ts hts => by
      cases h with
      | mk h =>
        toks hts
        obtain ⟨⟨t, s⟩, _, rfl, rfl, rfl⟩ := hts
        exact ⟨_, .mk (sp := s), fun r _ => name_reads h s r⟩) xs hxs
    refine ⟨bs, m, fun r _ _ => ⟨?_, by simp [Next]⟩⟩
    simp only [List.append_assoc, List.cons_append, List.nil_append]
    exact .some (.mk (rp := rp) (g _ trivial (by simp [Next])))

theorem source_begins {cols : List (List Char)} {s : Source} {c : Clash} {y : Returned} {toks : List Token} (h : SpellsSource o cols s c y toks) :
    ∃ t us, toks = t :: us ∧ t ≠ .lParen ∧ t ≠ .period := by
  have hk : ∀ {t : Token} {k : Keyword}, t.isKw k = true → t ≠ .lParen ∧ t ≠ .period := fun h => by
    constructor <;> (rintro rfl; simp [Token.isKw] at h)
  cases h with
  | values h _ _ _ => exact ⟨_, _, rfl, h.elim hk hk⟩
  | query h => cases h with | mk h _ _ _ _ => exact ⟨_, _, rfl, hk h⟩
  | set _ h _ _ _ => exact ⟨_, _, rfl, hk h⟩

theorem insertion_reads {i : Insertion} {toks : List Token} (h : SpellsInsertion e.opts i toks) (hg : ∀ x ∈ (Change.insert i).exprs, x.Grouped)
    (ts : List Tk) (hts : ts.map (·.1) = toks) : ∃ a, MeansChange (.insert i) a ∧ ∀ r, ComesNow [] false r → Ins e (ts ++ r) a r := by
  cases h with
  | mk h hf hr hi hn hc hs =>
    toks hts
    obtain ⟨⟨t, s⟩, _, rfl, rfl, fs, _, rfl, hfs, is, _, rfl, his, ns, _, rfl, hns, cs, ss, rfl, hcs, hss⟩ := hts
    simp only [Change.exprs, List.mem_append] at hg
    obtain ⟨fl', m1, g1⟩ := words_reads hf fs hfs
    obtain ⟨n', m2, g2⟩ := target_reads (e := e) (.mk hn) ns hns
    obtain ⟨c', m3, g3⟩ := cols_of_insert hc cs hcs
    obtain ⟨b, on, ret, m4, m7, m5, g4⟩ := inserted_reads (e := e) (cols' := c') hs (fun h => by subst h; cases m3; rfl) (fun x hx => hg x (.inl hx))
      (fun x hx => hg x (.inr (.inl hx))) (fun l hl c hc => hg c.1 (.inr (.inr (by cases hl; simp [exists_snd hc])))) ss hss
    have hns' : ∀ r, Next (fun t => insertFlagWords.lookup t.kw = none ∧ t.isKw .INTO = false) (ns ++ r) := fun r =>
      begins_next (by
        obtain ⟨t, us, e, v, hv⟩ := dotted_begins hn
        exact ⟨t, us, e, name_lookup hv (by decide +kernel), name_next hv .INTO (by decide +kernel)⟩) ns r hns
    have hi' : ∃ i' : Option Span, SpanOpt (toF i') ∧ ∀ r, OptK .INTO (is ++ (ns ++ r)) i' (ns ++ r) ∧
        Next (fun t => insertFlagWords.lookup t.kw = none) (is ++ (ns ++ r)) := by
      cases hi with
      | no =>
        toks his
        subst his
        refine ⟨none, .none, fun r => ⟨.none ?_, ?_⟩⟩
        · have := hns' r
          rw [List.nil_append]
          cases hx : ns ++ r with
          | nil => rw [hx] at this; exact this
          | cons p l => rw [hx] at this; exact this.2
        · have := hns' r
          rw [List.nil_append]
          cases hx : ns ++ r with
          | nil => rw [hx] at this; exact this
          | cons p l => rw [hx] at this; exact this.1
      | yes h =>
        toks his
        obtain ⟨⟨t', s'⟩, _, rfl, rfl, rfl⟩ := his
        refine ⟨some s', .some, fun r => ⟨.some h, ?_⟩⟩
        show insertFlagWords.lookup t'.kw = none
        rw [kw_eq_of_isKw h]; decide +kernel
    obtain ⟨i', m6, g6⟩ := hi'
    refine ⟨_, .insert (.mk (sp := s)) (.mk m1) m6 m2 (.mk m3) m4 m7 m5, fun r hr' => ?_⟩
    obtain ⟨r1, r2, k1, k2, k3⟩ := g4 r hr'
    obtain ⟨t0, us0, e0, q1, q2⟩ := source_begins hs
    obtain ⟨k4, k5⟩ := g3 (ss ++ r) (begins_next ⟨t0, us0, e0, q1⟩ ss r hss) (begins_next ⟨t0, us0, e0, q2⟩ ss r hss)
    obtain ⟨k6, k7⟩ := g6 (cs ++ (ss ++ r))
    have := Ins.mk (e := e) (sp := s) h (g1 _ k7) (fun hR f hf' s' => by
      have hK : t.kw = .REPLACE := kw_eq_of_isKw hR
      simp only at h
      rw [hK] at h
      cases h
      obtain ⟨n1, n2⟩ := hr rfl
      have hm : ∀ {l : List Kind} {as : List Ast}, EachOf MeansWord l as → ∀ a ∈ as, ∃ k ∈ l, MeansWord k a := by
        intro l as h
        induction h with
        | nil => simp
        | cons h _ ih =>
          intro a ha
          rcases List.mem_cons.1 ha with rfl | ha
          · exact ⟨_, by simp, h⟩
          · obtain ⟨k, hk, h'⟩ := ih a ha; exact ⟨k, List.mem_cons_of_mem _ hk, h'⟩
      obtain ⟨k, hk, hw⟩ := hm m1 f hf'
      cases hw
      constructor
      · intro h'; cases h'; exact n1 hk
      · intro h'; cases h'; exact n2 hk) k6 (g2 _ k5) k4 k1 k2 k3
    rw [toF_list, toF_list] at this
    simp only [List.append_assoc, List.cons_append]
    exact this

theorem change_reads {c : Change} {toks : List Token} (h : SpellsChange e.opts c toks) (hg : ∀ x ∈ c.exprs, x.Grouped) (ts : List Tk)
    (hts : ts.map (·.1) = toks) : ∃ a, MeansChange c a ∧ ∀ sp, Stm e (ts ++ [(.eof, sp)]) ⟨a⟩ [(.eof, sp)] := by
  have hr : ∀ sp, ComesNow [] false [(.eof, sp)] := fun sp => ⟨.eof, _, [], rfl, .inl rfl, fun h => by simp [Token.isKw] at h⟩
  cases c with
  | insert i =>
    obtain ⟨a, m, g⟩ := insertion_reads h hg ts hts
    exact ⟨a, m, fun sp => .insert (g _ (hr sp))⟩
  | update u =>
    obtain ⟨a, m, g⟩ := update_reads h hg ts hts
    exact ⟨a, m, fun sp => .update (g _ (hr sp))⟩
  | delete d =>
    obtain ⟨a, m, g⟩ := deletion_reads h hg ts hts
    exact ⟨a, m, fun sp => .delete (g _ (hr sp))⟩

end SqlParse
