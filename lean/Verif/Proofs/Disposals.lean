import Verif.Spec.Disposals
import Verif.Proofs.Changes
/-! The tokens of a RENAME, TRUNCATE or DROP (Spec/Disposals) are a sentence of the grammar, and its AST stands for what is done. -/
namespace SqlParse
variable {o : Opts} {e : Env}

theorem flag_reads {k : Keyword} {b : Bool} {toks : List Token} (h : SpellsIf [k] b toks) (ts : List Tk) (hts : ts.map (·.1) = toks) :
    ∃ a : Option Span, MeansFlag b (toF a) ∧ ∀ r, NotKw k r → OptK k (ts ++ r) a r := by
  cases h with
  | no =>
    toks hts
    subst hts
    exact ⟨none, .no, fun r hr => .none hr⟩
  | yes h =>
    cases h with
    | cons h hs =>
      cases hs
      toks hts
      obtain ⟨⟨t, s⟩, _, rfl, rfl, rfl⟩ := hts
      exact ⟨some s, .yes, fun r _ => .some h⟩

theorem ifExists_reads {b : Bool} {toks : List Token} (h : SpellsIf [.IF, .EXISTS] b toks) (ts : List Tk) (hts : ts.map (·.1) = toks) :
    ∃ a : Option Span, MeansFlag b (toF a) ∧ ∀ r, NotKw .IF r → OptKws .IF [.EXISTS] (ts ++ r) a r := by
  cases h with
  | no =>
    toks hts
    subst hts
    exact ⟨none, .no, fun r hr => .none hr⟩
  | yes h =>
    obtain ⟨sp, k⟩ := kws_reads h ts hts (by simp)
    exact ⟨some sp, .yes, fun r _ => .some (k r)⟩

theorem flag_opt {b : Bool} {a : Ast} (h : MeansFlag b a) : SpanOpt a := by cases h <;> constructor

theorem target_begins {n : Target} {toks : List Token} (h : SpellsTarget o n toks) : ∃ t us, toks = t :: us ∧ ∃ v, SpellsName o v t := by
  cases h with | mk h => exact dotted_begins h

/-- A name is not a reserved word. -/
theorem named_next {toks : List Token} (h : ∃ t us, toks = t :: us ∧ ∃ v, SpellsName o v t) (k : Keyword) (hk : k.reserved = true) (ts r : List Tk)
    (hts : ts.map (·.1) = toks) : NotKw k (ts ++ r) := by
  obtain ⟨t, us, e, v, hv⟩ := h
  exact begins_next (P := fun t => t.isKw k = false) ⟨t, us, e, name_next hv k hk⟩ ts r hts

theorem renaming_reads {p : Target × Target} {toks : List Token} (h : SpellsRenaming e.opts p toks) (ts : List Tk) (hts : ts.map (·.1) = toks) :
    ∃ b, MeansRenaming p b ∧ ∀ r, Next (· ≠ .period) r → ToTable e (ts ++ r) b r := by
  cases h with
  | mk hn h hm =>
    toks hts
    obtain ⟨xs, _, rfl, hxs, ⟨t, s⟩, us, rfl, rfl, hus⟩ := hts
    obtain ⟨a, m1, g1⟩ := target_reads (e := e) hn xs hxs
    obtain ⟨b, m2, g2⟩ := target_reads (e := e) hm us hus
    refine ⟨_, .mk m1 m2 (s := s), fun r hr => ?_⟩
    rw [List.append_assoc, List.cons_append]
    exact .mk (g1 _ (by rintro rfl; simp [Token.isKw] at h)) h (g2 r hr)

theorem maybe_none {α β : Type} [ToF β] {M : α → Ast → Prop} {x : Option α} {b : Option β} (h : Maybe M x (toF b)) : b = none ↔ x = none := by
  cases b with
  | none => cases h; simp
  | some b => cases h; simp

theorem disposal_reads {d : Disposal} {toks : List Token} (h : SpellsDisposal e.opts d toks) (ts : List Tk) (hts : ts.map (·.1) = toks) :
    ∃ a, MeansDisposal d a ∧ ∀ sp, Stm e (ts ++ [(.eof, sp)]) ⟨a⟩ [(.eof, sp)] := by
  have hp : ∀ sp, Next (· ≠ .period) [((.eof : Token), sp)] := fun sp => by simp [Next]
  have hc : ∀ sp, Next (· ≠ .comma) [((.eof : Token), sp)] := fun sp => by simp [Next]
  have hk : ∀ k sp, NotKw k [((.eof : Token), sp)] := fun k sp => rfl
  cases h with
  | rename h hk' hl =>
    toks hts
    obtain ⟨⟨t, s⟩, _, rfl, rfl, ks, xs, rfl, hks, hxs⟩ := hts
    obtain ⟨k', m1, g1⟩ := flag_reads hk' ks hks
    obtain ⟨l', m2, g2⟩ := commas_reads (P := ToTable e) (M := fun x b => MeansRenaming x b) (F := fun r => Next (· ≠ .period) r) (fun sp r => by simp [Next]) hl
      (fun x hx toks h ts hts => renaming_reads h ts hts) xs hxs
    refine ⟨_, .rename (s := s) (flag_opt m1) (each_id m2), fun sp => ?_⟩
    have hb := commas_begins (P := fun t => ∃ v, SpellsName e.opts v t) (fun x toks h => by
      cases h with | mk hn h hm => obtain ⟨t, us, e, hv⟩ := target_begins hn; subst e; exact ⟨t, _, rfl, hv⟩) hl
    simp only [List.append_assoc, List.cons_append]
    exact .rename (.mk h (g1 _ (named_next hb .TABLE (by decide +kernel) xs _ hxs)) (g2 _ (hp sp) (hc sp)))
  | truncate h hk' hn =>
    toks hts
    obtain ⟨⟨t, s⟩, _, rfl, rfl, ks, xs, rfl, hks, hxs⟩ := hts
    obtain ⟨k', m1, g1⟩ := flag_reads hk' ks hks
    obtain ⟨n', m2, g2⟩ := target_reads (e := e) hn xs hxs
    refine ⟨_, .truncate (s := s) (flag_opt m1) m2, fun sp => ?_⟩
    simp only [List.append_assoc, List.cons_append]
    exact .truncate (.mk h (g1 _ (named_next (target_begins hn) .TABLE (by decide +kernel) xs _ hxs)) (g2 _ (hp sp)))
  | tables h ht h' hi hl hc' hd =>
    toks hts
    obtain ⟨⟨t, d⟩, _, rfl, rfl, as, _, rfl, has, ⟨t', s⟩, _, rfl, rfl, is, _, rfl, his, xs, cs, rfl, hxs, hcs⟩ := hts
    obtain ⟨tmp, m1, g1⟩ := flag_reads ht as has
    obtain ⟨ie, m2, g2⟩ := ifExists_reads hi is his
    obtain ⟨l', m3, g3⟩ := targets_reads (e := e) hl xs hxs
    have hif : ∀ r, NotKw .IF (xs ++ r) := fun r => named_next (commas_begins (P := fun t => ∃ v, SpellsName e.opts v t) (fun x toks h => target_begins h) hl)
      .IF (by decide +kernel) xs r hxs
    cases hc' with
    | no =>
      toks hcs
      subst hcs
      refine ⟨_, .tables (d := d) (s := s) m1 m2 (.mk m3) .no, fun sp => ?_⟩
      have := DropWhat.table (e := e) (d := d) (tmp := tmp) (s := s) h' (g2 _ (hif _)) (g3 _ (hp sp) (hc sp)) (fun _ => hk .CASCADE sp)
      rw [toF_list] at this
      simp only [List.append_assoc, List.cons_append, List.nil_append]
      exact .drop (.mk h (g1 _ (isKw_other h' (by decide))) this)
    | yes hc' =>
      cases hc' with
      | cons h0 hs =>
        cases hs
        toks hcs
        obtain ⟨⟨t0, c⟩, _, rfl, rfl, rfl⟩ := hcs
        refine ⟨_, .tables (d := d) (s := s) m1 m2 (.mk m3) (.yes (sp := c)), fun sp => ?_⟩
        have := DropWhat.tableCascade (e := e) (d := d) (tmp := tmp) (s := s) h' (g2 _ (hif _)) (g3 ((t0, c) :: [(.eof, sp)])
          (by rintro rfl; simp [Token.isKw] at h0) (by rintro rfl; simp [Token.isKw] at h0)) (hd rfl) h0
        rw [toF_list] at this
        simp only [List.append_assoc, List.cons_append, List.nil_append]
        exact .drop (.mk h (g1 _ (isKw_other h' (by decide))) this)
  | views h ht h' hi hl =>
    toks hts
    obtain ⟨⟨t, d⟩, _, rfl, rfl, as, _, rfl, has, ⟨t', s⟩, _, rfl, rfl, is, xs, rfl, his, hxs⟩ := hts
    obtain ⟨tmp, m1, g1⟩ := flag_reads ht as has
    obtain ⟨ie, m2, g2⟩ := ifExists_reads hi is his
    obtain ⟨l', m3, g3⟩ := targets_reads (e := e) hl xs hxs
    have hif : ∀ r, NotKw .IF (xs ++ r) := fun r => named_next (commas_begins (P := fun t => ∃ v, SpellsName e.opts v t) (fun x toks h => target_begins h) hl)
      .IF (by decide +kernel) xs r hxs
    refine ⟨_, .views (d := d) (s := s) m1 m2 (.mk m3), fun sp => ?_⟩
    have := DropWhat.view (e := e) (d := d) (tmp := tmp) (s := s) h' (g2 _ (hif _)) (g3 _ (hp sp) (hc sp))
    rw [toF_list] at this
    simp only [List.append_assoc, List.cons_append]
    exact .drop (.mk h (g1 _ (isKw_other h' (by decide))) this)
  | dotted hK h h' hi hn =>
    rename_i k K ie n t0 t0' is0 ts0
    have hK' : K ∈ dottedThings.map (·.2) := List.mem_map_of_mem (f := (·.2)) hK
    toks hts
    obtain ⟨⟨t, d⟩, _, rfl, rfl, ⟨t', s⟩, _, rfl, rfl, is, xs, rfl, his, hxs⟩ := hts
    obtain ⟨ie, m2, g2⟩ := ifExists_reads hi is his
    obtain ⟨n', m3, g3⟩ := target_reads (e := e) hn xs hxs
    refine ⟨_, .dotted (d := d) (s := s) hK' m2 m3, fun sp => ?_⟩
    have hif := named_next (target_begins hn) .IF (by decide +kernel) xs [(.eof, sp)] hxs
    have hD : DropName (QName e) k ((t', s) :: (is ++ (xs ++ [(.eof, sp)]))) (s, ie, n') [(.eof, sp)] := .mk h' (g2 _ hif) (g3 _ (hp sp))
    have hT : OptK .TEMPORARY ((t', s) :: (is ++ (xs ++ [(.eof, sp)]))) none ((t', s) :: (is ++ (xs ++ [(.eof, sp)]))) :=
      .none (isKw_other h' (by rintro rfl; exact absurd (show Keyword.TEMPORARY ∈ _ from List.mem_map_of_mem (f := (·.1)) hK) (by decide)))
    simp only [List.append_assoc, List.cons_append]
    simp only [dottedThings, List.mem_cons, List.not_mem_nil, or_false, Prod.mk.injEq] at hK
    rcases hK with ⟨rfl, rfl⟩ | ⟨rfl, rfl⟩ | ⟨rfl, rfl⟩ | ⟨rfl, rfl⟩
    · exact .drop (.mk h hT (.event hD))
    · exact .drop (.mk h hT (.function hD))
    · exact .drop (.mk h hT (.procedure hD))
    · exact .drop (.mk h hT (.trigger hD))
  | plain hK h h' hi hn =>
    rename_i k K ie n t0 t0' u0 is0
    have hK' : K ∈ plainThings.map (·.2) := List.mem_map_of_mem (f := (·.2)) hK
    toks hts
    obtain ⟨⟨t, d⟩, _, rfl, rfl, ⟨t', s⟩, _, rfl, rfl, is, _, rfl, his, ⟨u, q⟩, _, rfl, rfl, rfl⟩ := hts
    obtain ⟨ie, m2, g2⟩ := ifExists_reads hi is his
    refine ⟨_, .plain (d := d) (s := s) hK' m2 (.mk (sp := q)), fun sp => ?_⟩
    have hif : NotKw .IF ((u, q) :: [((.eof : Token), sp)]) := name_next hn .IF (by decide +kernel)
    have hD : DropName (Idn e) k ((t', s) :: (is ++ ((u, q) :: [(.eof, sp)]))) (s, ie, _) [(.eof, sp)] := .mk h' (g2 _ hif) (name_reads hn q _)
    have hT : OptK .TEMPORARY ((t', s) :: (is ++ ((u, q) :: [(.eof, sp)]))) none ((t', s) :: (is ++ ((u, q) :: [(.eof, sp)]))) :=
      .none (isKw_other h' (by rintro rfl; exact absurd (show Keyword.TEMPORARY ∈ _ from List.mem_map_of_mem (f := (·.1)) hK) (by decide)))
    simp only [List.append_assoc, List.cons_append, List.nil_append]
    simp only [plainThings, List.mem_cons, List.not_mem_nil, or_false, Prod.mk.injEq] at hK
    rcases hK with ⟨rfl, rfl⟩ | ⟨rfl, rfl⟩ | ⟨rfl, rfl⟩
    · exact .drop (.mk h hT (.database hD))
    · exact .drop (.mk h hT (.schema hD))
    · exact .drop (.mk h hT (.server hD))
  | index h h' hi hn ho h1 h2 =>
    toks hts
    obtain ⟨⟨t, d⟩, _, rfl, rfl, ⟨t', s⟩, _, rfl, rfl, is, _, rfl, his, ⟨u, q⟩, xs, rfl, rfl, hxs⟩ := hts
    obtain ⟨ie, m2, g2⟩ := ifExists_reads hi is his
    obtain ⟨ob, m3, g3⟩ := clause_reads (P := fun sp ts a r => ∃ q, a = (sp, q) ∧ QName e ts q r) (M := SpanAnd MeansTarget) (F := fun r => Next (· ≠ .period) r)
      (by decide) ho (fun x hx toks h sp ts hts => by
        obtain ⟨n', m, g⟩ := target_reads (e := e) h ts hts
        exact ⟨(sp, n'), .mk m, fun r hr => ⟨n', rfl, g r hr⟩⟩) xs hxs
    have hob := maybe_none m3
    refine ⟨_, .index (d := d) (s := s) m2 (.mk (sp := q)) m3, fun sp => ?_⟩
    have hif : NotKw .IF ((u, q) :: (xs ++ [((.eof : Token), sp)])) := name_next hn .IF (by decide +kernel)
    have hD : DropName (Idn e) .INDEX ((t', s) :: (is ++ ((u, q) :: (xs ++ [(.eof, sp)])))) (s, ie, _) (xs ++ [(.eof, sp)]) :=
      .mk h' (g2 _ hif) (name_reads hn q _)
    obtain ⟨k1, -⟩ := g3 [] false [(.eof, sp)] ⟨.eof, sp, [], rfl, .inl rfl, fun h => by simp [Token.isKw] at h⟩ (by simp) (hp sp)
    simp only [List.append_assoc, List.cons_append]
    exact .drop (.mk h (.none (isKw_other h' (by decide))) (.index hD k1 (fun hd h0 => h1 hd (hob.1 h0)) fun hd => hob.2 (h2 hd)))

end SqlParse
