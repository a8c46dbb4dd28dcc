import Verif.Spec.Views
import Verif.Proofs.Alterations
/-! The tokens of a CREATE VIEW (Spec/Views) are a sentence of the grammar, and its AST stands for the view. -/
namespace SqlParse
variable {o : Opts} {e : Env}

theorem viewCreate_reads {l : List Kind} {toks : List Token} (h : Row SpellsCreate l toks) : ∀ ts : List Tk, ts.map (·.1) = toks →
    ∃ as, EachOf MeansWord l as ∧ ∀ t sp r, t.isKw .VIEW = true → CrOpts e (ts ++ (t, sp) :: r) as ((t, sp) :: r) := by
  induction h with
  | nil =>
    intro ts hts
    toks hts
    subst hts
    exact ⟨[], .nil, fun t sp r ht => .nil ⟨_, by simp, ht⟩⟩
  | cons h hl ih =>
    intro ts hts
    toks hts
    obtain ⟨xs, ys, rfl, hx, hy⟩ := hts
    obtain ⟨as, m, g⟩ := ih ys hy
    cases h with
    | mk hm hw =>
      simp only [createPhrases, List.mem_cons, List.not_mem_nil, or_false, Prod.mk.injEq] at hm
      rcases hm with ⟨rfl, rfl⟩ | ⟨rfl, rfl⟩
      · obtain ⟨sp, k⟩ := kws_reads hw xs hx (by simp)
        refine ⟨_, .cons (.mk (sp := sp)) m, fun t s r ht => ?_⟩
        rw [List.append_assoc]
        exact .orReplace (k _) (g t s r ht)
      · obtain ⟨sp, k⟩ := kws_reads hw xs hx (by simp)
        refine ⟨_, .cons (.mk (sp := sp)) m, fun t s r ht => ?_⟩
        rw [List.append_assoc]
        exact .temporary (k _) (g t s r ht)

theorem view_reads {d : ViewDef} {toks : List Token} (h : SpellsView e.opts d toks) (hg : ∀ x ∈ d.query.exprs, x.Grouped) (ts : List Tk)
    (hts : ts.map (·.1) = toks) : ∃ a, MeansView d a ∧ ∀ sp, Stm e (ts ++ [(.eof, sp)]) ⟨a⟩ [(.eof, sp)] := by
  cases h with
  | mk hc hx ht hi hn ha hq =>
    toks hts
    obtain ⟨⟨c, s⟩, _, rfl, rfl, xs, _, rfl, hxs, ⟨t, st⟩, _, rfl, rfl, is, _, rfl, his, ns, _, rfl, hns, ⟨a, sa⟩, qs, rfl, rfl, hqs⟩ := hts
    obtain ⟨x, m1, g1⟩ := viewCreate_reads (e := e) hx xs hxs
    obtain ⟨i, m2, -, g2⟩ := ifNotExists_reads hi is his
    obtain ⟨n, m3, g3⟩ := target_reads (e := e) hn ns hns
    obtain ⟨q, m4, g4⟩ := query_reads (e := e) hq hg qs hqs
    refine ⟨_, .mk (c := s) (t := st) (s := sa) (.mk m1) m2 m3 m4, fun sp => ?_⟩
    have hr : ComesNow [] false [((.eof : Token), sp)] := ⟨.eof, _, [], rfl, .inl rfl, fun h => by simp [Token.isKw] at h⟩
    simp only [List.cons_append, List.append_assoc]
    rw [← toF_list]
    exact .create hc (g1 _ _ _ ht) (.view (c := s) (os := x) (s := st) (a := sa) ht
      (g2 _ (named_next (target_begins hn) .IF (by decide +kernel) ns _ hns)) (g3 _ (by rintro rfl; simp [Token.isKw] at ha)) ha
      (.one (.select (g4 _ hr)) rfl))

end SqlParse
