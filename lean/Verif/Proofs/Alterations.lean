import Verif.Spec.Alterations
import Verif.Proofs.Disposals
/-! The tokens of an ALTER TABLE (Spec/Alterations) are a sentence of the grammar, and its AST stands for the changes. -/
namespace SqlParse
variable {o : Opts} {e : Env}

theorem comes_col {r : List Tk} (h : ComesNow [] true r) : ColNext r := by
  obtain ⟨t, sp, r', rfl, h | ⟨-, h⟩ | ⟨k, hk, -⟩, -⟩ := h
  · exact .inr (.inr h)
  · exact .inl h
  · cases hk

theorem dataType_reads {ty : ColType} {ps : List ColProp} {toks : List Token} (h : SpellsDataType e.opts ty ps toks)
    (hg : ∀ x ∈ propExprs ps, x.Grouped) (ts : List Tk) (hts : ts.map (·.1) = toks) :
    ∃ a, MeansDataType (ty, ps) a ∧ ∀ r, ColNext r → DT e false (ts ++ r) a r := by
  cases h with
  | mk ht hp =>
    toks hts
    obtain ⟨xs, ys, rfl, hx, hy⟩ := hts
    obtain ⟨s, a, m1, g1⟩ := type_reads ht xs hx
    obtain ⟨l, m2, g2⟩ := props_reads hp (fun p hp x hx => hg x (List.mem_flatMap.2 ⟨p, hp, Option.mem_toList.2 hx⟩)) ys hy
    refine ⟨_, .mk (sp := s) m1 (.mk m2), fun r hr => ?_⟩
    rw [List.append_assoc, ← toF_list]
    exact .mk (g1 _ (g2 r hr).2) (g2 r hr).1

theorem nameOpt_reads {n : Option (List Char)} {toks : List Token} (h : SpellsNameOpt e.opts n toks) (ts : List Tk) (hts : ts.map (·.1) = toks) :
    ∃ a : Option Ast, Maybe MeansName n (toF a) ∧ ∀ r, Next (fun t => plainWord t = false) r → OptName e (ts ++ r) a r := by
  cases h with
  | none =>
    toks hts
    subst hts
    exact ⟨none, .none, fun r hr => .none hr⟩
  | some h =>
    toks hts
    obtain ⟨⟨t, s⟩, _, rfl, rfl, rfl⟩ := hts
    exact ⟨some _, .some .mk, fun r _ => .some (name_reads h s r)⟩

theorem constraint_reads {c : Option (Option (List Char))} {toks : List Token} (h : Clause .CONSTRAINT (SpellsNameOpt e.opts) c toks) (ts : List Tk)
    (hts : ts.map (·.1) = toks) : ∃ a : Option (Span × Option Ast), Maybe (SpanAnd (Maybe MeansName)) c (toF a) ∧
      ∀ r, Next (fun t => plainWord t = false) r → NotKw .CONSTRAINT r → Constr e (ts ++ r) a r := by
  cases h with
  | none =>
    toks hts
    subst hts
    exact ⟨none, .none, fun r _ hr => .none hr⟩
  | some h hn =>
    toks hts
    obtain ⟨⟨t, s⟩, us, rfl, rfl, hu⟩ := hts
    obtain ⟨a, m, g⟩ := nameOpt_reads hn us hu
    exact ⟨some (s, a), .some (.mk m), fun r hr _ => .some h ⟨a, rfl, g r hr⟩⟩

/-- `[IF NOT EXISTS]` -/
theorem ifNotExists_reads {b : Bool} {toks : List Token} (h : SpellsIfNot b toks) (ts : List Tk) (hts : ts.map (·.1) = toks) :
    ∃ a : Option Span, MeansFlag b (toF a) ∧ (b = false → a = none) ∧ ∀ r, NotKw .IF r → OptKws .IF [.NOT, .EXISTS] (ts ++ r) a r := by
  cases h with
  | no =>
    toks hts
    subst hts
    exact ⟨none, .no, fun _ => rfl, fun r hr => .none hr⟩
  | yes h =>
    obtain ⟨sp, k⟩ := kws_reads h ts hts (by simp)
    exact ⟨some sp, .yes, by simp, fun r _ => .some (k r)⟩

theorem part_reads {p : List Char × Option Nat} {toks : List Token} (h : SpellsPart e.opts p toks) (ts : List Tk) (hts : ts.map (·.1) = toks) :
    ∃ a, MeansPart p a ∧ ∀ r, Next (· ≠ .lParen) r → IdxCol e (ts ++ r) a r := by
  cases h with
  | plain h =>
    toks hts
    obtain ⟨⟨t, s⟩, _, rfl, rfl, rfl⟩ := hts
    exact ⟨_, .mk .mk .none, fun r hr => .plain (name_reads h s r) hr⟩
  | size h hn =>
    toks hts
    obtain ⟨⟨t, s⟩, _, rfl, rfl, ⟨_, lp⟩, _, rfl, rfl, ⟨_, q⟩, _, rfl, rfl, ⟨_, rp⟩, _, rfl, rfl, rfl⟩ := hts
    exact ⟨_, .mk .mk (.some (.mk (sp := q))), fun r hr => .size (name_reads h s _) (.mk (by omega))⟩

theorem parts_reads {l : List (List Char × Option Nat)} {toks : List Token} (h : Commas (SpellsPart e.opts) l toks) (ts : List Tk)
    (hts : ts.map (·.1) = toks) : ∃ as, EachOf MeansPart l as ∧ ∀ lp rp r, Paren (IdxCol e) ((.lParen, lp) :: (ts ++ (.rParen, rp) :: r)) as r := by
  obtain ⟨as, m, g⟩ := commas_reads (P := IdxCol e) (M := MeansPart) (F := fun r => Next (· ≠ .lParen) r) (fun sp r => by simp [Next]) h
    (fun x _ toks h ts hts => part_reads h ts hts) ts hts
  exact ⟨as, m, fun lp rp r => .mk (g _ (by simp [Next]) (by simp [Next]))⟩

theorem refs_reads {l : List (List Char)} {toks : List Token} (h : Commas (SpellsOne e.opts) l toks) (ts : List Tk)
    (hts : ts.map (·.1) = toks) : ∃ as, EachOf MeansName l as ∧ ∀ lp rp r, Paren (Idn e) ((.lParen, lp) :: (ts ++ (.rParen, rp) :: r)) as r := by
  obtain ⟨as, m, g⟩ := commas_reads (P := Idn e) (M := MeansName) (F := fun _ => True) (fun sp r => trivial) h
    (fun x _ toks h ts hts => by
      cases h with
      | mk h =>
        toks hts
        obtain ⟨⟨t, s⟩, _, rfl, rfl, rfl⟩ := hts
        exact ⟨_, .mk, fun r _ => name_reads h s r⟩) ts hts
  exact ⟨as, m, fun lp rp r => .mk (g _ trivial (by simp [Next]))⟩

theorem using_reads {K : Kind} {toks : List Token} (h : SpellsUsing K toks) (ts : List Tk) (hts : ts.map (·.1) = toks) :
    ∃ a, MeansIdxOption (.using K) a ∧ (∀ r, Next (fun t => t.isKw .USING = true) (ts ++ r)) ∧ ∀ r, IdxType (ts ++ r) a r := by
  cases h with
  | mk h h' =>
    toks hts
    obtain ⟨⟨t, s⟩, _, rfl, rfl, ⟨t', s'⟩, _, rfl, rfl, rfl⟩ := hts
    exact ⟨_, .using (sp := s') (lookup_snd h'), fun r => h, fun r => .mk h h'⟩

theorem usingOpt_reads {u : Option Kind} {toks : List Token} (h : SpellsUsingOpt u toks) (ts : List Tk) (hts : ts.map (·.1) = toks) :
    ∃ a : Option Ast, EachOf MeansIdxOption (u.toList.map .using) a.toList ∧ ∀ lp r, OptAt .USING IdxType (ts ++ (.lParen, lp) :: r) a ((.lParen, lp) :: r) ∧
      Next (fun t => plainWord t = false) (ts ++ (.lParen, lp) :: r) ∧ NotKw .IF (ts ++ (.lParen, lp) :: r) := by
  cases h with
  | none =>
    toks hts
    subst hts
    exact ⟨none, .nil, fun lp r => ⟨.none rfl, rfl, rfl⟩⟩
  | some h =>
    obtain ⟨a, m, g1, g2⟩ := using_reads h ts hts
    refine ⟨some a, .cons m .nil, fun lp r => ⟨.some (g1 _) (g2 _), ?_, ?_⟩⟩
    · cases h with
      | mk h h' =>
        toks hts
        obtain ⟨⟨t, s⟩, _, rfl, rfl, _⟩ := hts
        cases t with
        | ident v k =>
          have : k = .USING := by simpa [Token.isKw] using h
          subst this
          exact (by decide +kernel : (!Keyword.USING.reserved) = false)
        | _ => simp [Token.isKw] at h
    · cases h with
      | mk h h' =>
        toks hts
        obtain ⟨⟨t, s⟩, _, rfl, rfl, _⟩ := hts
        exact isKw_other h (by decide)

theorem idxOptions_reads {l : List IdxOption} {toks : List Token} (h : Row (SpellsIdxOption e.opts) l toks) : ∀ ts : List Tk, ts.map (·.1) = toks →
    ∃ as, EachOf MeansIdxOption l as ∧ ∀ r, ComesNow [] true r → IdxOpts (ts ++ r) as r ∧ ComesNow [.USING, .COMMENT] true (ts ++ r) := by
  induction h with
  | nil =>
    intro ts hts
    toks hts
    subst hts
    exact ⟨[], .nil, fun r hr => ⟨.nil (ahead_noKw hr _ (by simp)), ahead_mono hr (by simp) id⟩⟩
  | cons h hl ih =>
    intro ts hts
    toks hts
    obtain ⟨xs, ys, rfl, hx, hy⟩ := hts
    obtain ⟨as, m, g⟩ := ih ys hy
    cases h with
    | «using» h =>
      obtain ⟨a, m', -, g2⟩ := using_reads h xs hx
      refine ⟨a :: as, .cons m' m, fun r hr => ?_⟩
      rw [List.append_assoc]
      refine ⟨.using (g2 _) (g r hr).1, ?_⟩
      cases h with
      | mk h h' =>
        toks hx
        obtain ⟨⟨t, s⟩, _, rfl, rfl, _⟩ := hx
        exact ahead_mono (ahead_kw h (by decide) [] true) (by simp) id
    | comment h hs =>
      toks hx
      obtain ⟨⟨t, s⟩, us, rfl, rfl, hu⟩ := hx
      obtain ⟨a, m', g'⟩ := strs_reads hs us hu
      refine ⟨_, .cons (.comment m') m, fun r hr => ?_⟩
      simp only [List.cons_append, List.append_assoc]
      refine ⟨.comment h (g' _ ?_) (g r hr).1, ahead_mono (ahead_kw h (by decide) [] true) (by simp) id⟩
      obtain ⟨t', s', r', e', hh | ⟨-, hh⟩ | ⟨k, hk, hh⟩, -⟩ := (g r hr).2
      · rw [e', hh]; exact afterOd_tok (by simp) (by simp) rfl rfl
      · rw [e', hh]; exact follow_comma
      · rw [e']; exact follow_kw hh (by rintro rfl; revert hk; decide)

theorem ons_reads {l : List (Kind × Kind)} {toks : List Token} (h : Row SpellsOnAct l toks) : ∀ ts : List Tk, ts.map (·.1) = toks →
    ∃ as, EachOf MeansOnAct l as ∧ ∀ r, ComesNow [] true r → FkOns (ts ++ r) as r := by
  induction h with
  | nil =>
    intro ts hts
    toks hts
    subst hts
    exact ⟨[], .nil, fun r hr => .nil (ahead_not hr (by simp))⟩
  | cons h hl ih =>
    intro ts hts
    toks hts
    obtain ⟨xs, ys, rfl, hx, hy⟩ := hts
    obtain ⟨as, m, g⟩ := ih ys hy
    cases h with
    | mk h hy' ha =>
      rename_i K K' _ _ _
      cases hy' with
      | mk hm1 hw1 =>
      cases ha with
      | mk hm2 hw2 =>
      toks hx
      obtain ⟨⟨t, s⟩, _, rfl, rfl, us, vs, rfl, hu, hv⟩ := hx
      have hy1 : ∃ a, MeansWord K a ∧ ∀ r, FkType s (us ++ r) a r := by
        simp only [onPhrases, List.mem_cons, List.not_mem_nil, or_false, Prod.mk.injEq] at hm1
        rcases hm1 with ⟨rfl, rfl⟩ | ⟨rfl, rfl⟩
        · cases hw1 with
          | cons h1 h2 =>
            cases h2
            toks hu
            obtain ⟨⟨t1, s1⟩, _, rfl, rfl, rfl⟩ := hu
            exact ⟨_, .mk, fun r => .update h1⟩
        · cases hw1 with
          | cons h1 h2 =>
            cases h2
            toks hu
            obtain ⟨⟨t1, s1⟩, _, rfl, rfl, rfl⟩ := hu
            exact ⟨_, .mk, fun r => .delete h1⟩
      have ha1 : ∃ a, MeansWord K' a ∧ ∀ r, FkAction (vs ++ r) a r := by
        simp only [actionPhrases, List.mem_cons, List.not_mem_nil, or_false, Prod.mk.injEq] at hm2
        rcases hm2 with ⟨rfl, rfl⟩ | ⟨rfl, rfl⟩ | ⟨rfl, rfl⟩ | ⟨rfl, rfl⟩ <;> obtain ⟨sp, k⟩ := kws_reads hw2 vs hv (by simp)
        · exact ⟨_, .mk, fun r => .restrict (k r)⟩
        · exact ⟨_, .mk, fun r => .cascade (k r)⟩
        · exact ⟨_, .mk, fun r => .setNull (k r)⟩
        · exact ⟨_, .mk, fun r => .noAction (k r)⟩
      obtain ⟨y, m1, g1⟩ := hy1
      obtain ⟨a, m2, g2⟩ := ha1
      refine ⟨_, .cons (.mk m1 m2) m, fun r hr => ?_⟩
      simp only [List.cons_append, List.append_assoc]
      exact .cons h (g1 _) (g2 _) (g r hr)

theorem colChange_reads {c : ColChange} {n : List Char} {toks : List Token} (h : SpellsColChange e.opts c toks)
    (hg : ∀ x ∈ (AltStep.alterColumn n c).exprs, x.Grouped) (ts : List Tk) (hts : ts.map (·.1) = toks) :
    ∃ a, MeansColChange c a ∧ ∀ r, ComesNow [] true r → ColAction e (ts ++ r) a r := by
  cases h with
  | words h =>
    cases h with
    | mk hm hw =>
      simp only [colPhrases, List.mem_cons, List.not_mem_nil, or_false, Prod.mk.injEq] at hm
      rcases hm with ⟨rfl, rfl⟩ | ⟨rfl, rfl⟩ | ⟨rfl, rfl⟩ <;> obtain ⟨sp, k⟩ := kws_reads hw ts hts (by simp)
      · exact ⟨_, .setNotNull, fun r _ => .setNotNull (k r)⟩
      · exact ⟨_, .dropDefault, fun r _ => .dropDefault (k r)⟩
      · exact ⟨_, .dropNotNull, fun r _ => .dropNotNull (k r)⟩
  | setDefault h hx =>
    toks hts
    obtain ⟨xs, ys, rfl, hxs, hys⟩ := hts
    obtain ⟨sp, k⟩ := kws_reads h xs hxs (by simp)
    obtain ⟨a, m, g⟩ := operand_reads (ks := []) (c := true) (by simp) hx (hg _ (by simp [AltStep.exprs])) ys hys
    refine ⟨_, .setDefault (sp := sp) m, fun r hr => ?_⟩
    rw [List.append_assoc]
    exact .setDefault (k _) (g r hr)
  | type h ht =>
    toks hts
    obtain ⟨⟨t, s⟩, us, rfl, rfl, hu⟩ := hts
    obtain ⟨a, m, g⟩ := dataType_reads ht hg us hu
    exact ⟨_, .type (sp := s) m, fun r hr => .type h (g r (comes_col hr))⟩

theorem phrase_next {k : Keyword} {ks : List Keyword} {toks : List Token} (h : IsKws (k :: ks) toks) (hk : k.reserved = true) {k' : Keyword} (hne : k ≠ k')
    (ts r : List Tk) (hts : ts.map (·.1) = toks) : Next (fun t => plainWord t = false) (ts ++ r) ∧ NotKw k' (ts ++ r) := by
  cases h with
  | cons h hs =>
    toks hts
    obtain ⟨⟨t, s⟩, us, rfl, rfl, -⟩ := hts
    refine ⟨?_, isKw_other h hne⟩
    cases t with
    | ident v k =>
      simp only [Token.isKw, decide_eq_true_eq] at h
      subst h
      simp [Next, plainWord, hk]
    | _ => simp [Token.isKw] at h

theorem step_reads {s : AltStep} {toks : List Token} (h : SpellsStep e.opts s toks) (hg : ∀ x ∈ s.exprs, x.Grouped) (ts : List Tk)
    (hts : ts.map (·.1) = toks) : ∃ a, MeansStep s a ∧ ∀ r, ComesNow [] true r → AltSpec e (ts ++ r) a r := by
  have nil : ∀ r : List Tk, ([] : List Tk) ++ r = r := fun r => rfl
  cases h with
  | addColumn h hi hm hn ht =>
    toks hts
    obtain ⟨ks, _, rfl, hks, is, _, rfl, his, ⟨n, q⟩, xs, rfl, rfl, hxs⟩ := hts
    obtain ⟨i, m1, m1', g1⟩ := ifNotExists_reads hi is his
    obtain ⟨d, m2, g2⟩ := dataType_reads ht hg xs hxs
    cases h with
    | cons h1 h =>
    cases h with
    | cons h2 h =>
    cases h
    toks hks
    obtain ⟨⟨t, s⟩, _, rfl, rfl, ⟨t', s'⟩, _, rfl, rfl, rfl⟩ := hks
    refine ⟨_, .addColumn (s := s) m1 (.mk (sp := q)) m2, fun r hr => ?_⟩
    simp only [List.cons_append, List.append_assoc]
    exact .addColumn h1 (.none (isKw_other h2 (by decide))) h2 (g1 _ (name_next hn .IF (by decide +kernel))) (fun hd => m1' (hm hd)) (name_reads hn q _) (g2 r (comes_col hr))
  | modify h hi hn ht =>
    toks hts
    obtain ⟨ks, _, rfl, hks, is, _, rfl, his, ⟨n, q⟩, xs, rfl, rfl, hxs⟩ := hts
    obtain ⟨i, m1, g1⟩ := ifExists_reads hi is his
    obtain ⟨d, m2, g2⟩ := dataType_reads ht hg xs hxs
    have hc : ∀ r, NotKw .COLUMN (is ++ (n, q) :: r) := by
      intro r
      cases hi with
      | no => toks his; subst his; exact name_next hn .COLUMN (by decide +kernel)
      | yes h => exact (phrase_next h (by decide +kernel) (by decide) is _ his).2
    have hK : ∃ sp, ∀ r, Kws [.MODIFY] (ks ++ (is ++ (n, q) :: r)) sp (is ++ (n, q) :: r) ∧ NotKw .COLUMN (is ++ (n, q) :: r) ∨
        Kws [.MODIFY, .COLUMN] (ks ++ (is ++ (n, q) :: r)) sp (is ++ (n, q) :: r) := by
      cases h with
      | short h =>
        toks hks
        obtain ⟨⟨t, s⟩, _, rfl, rfl, rfl⟩ := hks
        exact ⟨_, fun r => .inl ⟨.one h, hc r⟩⟩
      | long h =>
        obtain ⟨sp, k⟩ := kws_reads h ks hks (by simp)
        exact ⟨sp, fun r => .inr (k _)⟩
    obtain ⟨sp, hK⟩ := hK
    refine ⟨_, .modify (s := sp) m1 (.mk (sp := q)) m2, fun r hr => ?_⟩
    simp only [List.cons_append, List.append_assoc]
    exact .modify (hK _) (g1 _ (name_next hn .IF (by decide +kernel))) (name_reads hn q _) (g2 r (comes_col hr))
  | dropColumn h hn hc =>
    toks hts
    obtain ⟨ks, _, rfl, hks, ⟨n, q⟩, cs, rfl, rfl, hcs⟩ := hts
    obtain ⟨sp, k⟩ := kws_reads h ks hks (by simp)
    obtain ⟨c, m, g⟩ := flag_reads hc cs hcs
    refine ⟨_, .dropColumn (s := sp) (.mk (sp := q)) m, fun r hr => ?_⟩
    simp only [List.cons_append, List.append_assoc]
    exact .dropColumn (k _) (name_reads hn q _) (g r (ahead_not hr (by simp)))
  | alterColumn h hn hc =>
    toks hts
    obtain ⟨ks, _, rfl, hks, ⟨n, q⟩, xs, rfl, rfl, hxs⟩ := hts
    obtain ⟨sp, k⟩ := kws_reads h ks hks (by simp)
    obtain ⟨a, m, g⟩ := colChange_reads hc hg xs hxs
    refine ⟨_, .alterColumn (s := sp) (.mk (sp := q)) m, fun r hr => ?_⟩
    simp only [List.cons_append, List.append_assoc]
    exact .alterColumn (k _) (name_reads hn q _) (g r hr)
  | ownerTo h hn =>
    toks hts
    obtain ⟨ks, _, rfl, hks, ⟨n, q⟩, _, rfl, rfl, rfl⟩ := hts
    obtain ⟨sp, k⟩ := kws_reads h ks hks (by simp)
    refine ⟨_, .ownerTo (s := sp) (.mk (sp := q)), fun r hr => ?_⟩
    simp only [List.cons_append, List.append_assoc, nil]
    exact .ownerTo (k _) (name_reads hn q _)
  | addIndex h hc hk hi hn hu hp ho =>
    rename_i K _ _ _ _ _ _ _ _ _ _ _ _ _ _
    cases hk with
    | mk hm hw =>
    toks hts
    obtain ⟨⟨t, s⟩, _, rfl, rfl, cs, _, rfl, hcs, ks, _, rfl, hks, is, _, rfl, his, ns, _, rfl, hns, us, _, rfl, hus, ⟨_, lp⟩, _, rfl, rfl, ps, _, rfl, hps,
      ⟨_, rp⟩, os, rfl, rfl, hos⟩ := hts
    obtain ⟨c, m1, g1⟩ := constraint_reads hc cs hcs
    obtain ⟨i, m2, -, g2⟩ := ifNotExists_reads hi is his
    obtain ⟨n, m3, g3⟩ := nameOpt_reads hn ns hns
    obtain ⟨u, m4, g4⟩ := usingOpt_reads hu us hus
    obtain ⟨pl, m5, g5⟩ := parts_reads hp ps hps
    obtain ⟨ol, m6, g6⟩ := idxOptions_reads ho os hos
    have hky : ∃ y, MeansWord K y ∧ (∀ r, AddIdxType (ks ++ r) y r) ∧ ∀ r, Next (fun t => plainWord t = false) (ks ++ r) ∧ NotKw .CONSTRAINT (ks ++ r) := by
      have hb : ∀ p ∈ indexPhrases, ∃ k l, p.1 = k :: l ∧ k.reserved = true ∧ k ≠ .CONSTRAINT := by
        intro p hp
        simp only [indexPhrases, List.mem_cons, List.not_mem_nil, or_false] at hp
        rcases hp with rfl | rfl | rfl | rfl | rfl | rfl | rfl | rfl | rfl <;> exact ⟨_, _, rfl, by decide +kernel, by decide⟩
      obtain ⟨k0, l0, e0, hr0, hn0⟩ := hb _ hm
      have hw' := hw
      dsimp only at e0
      rw [e0] at hw'
      have hne := fun r => phrase_next hw' hr0 hn0 ks r hks
      simp only [indexPhrases, List.mem_cons, List.not_mem_nil, or_false, Prod.mk.injEq] at hm
      rcases hm with ⟨rfl, rfl⟩ | ⟨rfl, rfl⟩ | ⟨rfl, rfl⟩ | ⟨rfl, rfl⟩ | ⟨rfl, rfl⟩ | ⟨rfl, rfl⟩ | ⟨rfl, rfl⟩ | ⟨rfl, rfl⟩ | ⟨rfl, rfl⟩ <;>
        obtain ⟨sp, k⟩ := kws_reads hw ks hks (by simp)
      · exact ⟨_, .mk, fun r => .primary (k r), hne⟩
      · exact ⟨_, .mk, fun r => .index (k r), hne⟩
      · exact ⟨_, .mk, fun r => .key (k r), hne⟩
      all_goals exact ⟨_, .mk, fun r => .special (by simp) (by simp) (k r), hne⟩
    obtain ⟨y, m7, g7, g8⟩ := hky
    have hif : ∀ r, NotKw .IF (ns ++ (us ++ (.lParen, lp) :: r)) := by
      intro r
      cases hn with
      | none => toks hns; subst hns; exact (g4 lp r).2.2
      | some h => toks hns; obtain ⟨⟨n, q⟩, _, rfl, rfl, rfl⟩ := hns; exact name_next h .IF (by decide +kernel)
    have m46 := each_id (eachOf_append m4 m6)
    refine ⟨_, .addIndex (s := s) m7 m2 m3 m1 (.mk m5) m46, fun r hr => ?_⟩
    simp only [List.cons_append, List.append_assoc]
    have := AltSpec.addIndex (e := e) (add := s) h (g1 _ (g8 _).1 (g8 _).2) (g7 _) (g2 _ (hif _)) (g3 _ (g4 lp _).2.1) (g4 lp _).1 (g5 lp rp _) (g6 r hr).1
    rw [toF_list] at this
    exact this
  | addKey h hc hk hi hn hp hr' hm hrs ho =>
    toks hts
    obtain ⟨⟨t, s⟩, _, rfl, rfl, cs, _, rfl, hcs, ks, _, rfl, hks, is, _, rfl, his, ns, _, rfl, hns, ⟨_, lp⟩, _, rfl, rfl, ps, _, rfl, hps,
      ⟨_, rp⟩, _, rfl, rfl, ⟨r1, s1⟩, _, rfl, rfl, ⟨t2, s2⟩, _, rfl, rfl, ⟨_, lp'⟩, _, rfl, rfl, rs, _, rfl, hrs', ⟨_, rp'⟩, os, rfl, rfl, hos⟩ := hts
    obtain ⟨c, m1, g1⟩ := constraint_reads hc cs hcs
    obtain ⟨i, m2, -, g2⟩ := ifNotExists_reads hi is his
    obtain ⟨n, m3, g3⟩ := nameOpt_reads hn ns hns
    obtain ⟨pl, m5, g5⟩ := parts_reads hp ps hps
    obtain ⟨rl, m6, g6⟩ := refs_reads hrs rs hrs'
    obtain ⟨ol, m7, g7⟩ := ons_reads ho os hos
    obtain ⟨sp, k⟩ := kws_reads hk ks hks (by simp)
    have g8 := fun r => phrase_next (k' := .CONSTRAINT) hk (by decide +kernel) (by decide) ks r hks
    have hif : ∀ r, NotKw .IF (ns ++ (.lParen, lp) :: r) := by
      intro r
      cases hn with
      | none => toks hns; subst hns; rfl
      | some h => toks hns; obtain ⟨⟨n, q⟩, _, rfl, rfl, rfl⟩ := hns; exact name_next h .IF (by decide +kernel)
    refine ⟨_, .addKey (s := s) (fk := sp) (rf := s1) m1 m2 m3 (.mk m5) (.mk (sp := s2)) (.mk m6) (.mk m7), fun r hr => ?_⟩
    simp only [List.cons_append, List.append_assoc]
    have := AltSpec.addForeignKey (e := e) (add := s) (rf := s1) h (g1 _ (g8 _).1 (g8 _).2) (k _) (g2 _ (hif _)) (g3 ((.lParen, lp) :: _) rfl) (g5 lp rp _) hr'
      (name_reads hm s2 _) (g6 lp' rp' _) (g7 r hr)
    rw [toF_list, toF_list, toF_list] at this
    exact this

theorem step_begins {s : AltStep} {toks : List Token} (h : SpellsStep o s toks) : ∃ t us, toks = t :: us ∧ t ≠ .period := by
  have hk : ∀ {t : Token} {k : Keyword}, t.isKw k = true → t ≠ .period := by rintro t k h rfl; simp [Token.isKw] at h
  cases h with
  | addColumn h => cases h with | cons h hs => exact ⟨_, _, rfl, hk h⟩
  | modify h => cases h with
    | short h => exact ⟨_, _, rfl, hk h⟩
    | long h => cases h with | cons h hs => exact ⟨_, _, rfl, hk h⟩
  | dropColumn h => cases h with | cons h hs => exact ⟨_, _, rfl, hk h⟩
  | alterColumn h => cases h with | cons h hs => exact ⟨_, _, rfl, hk h⟩
  | ownerTo h => cases h with | cons h hs => exact ⟨_, _, rfl, hk h⟩
  | addIndex h => exact ⟨_, _, rfl, hk h⟩
  | addKey h => exact ⟨_, _, rfl, hk h⟩

theorem alteration_reads {d : Alteration} {toks : List Token} (h : SpellsAlteration e.opts d toks) (hg : ∀ s ∈ d.steps, ∀ x ∈ s.exprs, x.Grouped)
    (ts : List Tk) (hts : ts.map (·.1) = toks) : ∃ a, MeansAlteration d a ∧ ∀ sp, Stm e (ts ++ [(.eof, sp)]) ⟨a⟩ [(.eof, sp)] := by
  cases h with
  | mk h ho hig h' hi hn hl =>
    toks hts
    obtain ⟨⟨t, s⟩, _, rfl, rfl, as, _, rfl, has, bs, _, rfl, hbs, ⟨t', s'⟩, _, rfl, rfl, is, _, rfl, his, ns, xs, rfl, hns, hxs⟩ := hts
    obtain ⟨on, m1, g1⟩ := flag_reads ho as has
    obtain ⟨ig, m2, g2⟩ := flag_reads hig bs hbs
    obtain ⟨ie, m3, g3⟩ := ifExists_reads hi is his
    obtain ⟨n, m4, g4⟩ := target_reads (e := e) hn ns hns
    obtain ⟨l, m5, g5⟩ := commas_reads (P := AltSpec e) (M := MeansStep) (F := ComesNow [] true) (fun sp r => comma_comes _ sp r) hl
      (fun x hx toks h ts hts => step_reads h (hg x hx) ts hts) xs hxs
    have hp : ∀ r, Next (· ≠ .period) (xs ++ r) := fun r => begins_next (commas_begins (fun x toks h => step_begins h) hl) xs r hxs
    have hon : ∀ r, NotKw .ONLINE (bs ++ (t', s') :: r) := by
      intro r
      cases hig with
      | no => toks hbs; subst hbs; exact isKw_other h' (by decide)
      | yes h =>
        cases h with
        | cons h hs => toks hbs; obtain ⟨⟨b, q⟩, _, rfl, rfl, -⟩ := hbs; exact isKw_other h (by decide)
    refine ⟨_, .mk (s := s) (t := s') m1 m2 m3 m4 (.mk m5), fun sp => ?_⟩
    have he : ComesNow [] true [((.eof : Token), sp)] := ⟨_, _, _, rfl, .inl rfl, fun h => by simp [Token.isKw] at h⟩
    have := Alt.mk (e := e) (s := s) h (g1 _ (hon _)) (g2 _ (isKw_other h' (by decide))) h' (g3 _ (named_next (target_begins hn) .IF (by decide +kernel) ns _ hns))
      (g4 _ (hp _)) (g5 [(.eof, sp)] he (by simp [Next])) (.inr rfl)
    rw [toF_list] at this
    simp only [List.cons_append, List.append_assoc]
    exact .alter this

end SqlParse
