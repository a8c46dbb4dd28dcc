import Verif.Proofs.SemiRun
import Verif.Theorems.Compose
/-! **C45**: errors stay in their statement.  What C44 says also holds for a source `a` with errors, if it has no compound statements. -/
namespace SqlParse
variable {chk : Bool} {opts : Opts}

theorem isKw_false {t : Token} {k : Keyword} (h : ∀ v, t ≠ .ident v k) : t.isKw k = false := by
  cases he : t.isKw k
  · rfl
  · obtain ⟨v, e⟩ := isKw_iff he
    exact absurd e (h v)

theorem occurs_mem {k : Keyword} {toks : List (Token × Span)} {t : Token} {sp : Span} (h : ¬ Occurs k toks) (hm : (t, sp) ∈ toks) : t.isKw k = false :=
  isKw_false fun v e => h ⟨v, sp, e ▸ hm⟩

/-- The tokens are as `LScript` wants them. -/
structure FlatM (md : Bool) (toks : List (Token × Span)) : Prop where
  ok : ∀ t sp, (t, sp) ∈ toks → t ≠ .semiColon → Okt md t

/-- Tokens with which statements begin are allowed; the first one too if `st`. -/
def StartsOk (md : Bool) (st : Bool) (toks : List (Token × Span)) : Prop :=
  (st = true → ∀ t sp post, toks = (t, sp) :: post → StartOk md t) ∧
  ∀ pre p t sp post, toks = pre ++ (.semiColon, p) :: (t, sp) :: post → StartOk md t

theorem lscript_of_scan {md : Bool} {p e : Span} : ∀ (toks : List (Token × Span)) (st : Bool) (l : Lexer),
    FlatM md toks → StartsOk md st toks → Scan chk l (toks ++ [(.semiColon, p), (.eof, e)]) → LScript md chk st l := by
  intro toks
  induction toks with
  | nil =>
    intro st l _ _ h
    cases h with
    | cons h ht hs =>
      cases hs with
      | last h' => exact .semi h (.eof h')
      | cons _ ht' => exact absurd rfl ht'
  | cons q toks ih =>
    intro st l hf hst h
    obtain ⟨t, sp⟩ := q
    rw [List.cons_append] at h
    generalize hL : toks ++ [(Token.semiColon, p), (.eof, e)] = L at h
    have hf' : FlatM md toks := ⟨fun t sp h => hf.ok t sp (List.mem_cons_of_mem _ h)⟩
    have hst' : ∀ pre p' t' sp' post, toks = pre ++ (.semiColon, p') :: (t', sp') :: post → StartOk md t' :=
      fun pre p' t' sp' post e => hst.2 ((t, sp) :: pre) p' t' sp' post (by rw [e]; rfl)
    cases h with
    | last h => simp at hL
    | cons h ht hs =>
      subst hL
      by_cases hsc : t = .semiColon
      · subst hsc
        refine .semi h (ih true _ hf' ⟨fun _ t' sp' post e => hst.2 [] sp t' sp' post (by rw [e]; rfl), hst'⟩ hs)
      · exact .tok h hsc ht (hf.ok t sp (List.mem_cons_self ..) hsc) (fun h => hst.1 h t sp toks rfl) (ih false _ hf' ⟨nofun, hst'⟩ hs)

theorem lscript_of_flat {a : List Char} {toks : List (Token × Span)} (he : EndsInSemicolon chk a toks) (hd : ¬ Occurs .DELIMITER toks) (hf : Flat toks) :
    ∃ md, LScript md chk true (Lexer.new a) := by
  obtain ⟨p, ht⟩ := he
  obtain ⟨h1, h2, h3⟩ := hf
  rcases h3 with h3 | ⟨h3, h4⟩
  · refine ⟨true, lscript_of_scan toks true _ ⟨fun t sp hm hs => ⟨?_, occurs_mem h2 hm, occurs_mem hd hm, fun _ => occurs_mem h3 hm, nofun⟩⟩
      ⟨fun _ _ _ _ _ => nofun, fun _ _ _ _ _ _ => nofun⟩ ht⟩
    rintro rfl
    exact h1 sp hm
  · have hb : ∀ t, BeginsWith toks t → StartOk false t := by
      intro t hb _
      refine ⟨isKw_false ?_, isKw_false ?_, isKw_false ?_⟩
      · rintro v rfl; exact (h4 v).1 hb
      · rintro v rfl; exact (h4 v).2.1 hb
      · rintro v rfl; exact (h4 v).2.2 hb
    refine ⟨false, lscript_of_scan toks true _ ⟨fun t sp hm hs => ⟨?_, occurs_mem h2 hm, occurs_mem hd hm, nofun, fun _ => occurs_mem h3 hm⟩⟩
      ⟨fun _ t sp post e => hb t ⟨sp, .inl ⟨post, e⟩⟩, fun pre p t sp post e => hb t ⟨sp, .inr ⟨pre, p, post, e⟩⟩⟩ ht⟩
    rintro rfl
    exact h1 sp hm

theorem skipToEnd_loaded {s s' : St} (hs : Loaded s) (h : SkipToEnd s s') : Loaded s' := by
  induction h with
  | here h hd he => exact advance_loaded hs h
  | next h hd he _ ih => exact ih (advance_loaded hs h)

theorem lastRound_loaded {s s' : St} {l : List SAst} (hs : Loaded s) (h : LastRound s l s') : Loaded s' := by
  cases h with
  | eof => exact hs
  | garbage hst h hd hl hk => exact skipToEnd_loaded (reports_loaded (parsesTo_loaded hs h) hl) hk
  | skipped hst h hd hk => exact skipToEnd_loaded (failsTo_loaded hs h) hk

theorem endsPlain_of_flat {a : List Char} {toks : List (Token × Span)} {old ia : List Issue}
    (he : EndsInSemicolon chk a toks) (hd : ¬ Occurs .DELIMITER toks) (hf : Flat toks) : EndsPlain chk opts a old ia := by
  obtain ⟨md, hl⟩ := lscript_of_flat he hd hf
  intro s0 l1 s1 l2 s' h3 g2 g3 _ hn
  rcases rounds_btw (new_btw hl h3) g2 with h | h
  · exact absurd (lastRound_loaded h g3) hn
  · obtain ⟨rfl, rfl, g⟩ := lastRound_btw h g3
    exact ⟨rfl, rfl, g, h.permit, h.peeked⟩

/-- **C45**: `a` ends in `;`, and has no compound statements, no DELIMITER and no COPY.  Then, whatever errors the statements of `a` have, what comes after `a` is
parsed as it is on its own. -/
theorem C45_isolated (a : List Char) (toks : List (Token × Span)) (old ia : List Issue) (la : List SAst)
    (he : EndsInSemicolon chk a toks) (hc : ¬ Occurs .COPY toks) (hd : ¬ Occurs .DELIMITER toks) (hf : Flat toks)
    (h : Api.many.Returns chk a ⟨a, old⟩ opts la (old ++ ia)) : Composes chk opts a old ia la :=
  composes_of he hc hd h (endsPlain_of_flat he hd hf)

/-- **C45**, backwards: whatever parsing `a` followed by `b` does comes from `b` in this way. -/
theorem C45_isolated_back (a : List Char) (toks : List (Token × Span)) (old ia : List Issue) (la : List SAst)
    (he : EndsInSemicolon chk a toks) (hc : ¬ Occurs .COPY toks) (hd : ¬ Occurs .DELIMITER toks) (hf : Flat toks)
    (h : Api.many.Returns chk a ⟨a, old⟩ opts la (old ++ ia)) (u b : List Char) (old' : List Issue) (hs : Skipped u b) :
    (∀ l is, Api.many.Returns chk (a ++ (u ++ b)) ⟨a ++ (u ++ b), old⟩ opts l is → ∃ lb ib lb' ib' k,
      Api.many.Returns chk b ⟨b, old'⟩ opts lb (old' ++ ib) ∧ l = la ++ lb' ∧ is = old ++ (ia ++ ib') ∧
      MovedAll (blen (a ++ u)) (argsBefore opts k) k (lb.map (·.ast)) (lb'.map (·.ast)) ∧ Each (MovedIssue (blen (a ++ u))) ib ib') ∧
    (∀ m, Api.many.Panics chk (a ++ (u ++ b)) ⟨a ++ (u ++ b), old⟩ opts m → Api.many.Panics chk b ⟨b, old'⟩ opts m) ∧
    (Api.many.Hangs chk (a ++ (u ++ b)) ⟨a ++ (u ++ b), old⟩ opts → Api.many.Hangs chk b ⟨b, old'⟩ opts) :=
  composes_back (C45_isolated a toks old ia la he hc hd hf h) u b old' hs

/-! ### Non-vacuity -/

theorem ex_bad : EndsInSemicolon true c!"SELECT FROM; x (;" [(.ident c!"SELECT" .SELECT, ⟨0, 6⟩), (.ident c!"FROM" .FROM, ⟨7, 11⟩), (.semiColon, ⟨11, 12⟩),
    (.ident c!"x" .NOT_A_KEYWORD, ⟨13, 14⟩), (.lParen, ⟨15, 16⟩)] :=
  endsInSemicolon_of_written (p := 16) ((C37_written_iff true _ _ (by decide)).2 ⟨⟨c!"SELECT FROM; x (;", 17, []⟩, by decide +kernel⟩)

theorem not_occurs {k : Keyword} {toks : List (Token × Span)} (h : (toks.any fun q => q.1.isKw k) = false) : ¬ Occurs k toks := by
  rintro ⟨v, sp, hm⟩
  rw [List.any_eq_false] at h
  exact h _ hm (by simp [Token.isKw])

/-- `SELECT FROM; x (;` has three errors and no statement; `SELECT 1;` after it is parsed as it is on its own. -/
example : ∃ i1 i2 is l b b', Api.many.Returns true c!"SELECT FROM; x (;" ⟨c!"SELECT FROM; x (;", []⟩ {} l (i1 :: i2 :: is) ∧ i1.level = .error ∧ i2.level = .error ∧
    Api.many.Returns true c!"SELECT 1;" ⟨c!"SELECT 1;", []⟩ {} [b] [] ∧
    Api.many.Returns true c!"SELECT FROM; x (; SELECT 1;" ⟨c!"SELECT FROM; x (; SELECT 1;", []⟩ {} (l ++ [b']) (i1 :: i2 :: is) ∧ Moved 18 0 0 b.ast b'.ast := by
  obtain ⟨l, is, h1, h2⟩ := returns_of_test (api := .many) (n := 60) (checked := true) (src := c!"SELECT FROM; x (;")
    (iss := ⟨c!"SELECT FROM; x (;", []⟩) (opts := {}) (f := fun _ is => decide (2 ≤ is.length) && is.all fun i => decide (i.level = .error)) (by decide +kernel)
  obtain ⟨b, js, h3, h4⟩ := returns_of_test (api := .many) (n := 60) (checked := true) (src := c!"SELECT 1;")
    (iss := ⟨c!"SELECT 1;", []⟩) (opts := {}) (f := fun a is => decide (a.length = 1) && is.isEmpty) (by decide +kernel)
  simp at h2 h4
  obtain ⟨h4, rfl⟩ := h4
  obtain ⟨v, rfl⟩ := List.length_eq_one_iff.1 h4
  have hC := C45_isolated c!"SELECT FROM; x (;" _ [] is l ex_bad (not_occurs (by decide +kernel)) (not_occurs (by decide +kernel))
    ⟨by simp, not_occurs (by decide +kernel), .inl (not_occurs (by decide +kernel))⟩ h1
  obtain ⟨L, hL1, hL2, -, hL⟩ := hC
  have hL0 : L = [] := by
    cases L with
    | nil => rfl
    | cons sp L =>
      obtain ⟨-, t, g1, -⟩ := hL2 sp (List.mem_cons_self ..)
      simp [isMarker] at g1
  subst hL0
  obtain ⟨lb', ib', g1, g2, g4⟩ := (hL c!" " _ [] (.cons c!" " _ _ (.blank _ _ (.inl rfl)) (.nil _))).1 [v] [] h3
  match is, h2, h1, g1 with
  | i1 :: i2 :: is, h2, h1, g1 =>
    generalize hm : lb'.map (·.ast) = m at g2
    cases g2 with
    | @cons _ _ _ m' g2 g3 =>
      cases g3
      cases lb' with
      | nil => cases hm
      | cons w' l' =>
        cases l' with
        | cons => simp at hm
        | nil =>
          simp at hm
          subst hm
          cases ib' with
          | cons => cases g4
          | nil =>
            refine ⟨i1, i2, is, l, v, w', h1, h2.2 i1 (by simp), h2.2 i2 (by simp), h3, ?_, ?_⟩
            · simpa using g1
            · exact g2

end SqlParse
