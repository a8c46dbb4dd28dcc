import Verif.Proofs.Cut
import Verif.Theorems.Determined
/-! The rounds of `parse_statements` on the first part `a` of a longer source `a ++ b` are rounds on `a ++ b`. -/
namespace SqlParse
variable {chk : Bool} {a b : List Char} {tk : Token} {sp : Span} {m : Lexer}

/-- The first run is at the end of its source. -/
def AtEnd (s : St) : Prop := s.lx.rest = [] ∧ s.peeked = none ∧ s.token = .eof

/-- The state of the second run when the first one is at the end of its source: the first token of `b` has been read. -/
def over (a b : List Char) (tk : Token) (sp : Span) (m : Lexer) (s : St) : St :=
  { s with token := tk, span := sp, lx := m, issueSrc := a ++ b }

/-- The first run has data, or is at the end of its source with another delimiter than `;`. -/
def Off (s : St) : Prop := Loaded s ∨ (AtEnd s ∧ s.delim ≠ .semiColon)

theorem AtEnd.ended {s : St} (h : AtEnd s) : Ended s := ⟨h.1, .inl h.2⟩

theorem CutR.fields {s t : St} (h : CutR chk a b s t) : t.token = s.token ∧ t.delim = s.delim ∧ t.opts = s.opts := by
  rw [h.eq]; exact ⟨rfl, rfl, rfl⟩

theorem CutR.start {s t : St} (h : CutR chk a b s t) (hs : Start s) : Start t := by
  obtain ⟨h1, h2, -⟩ := h.fields
  unfold Start
  rw [h1, h2]
  exact hs

theorem adv_cut (hb : (Lexer.mk (a ++ b) (blen a) b).nextToken chk = .ok tk sp m) {s s' t : St} (h : CutR chk a b s t)
    (ha : Advance s s') : (∃ t', Advance t t' ∧ CutR chk a b s' t') ∨ (AtEnd s' ∧ Advance t (over a b tk sp m s')) := by
  have e := h.eq
  unfold Advance St.next at ha
  unfold Advance St.next
  cases hp : s.peeked with
  | some p =>
    have hp' : t.peeked = some p := by rw [e]; exact hp
    rw [hp] at ha
    cases ha
    rw [hp']
    obtain ⟨p1, p2⟩ := h.peeked p hp
    refine .inl ⟨_, rfl, ⟨h.lx, ?_, h.isrc, h.chk, p2, nofun⟩⟩
    rw [e]
  | none =>
    have hp' : t.peeked = none := by rw [e]; exact hp
    have hc : t.checked = chk := by rw [e]; exact h.chk
    rw [hp, h.chk] at ha
    rw [hp', hc]
    dsimp only at ha ⊢
    by_cases hr : s.lx.rest = []
    · rw [nextToken_nil hr] at ha
      cases ha
      right
      refine ⟨⟨rfl, rfl, rfl⟩, ?_⟩
      rw [h.lx.at hr, hb]
      rw [e]
      simp [over]
    · obtain ⟨t1, sp', m1, m', e1, e2, e3, e4⟩ := h.lx.next hr
      rw [e1] at ha
      cases ha
      rw [e2]
      refine .inl ⟨_, rfl, ⟨e4, ?_, h.isrc, rfl, e3, nofun⟩⟩
      rw [e]

theorem advance_delim {s s' : St} (h : Advance s s') : s'.delim = s.delim := by
  unfold Advance St.next at h
  split at h
  · cases h; rfl
  · split at h
    · cases h; rfl
    · cases h

theorem advance_peeked {s s' : St} (h : Advance s s') : s'.peeked = none := next_peeked h

theorem advance_ended {s s' : St} (hs : Ended s) (h : Advance s s') : AtEnd s' := by
  have := next_ended hs
  rw [show s.next = .ok () s' from h] at this
  obtain ⟨h1, ⟨h2, h3⟩ | ⟨x, h2, -⟩⟩ := this
  · exact ⟨h1, h2, h3⟩
  · rw [advance_peeked h] at h2; cases h2

theorem advance_loaded {s s' : St} (hs : Loaded s) (h : Advance s s') : Loaded s' := by
  have := next_loaded hs
  rw [show s.next = .ok () s' from h] at this
  exact this

/-! ### What the parts of a round keep -/

theorem parsesTo_gone {s s' : St} {v : SAst} (hs : Gone s) (h : ParsesTo s v s') : Gone s' := by
  obtain ⟨n, h⟩ := h
  have := runWith_keeps (fun _ _ => op_gone) (runFn_keeps (fun _ _ => op_gone) n) n (.call .statement) s hs
  rw [show runWith (runFn n) n (.call .statement) s = _ from h] at this
  exact this

theorem call_loaded {s : St} (hs : Loaded s) (n : Nat) : OutG Loaded ((Prog.call .statement).run n s) :=
  runWith_keeps (fun _ _ => op_loaded) (runFn_keeps (fun _ _ => op_loaded) n) n (.call .statement) s hs

theorem parsesTo_loaded {s s' : St} {v : SAst} (hs : Loaded s) (h : ParsesTo s v s') : Loaded s' := by
  obtain ⟨n, h⟩ := h
  have := call_loaded hs n
  rw [h] at this
  exact this

theorem reports_loaded {s s' : St} {l : Level} {x : Msg} (hs : Loaded s) (h : Reports l x s s') : Loaded s' := by
  obtain ⟨seg, -, rfl⟩ := h; exact hs

theorem mayLog_loaded {s s' : St} (hs : Loaded s) (h : MayLog s s') : Loaded s' := by
  rcases h with rfl | ⟨l, i, -, rfl⟩
  · exact hs
  · exact hs

theorem failsTo_loaded {s s' : St} (hs : Loaded s) (h : FailsTo s s') : Loaded s' := by
  obtain ⟨n, h⟩ := h
  have := call_loaded hs n
  rcases h with h | ⟨s1, h, hl⟩
  · rw [h] at this; exact this
  · rw [h] at this; exact reports_loaded this hl

theorem skipTo_loaded {s s' : St} (hs : Loaded s) (h : SkipTo s s') : Loaded s' := by
  induction h with
  | here h hd => exact advance_loaded hs h
  | next h hd he _ ih => exact ih (advance_loaded hs h)

theorem readsData_loaded {s s' : St} {d : List Char} {x : Span} (h : ReadsData s d x s') : Loaded s' := by
  obtain ⟨lx, h1, h2⟩ := h
  exact advance_loaded (by simp [Loaded]) h2

theorem terminate_loaded {s s' : St} {v : SAst} {out : List SAst} (hs : Loaded s) (h : Terminate v s out s') : Loaded s' := by
  cases h with
  | plain hv h => exact advance_loaded hs h
  | copy hv h => exact readsData_loaded h

theorem round_loaded {s s' : St} {out : List SAst} (hs : Loaded s) (h : Round s out s') : Loaded s' := by
  cases h with
  | clean h =>
    cases h with
    | skip hd h => exact advance_loaded hs h
    | @delimiter s1 s2 s3 _ hd hk h1 h2 h3 h4 =>
      have := mayLog_loaded (advance_loaded (mayLog_loaded hs h1.mayLog) h2) h3.mayLog
      exact advance_loaded (s := { s3 with delim := s2.token }) this h4
    | stmt hst h hd ht => exact terminate_loaded (parsesTo_loaded hs h) ht
  | garbage hst h hd hl hk ht => exact terminate_loaded (skipTo_loaded (reports_loaded (parsesTo_loaded hs h) hl) hk) ht
  | failed hst h hd ha => exact advance_loaded (failsTo_loaded hs h) ha
  | skipped hst h hd hk ha => exact advance_loaded (skipTo_loaded (failsTo_loaded hs h) hk) ha

theorem rounds_loaded {s s' : St} {out : List SAst} (hs : Loaded s) (h : Rounds s out s') : Loaded s' := by
  induction h with
  | nil => exact hs
  | cons h _ ih => exact ih (round_loaded hs h)

/-- Nothing can be parsed at the end of the source. -/
theorem round_off {s s' : St} {out : List SAst} (hs : Off s) (h : Round s out s') : Off s' := by
  rcases hs with hs | ⟨he, hd⟩
  · exact .inl (round_loaded hs h)
  right
  cases h with
  | clean h =>
    cases h with
    | skip _ h => exact ⟨advance_ended he.ended h, by rw [advance_delim h]; exact hd⟩
    | delimiter _ hk => rw [he.2.2] at hk; cases hk
    | stmt hst => exact absurd he.2.2 hst.2.1
  | garbage hst => exact absurd he.2.2 hst.2.1
  | failed hst => exact absurd he.2.2 hst.2.1
  | skipped hst => exact absurd he.2.2 hst.2.1

theorem rounds_keepOff {s s' : St} {out : List SAst} (hs : Off s) (h : Rounds s out s') : Off s' := by
  induction h with
  | nil => exact hs
  | cons h _ ih => exact ih (round_off hs h)

/-! ### The parts of a round on the longer source -/

theorem parses_cut {s s' t : St} {v : SAst} (h : CutR chk a b s t) (hp : ParsesTo s v s') :
    Gone s' ∨ ∃ t', ParsesTo t v t' ∧ CutR chk a b s' t' := by
  obtain ⟨n, hp⟩ := hp
  have := run_cut n (.call .statement) h
  rw [hp] at this
  rcases this with this | ⟨t', h1, h2⟩
  · exact .inl this.gone
  · exact .inr ⟨t', ⟨n, h1⟩, h2⟩

theorem reports_cut {s s' t : St} {l : Level} {x : Msg} (h : CutR chk a b s t) (hr : Reports l x s s') :
    ∃ t', Reports l x t t' ∧ CutR chk a b s' t' := by
  have := issue_cut h l x s.span []
  rw [issue_reports.2 hr] at this
  have hsp : t.span = s.span := by rw [h.eq]
  rcases this with this | ⟨t', h1, h2⟩
  · obtain ⟨seg, h1, rfl⟩ := hr
    rw [h.isrc] at h1
    refine ⟨_, ⟨seg, ?_, rfl⟩, ?_⟩
    · rw [hsp, show t.issueSrc = a ++ b by rw [h.eq]]
      obtain ⟨p, q, g1, g2, g3⟩ := h1
      exact ⟨p, q ++ b, by rw [g1]; simp, g2, g3⟩
    · have e := h.eq
      exact ⟨h.lx, by rw [e], h.isrc, h.chk, h.token, h.peeked⟩
  · exact ⟨t', issue_reports.1 (by rw [hsp]; exact h1), h2⟩

theorem capsNote_cut {s s' t : St} (h : CutR chk a b s t) (hr : CapsNote s s') : ∃ t', CapsNote t t' ∧ CutR chk a b s' t' := by
  unfold CapsNote at *
  rw [h.fields.1, h.fields.2.2]
  split
  · next hc => rw [if_pos hc] at hr; exact reports_cut h hr
  · next hc => rw [if_neg hc] at hr; exact ⟨t, rfl, hr ▸ h⟩

theorem delimiterNote_cut {s s' t : St} (h : CutR chk a b s t) (hr : DelimiterNote s s') : ∃ t', DelimiterNote t t' ∧ CutR chk a b s' t' := by
  unfold DelimiterNote at *
  rw [h.fields.1]
  split
  · next hc => rw [if_pos hc] at hr; exact ⟨t, rfl, hr ▸ h⟩
  · next hc => rw [if_neg hc] at hr; exact reports_cut h hr

theorem fails_cut {s s' t : St} (h : CutR chk a b s t) (hp : FailsTo s s') :
    Gone s' ∨ ∃ t', FailsTo t t' ∧ CutR chk a b s' t' := by
  obtain ⟨n, hp⟩ := hp
  have := run_cut n (.call .statement) h
  rcases hp with hp | ⟨s1, hp, hl⟩
  · rw [hp] at this
    rcases this with this | ⟨t', h1, h2⟩
    · exact .inl this.gone
    · exact .inr ⟨t', ⟨n, .inl h1⟩, h2⟩
  · rw [hp] at this
    rcases this with this | ⟨t1, h1, h2⟩
    · left
      obtain ⟨seg, -, rfl⟩ := hl
      exact this.gone
    · obtain ⟨t', h3, h4⟩ := reports_cut h2 hl
      exact .inr ⟨t', ⟨n, .inr ⟨t1, h1, h3⟩⟩, h4⟩

theorem skipTo_gone {s s' : St} (hs : Gone s) (h : SkipTo s s') : Gone s' := by
  induction h with
  | here h hd => exact hs.imp (fun hs => advance_loaded hs h) (fun hs => (advance_ended hs h).ended)
  | next h hd he _ ih => exact ih (hs.imp (fun hs => advance_loaded hs h) (fun hs => (advance_ended hs h).ended))

theorem skipTo_cut (hb : (Lexer.mk (a ++ b) (blen a) b).nextToken chk = .ok tk sp m) {s s' t : St} (h : CutR chk a b s t)
    (hk : SkipTo s s') : Gone s' ∨ ∃ t', SkipTo t t' ∧ CutR chk a b s' t' := by
  induction hk generalizing t with
  | here ha hd =>
    rcases adv_cut hb h ha with ⟨t', h1, h2⟩ | ⟨h1, -⟩
    · exact .inr ⟨t', .here h1 (by rw [h2.fields.1, h2.fields.2.1]; exact hd), h2⟩
    · exact .inl (.inr h1.ended)
  | next ha hd he hs ih =>
    rcases adv_cut hb h ha with ⟨t', h1, h2⟩ | ⟨h1, -⟩
    · rcases ih h2 with h3 | ⟨t2, h3, h4⟩
      · exact .inl h3
      · exact .inr ⟨t2, .next h1 (by rw [h2.fields.1, h2.fields.2.1]; exact hd) (by rw [h2.fields.1]; exact he) h3, h4⟩
    · exact .inl (skipTo_gone (.inr h1.ended) hs)

/-- At the end of the source the token is no `;`. -/
theorem ended_ne {s : St} (h : Ended s) : s.token ≠ .semiColon := by
  rcases h with ⟨-, ⟨-, h⟩ | ⟨x, -, h⟩⟩
  · rw [h]; simp
  · intro e; rw [e] at h; cases h

theorem advance_gone {s s' : St} (hs : Gone s) (hd : s.token = s.delim) (h : Advance s s') : Off s' := by
  rcases hs with hs | hs
  · exact .inl (advance_loaded hs h)
  · exact .inr ⟨advance_ended hs h, by rw [advance_delim h, ← hd]; exact ended_ne hs⟩

theorem terminate_gone {s s' : St} {v : SAst} {out : List SAst} (hs : Gone s) (hd : s.token = s.delim) (h : Terminate v s out s') : Off s' := by
  cases h with
  | plain hv h => exact advance_gone hs hd h
  | copy hv h => exact .inl (readsData_loaded h)

/-- The end of a statement. -/
theorem terminate_cut (hb : (Lexer.mk (a ++ b) (blen a) b).nextToken chk = .ok tk sp m) {s s' t : St} {v : SAst} {out : List SAst}
    (h : CutR chk a b s t) (ht : Terminate v s out s') :
    Off s' ∨ (∃ t', Terminate v t out t' ∧ CutR chk a b s' t') ∨ (AtEnd s' ∧ Terminate v t out (over a b tk sp m s')) := by
  cases ht with
  | plain hv ha =>
    rcases adv_cut hb h ha with ⟨t', h1, h2⟩ | ⟨h1, h2⟩
    · exact .inr (.inl ⟨t', .plain hv h1, h2⟩)
    · exact .inr (.inr ⟨h1, .plain hv h2⟩)
  | copy hv h => exact .inl (.inl (readsData_loaded h))

/-- A round on `a` is a round on `a ++ b`. -/
theorem round_cut (hb : (Lexer.mk (a ++ b) (blen a) b).nextToken chk = .ok tk sp m) {s s' t : St} {out : List SAst}
    (h : CutR chk a b s t) (hr : Round s out s') :
    Off s' ∨ (∃ t', Round t out t' ∧ CutR chk a b s' t') ∨ (AtEnd s' ∧ Round t out (over a b tk sp m s')) := by
  have hf := h.fields
  cases hr with
  | clean hr =>
    cases hr with
    | skip hd ha =>
      rcases adv_cut hb h ha with ⟨t', h1, h2⟩ | ⟨h1, h2⟩
      · exact .inr (.inl ⟨t', .clean (.skip (by rw [hf.1, hf.2.1]; exact hd) h1), h2⟩)
      · exact .inr (.inr ⟨h1, .clean (.skip (by rw [hf.1, hf.2.1]; exact hd) h2)⟩)
    | @delimiter s1 s2 s3 _ hd hk h1 h2 h3 h4 =>
      obtain ⟨t1, k1, e1⟩ := capsNote_cut h h1
      rcases adv_cut hb e1 h2 with ⟨t2, k2, e2⟩ | ⟨he, -⟩
      · obtain ⟨t3, k3, e3⟩ := delimiterNote_cut e2 h3
        have e4 : CutR chk a b { s3 with delim := s2.token } { t3 with delim := t2.token } := by
          have e := e3.eq
          refine ⟨e3.lx, ?_, e3.isrc, e3.chk, e3.token, e3.peeked⟩
          rw [e2.fields.1]
          rw [e]
        have hd' : t.token ≠ t.delim := by rw [hf.1, hf.2.1]; exact hd
        have hk' : t.token.isKw .DELIMITER = true := by rw [hf.1]; exact hk
        rcases adv_cut hb e4 h4 with ⟨t', k4, e5⟩ | ⟨h5, k4⟩
        · exact .inr (.inl ⟨t', .clean (.delimiter hd' hk' k1 k2 k3 k4), e5⟩)
        · exact .inr (.inr ⟨h5, .clean (.delimiter hd' hk' k1 k2 k3 k4)⟩)
      · left; right
        have he3 : Ended { s3 with delim := s2.token } := by
          have : MayLog s2 s3 := h3.mayLog
          rcases this with rfl | ⟨l, i, -, rfl⟩ <;> exact he.ended
        refine ⟨advance_ended he3 h4, ?_⟩
        rw [advance_delim h4]
        show s2.token ≠ _
        rw [he.2.2]
        simp
    | stmt hst hp hd ht =>
      rcases parses_cut h hp with hg | ⟨t1, k1, e1⟩
      · exact .inl (terminate_gone hg hd ht)
      · rcases terminate_cut hb e1 ht with ho | ⟨t', k2, e2⟩ | ⟨h5, k2⟩
        · exact .inl ho
        · exact .inr (.inl ⟨t', .clean (.stmt (h.start hst) k1 (by rw [e1.fields.1, e1.fields.2.1]; exact hd) k2), e2⟩)
        · exact .inr (.inr ⟨h5, .clean (.stmt (h.start hst) k1 (by rw [e1.fields.1, e1.fields.2.1]; exact hd) k2)⟩)
  | garbage hst hp hd hl hk ht =>
    have hdk := skipTo_delim hk
    rcases parses_cut h hp with hg | ⟨t1, k1, e1⟩
    · left
      refine terminate_gone (skipTo_gone ?_ hk) hdk ht
      obtain ⟨seg, -, rfl⟩ := hl
      exact hg
    · obtain ⟨t2, k2, e2⟩ := reports_cut e1 hl
      rw [← e1.fields.2.1] at k2
      rcases skipTo_cut hb e2 hk with hg | ⟨t3, k3, e3⟩
      · exact .inl (terminate_gone hg hdk ht)
      have hd' : t1.token ≠ t1.delim := by rw [e1.fields.1, e1.fields.2.1]; exact hd
      rcases terminate_cut hb e3 ht with ho | ⟨t', k4, e4⟩ | ⟨h5, k4⟩
      · exact .inl ho
      · exact .inr (.inl ⟨t', .garbage (h.start hst) k1 hd' k2 k3 k4, e4⟩)
      · exact .inr (.inr ⟨h5, .garbage (h.start hst) k1 hd' k2 k3 k4⟩)
  | failed hst hp hd ha =>
    rcases fails_cut h hp with hg | ⟨t1, k1, e1⟩
    · exact .inl (advance_gone hg hd ha)
    have hd' : t1.token = t1.delim := by rw [e1.fields.1, e1.fields.2.1]; exact hd
    rcases adv_cut hb e1 ha with ⟨t', k2, e2⟩ | ⟨h5, k2⟩
    · exact .inr (.inl ⟨t', .failed (h.start hst) k1 hd' k2, e2⟩)
    · exact .inr (.inr ⟨h5, .failed (h.start hst) k1 hd' k2⟩)
  | skipped hst hp hd hk ha =>
    have hdk := skipTo_delim hk
    rcases fails_cut h hp with hg | ⟨t1, k1, e1⟩
    · exact .inl (advance_gone (skipTo_gone hg hk) hdk ha)
    have hd' : t1.token ≠ t1.delim := by rw [e1.fields.1, e1.fields.2.1]; exact hd
    rcases skipTo_cut hb e1 hk with hg | ⟨t2, k2, e2⟩
    · exact .inl (advance_gone hg hdk ha)
    rcases adv_cut hb e2 ha with ⟨t', k3, e3⟩ | ⟨h5, k3⟩
    · exact .inr (.inl ⟨t', .skipped (h.start hst) k1 hd' k2 k3, e3⟩)
    · exact .inr (.inr ⟨h5, .skipped (h.start hst) k1 hd' k2 k3⟩)

/-- The rounds on `a`, up to its end, are rounds on `a ++ b`, up to the first token of `b`. -/
theorem rounds_cut (hb : (Lexer.mk (a ++ b) (blen a) b).nextToken chk = .ok tk sp m) {s s' t : St} {l : List SAst}
    (h : CutR chk a b s t) (hr : Rounds s l s') (he : s'.token = .eof) (hd : s'.delim = .semiColon) (hn : ¬ Loaded s') :
    Rounds t l (over a b tk sp m s') := by
  have hoff : ¬ Off s' := fun h => h.elim hn fun h => h.2 hd
  induction hr generalizing t with
  | nil => exact absurd he h.token
  | cons h1 h2 ih =>
    rcases round_cut hb h h1 with ho | ⟨t', k1, e1⟩ | ⟨h5, k1⟩
    · exact absurd (rounds_keepOff ho h2) hoff
    · exact .cons k1 (ih e1 he hd hn hoff)
    · cases h2 with
      | nil => exact .cons k1 .nil
      | cons h3 h4 =>
        refine absurd (rounds_keepOff (round_off (.inr ⟨h5, ?_⟩) h3) h4) hoff
        cases h3 with
        | clean h3 =>
          cases h3 with
          | skip hd' ha => rw [← hd', h5.2.2]; simp
          | delimiter _ hk => rw [h5.2.2] at hk; cases hk
          | stmt hst => exact absurd h5.2.2 hst.2.1
        | garbage hst => exact absurd h5.2.2 hst.2.1
        | failed hst => exact absurd h5.2.2 hst.2.1
        | skipped hst => exact absurd h5.2.2 hst.2.1

end SqlParse
