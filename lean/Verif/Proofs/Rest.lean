import Verif.Spec.Script
import Verif.Proofs.Sim
/-! The rest of a call depends on the position, the argument counter, the delimiter and the mode only (C20). -/
namespace SqlParse

/-- As `SameBut`, the ghost field differs too. -/
def SameRun (l1 l2 : List Issue) (s t : St) : Prop :=
  ∃ l log dl, s.issues = l1 ++ l ∧ t = { s with issues := l2 ++ l, argLog := log, dataLog := dl }

variable {l1 l2 : List Issue}

theorem next_sameRun {s t : St} (h : SameRun l1 l2 s t) : OutRel (SameRun l1 l2) (fun _ => False) s.next t.next := by
  obtain ⟨l, log, dl, h1, rfl⟩ := h
  unfold St.next
  simp only
  cases hp : s.peeked with
  | some p => exact ⟨rfl, l, log, dl, h1, rfl⟩
  | none =>
    simp only
    cases s.lx.nextToken s.checked with
    | ok t sp lx => exact ⟨rfl, l, log, dl, h1, rfl⟩
    | panic m => exact .inl rfl

theorem issue_sameRun {s t : St} (h : SameRun l1 l2 s t) (l : Level) (m : Msg) (sp : Span) (fr) :
    OutRel (SameRun l1 l2) (fun _ => False) (s.issue l m sp fr) (t.issue l m sp fr) := by
  obtain ⟨l', log, dl, h1, rfl⟩ := h
  unfold St.issue
  simp only
  split
  · next seg fs _ _ => exact ⟨rfl, l' ++ [⟨l, m, sp, seg, fs⟩], log, dl, by simp [h1], by simp⟩
  · exact .inl rfl

theorem op_sameRun {α : Type} (o : Op α) (s t : St) (h : SameRun l1 l2 s t) :
    OutRel (SameRun l1 l2) (fun _ => False) (o.run s) (o.run t) := by
  cases o with
  | cur => obtain ⟨l, log, dl, h1, rfl⟩ := h; exact ⟨rfl, l, log, dl, h1, rfl⟩
  | next => exact next_sameRun h
  | leftParenAhead =>
    obtain ⟨l, log, dl, h1, rfl⟩ := h
    simp only [Op.run]
    split
    · cases hp : s.peeked with
      | some p => exact ⟨rfl, l, log, dl, h1, by simp [hp]⟩
      | none =>
        simp only
        cases s.lx.nextToken s.checked with
        | ok t sp lx => exact ⟨rfl, l, log, dl, h1, rfl⟩
        | panic m => exact .inl rfl
    · exact ⟨rfl, l, log, dl, h1, rfl⟩
  | issue l m sp fr => exact issue_sameRun h _ _ _ _
  | issueIf f l v sp =>
    simp only [Op.run]
    have : t.opts = s.opts := by obtain ⟨l, log, dl, h1, rfl⟩ := h; rfl
    rw [this]
    split
    · exact issue_sameRun h _ _ _ _
    · exact ⟨rfl, h⟩
  | takeArg =>
    rw [takeArg_run, takeArg_run]
    have h0 : SameRun l1 l2 { s with arg := s.arg + 1, argLog := s.argLog ++ [s.span] }
        { t with arg := t.arg + 1, argLog := t.argLog ++ [t.span] } := by
      obtain ⟨l, log, dl, h1, rfl⟩ := h; exact ⟨l, log ++ [s.span], dl, h1, rfl⟩
    refine bind_rel (next_sameRun h0) (k := fun _ s' => .ok (s.arg, s.span) s') (k' := fun _ s' => .ok (t.arg, t.span) s') ?_
    intro _ s' t' hst
    obtain ⟨l, log, dl, h1, rfl⟩ := h
    exact ⟨rfl, hst⟩
  | delim => obtain ⟨l, log, dl, h1, rfl⟩ := h; exact ⟨rfl, l, log, dl, h1, rfl⟩
  | setDelim d => obtain ⟨l, log, dl, h1, rfl⟩ := h; exact ⟨rfl, l, log, dl, h1, rfl⟩
  | permit => obtain ⟨l, log, dl, h1, rfl⟩ := h; exact ⟨rfl, l, log, dl, h1, rfl⟩
  | setPermit b => obtain ⟨l, log, dl, h1, rfl⟩ := h; exact ⟨rfl, l, log, dl, h1, rfl⟩
  | dialect => obtain ⟨l, log, dl, h1, rfl⟩ := h; exact ⟨rfl, l, log, dl, h1, rfl⟩
  | arguments => obtain ⟨l, log, dl, h1, rfl⟩ := h; exact ⟨rfl, l, log, dl, h1, rfl⟩
  | listHack => obtain ⟨l, log, dl, h1, rfl⟩ := h; exact ⟨rfl, l, log, dl, h1, rfl⟩
  | stdin =>
    have this : t.lx = s.lx := by obtain ⟨l, log, dl, h1, rfl⟩ := h; rfl
    cases hr : s.lx.readStdin with
    | none => simp only [Op.run, this, hr]; exact .inl rfl
    | some r =>
      obtain ⟨d, sp, lx⟩ := r
      rw [stdin_run hr, stdin_run (this ▸ hr)]
      have h0 : SameRun l1 l2 { s with lx := lx, dataLog := s.dataLog ++ [(s.span, d, sp)] } { t with lx := lx, dataLog := t.dataLog ++ [(t.span, d, sp)] } := by
        obtain ⟨l, log, dl, h1, rfl⟩ := h; exact ⟨l, log, _, h1, rfl⟩
      exact bind_rel (next_sameRun h0) (k := fun _ s' => .ok (d, sp) s') (k' := fun _ s' => .ok (d, sp) s')
        (fun _ _ _ hst => ⟨rfl, hst⟩)

theorem outRel_ok {α : Type} {S : St → St → Prop} {o : Out α} {a : α} {s : St} (h : OutRel S (fun _ => False) (.ok a s) o) :
    ∃ t, o = .ok a t ∧ S s t := by
  cases o with
  | ok b t => obtain ⟨rfl, h⟩ := h; exact ⟨t, rfl, h⟩
  | err t => exact absurd h (by simp [OutRel])
  | panic m => exact absurd h (by simp [OutRel])
  | oof => exact absurd h (by simp [OutRel])

theorem outRel_err {α : Type} {S : St → St → Prop} {o : Out α} {s : St} (h : OutRel S (fun _ => False) (.err s) o) :
    ∃ t, o = .err t ∧ S s t := by
  cases o with
  | ok b t => exact absurd h (by simp [OutRel])
  | err t => exact ⟨t, rfl, h⟩
  | panic m => exact absurd h (by simp [OutRel])
  | oof => exact absurd h (by simp [OutRel])

section
variable {s s' t : St}

theorem SameRun.fields (h : SameRun l1 l2 s t) : t.token = s.token ∧ t.delim = s.delim := by
  obtain ⟨l, log, dl, h1, rfl⟩ := h; exact ⟨rfl, rfl⟩

theorem advance_same (hst : SameRun l1 l2 s t) (h : Advance s s') : ∃ t', Advance t t' ∧ SameRun l1 l2 s' t' := by
  have := next_sameRun hst
  rw [show s.next = .ok () s' from h] at this
  exact outRel_ok this

theorem reports_same {l : Level} {m : Msg} (hst : SameRun l1 l2 s t) (h : Reports l m s s') :
    ∃ t', Reports l m t t' ∧ SameRun l1 l2 s' t' := by
  obtain ⟨seg, h1, rfl⟩ := h
  obtain ⟨k, log, dl, h2, rfl⟩ := hst
  exact ⟨_, ⟨seg, h1, rfl⟩, k ++ [⟨l, m, s.span, seg, []⟩], log, dl, by simp [h2], by simp⟩

theorem SameRun.opts (h : SameRun l1 l2 s t) : t.opts = s.opts := by
  obtain ⟨l, log, dl, h1, rfl⟩ := h; rfl

theorem capsNote_same (hst : SameRun l1 l2 s t) (h : CapsNote s s') : ∃ t', CapsNote t t' ∧ SameRun l1 l2 s' t' := by
  unfold CapsNote at *
  rw [hst.opts, hst.fields.1]
  split
  · next hc => rw [if_pos hc] at h; exact reports_same hst h
  · next hc => rw [if_neg hc] at h; exact ⟨t, rfl, h ▸ hst⟩

theorem delimiterNote_same (hst : SameRun l1 l2 s t) (h : DelimiterNote s s') : ∃ t', DelimiterNote t t' ∧ SameRun l1 l2 s' t' := by
  unfold DelimiterNote at *
  rw [hst.fields.1]
  split
  · next hc => rw [if_pos hc] at h; exact ⟨t, rfl, h ▸ hst⟩
  · next hc => rw [if_neg hc] at h; exact reports_same hst h

theorem parsesTo_same {v : SAst} (hst : SameRun l1 l2 s t) (h : ParsesTo s v s') : ∃ t', ParsesTo t v t' ∧ SameRun l1 l2 s' t' := by
  obtain ⟨n, h⟩ := h
  have := run_rel op_sameRun n (.call .statement) s t hst
  rw [h] at this
  obtain ⟨t', h1, h2⟩ := outRel_ok this
  exact ⟨t', ⟨n, h1⟩, h2⟩

theorem failsTo_same (hst : SameRun l1 l2 s t) (h : FailsTo s s') : ∃ t', FailsTo t t' ∧ SameRun l1 l2 s' t' := by
  obtain ⟨n, h⟩ := h
  have := run_rel op_sameRun n (.call .statement) s t hst
  rcases h with h | ⟨s1, h, hl⟩
  · rw [h] at this
    obtain ⟨t', h1, h2⟩ := outRel_err this
    exact ⟨t', ⟨n, .inl h1⟩, h2⟩
  · rw [h] at this
    obtain ⟨t1, h1, h2⟩ := outRel_ok this
    obtain ⟨t', h3, h4⟩ := reports_same h2 hl
    exact ⟨t', ⟨n, .inr ⟨t1, h1, h3⟩⟩, h4⟩

theorem readsData_same {d : List Char} {sp : Span} (hst : SameRun l1 l2 s t) (h : ReadsData s d sp s') :
    ∃ t', ReadsData t d sp t' ∧ SameRun l1 l2 s' t' := by
  obtain ⟨lx, h1, h2⟩ := h
  have h0 : SameRun l1 l2 { s with lx := lx, dataLog := s.dataLog ++ [(s.span, d, sp)] } { t with lx := lx, dataLog := t.dataLog ++ [(t.span, d, sp)] } := by
    obtain ⟨l, log, dl, h1, rfl⟩ := hst; exact ⟨l, log, _, h1, rfl⟩
  obtain ⟨t', h3, h4⟩ := advance_same h0 h2
  refine ⟨t', ⟨lx, ?_, h3⟩, h4⟩
  obtain ⟨l, log, dl, -, rfl⟩ := hst
  exact h1

theorem terminate_same {v : SAst} {out : List SAst} (hst : SameRun l1 l2 s t) (h : Terminate v s out s') :
    ∃ t', Terminate v t out t' ∧ SameRun l1 l2 s' t' := by
  cases h with
  | plain hv h =>
    obtain ⟨t', h1, h2⟩ := advance_same hst h
    exact ⟨t', .plain hv h1, h2⟩
  | copy hv h =>
    obtain ⟨t', h1, h2⟩ := readsData_same hst h
    exact ⟨t', .copy hv h1, h2⟩

theorem skipTo_same (hst : SameRun l1 l2 s t) (h : SkipTo s s') : ∃ t', SkipTo t t' ∧ SameRun l1 l2 s' t' := by
  induction h generalizing t with
  | here h hd =>
    obtain ⟨t', h1, h2⟩ := advance_same hst h
    exact ⟨t', .here h1 (by rw [h2.fields.1, h2.fields.2]; exact hd), h2⟩
  | next h hd he _ ih =>
    obtain ⟨t1, h1, h2⟩ := advance_same hst h
    obtain ⟨t', h3, h4⟩ := ih h2
    exact ⟨t', .next h1 (by rw [h2.fields.1, h2.fields.2]; exact hd) (by rw [h2.fields.1]; exact he) h3, h4⟩

theorem skipToEnd_same (hst : SameRun l1 l2 s t) (h : SkipToEnd s s') : ∃ t', SkipToEnd t t' ∧ SameRun l1 l2 s' t' := by
  induction h generalizing t with
  | here h hd he =>
    obtain ⟨t', h1, h2⟩ := advance_same hst h
    exact ⟨t', .here h1 (by rw [h2.fields.1, h2.fields.2]; exact hd) (by rw [h2.fields.1]; exact he), h2⟩
  | next h hd he _ ih =>
    obtain ⟨t1, h1, h2⟩ := advance_same hst h
    obtain ⟨t', h3, h4⟩ := ih h2
    exact ⟨t', .next h1 (by rw [h2.fields.1, h2.fields.2]; exact hd) (by rw [h2.fields.1]; exact he) h3, h4⟩

theorem start_same (hst : SameRun l1 l2 s t) (h : Start s) : Start t := by
  obtain ⟨l, log, dl, -, rfl⟩ := hst
  exact h

theorem tokne_same (hst : SameRun l1 l2 s t) (h : s.token ≠ s.delim) : t.token ≠ t.delim := by
  obtain ⟨l, log, dl, -, rfl⟩ := hst
  exact h
theorem tokeq_same (hst : SameRun l1 l2 s t) (h : s.token = s.delim) : t.token = t.delim := by
  obtain ⟨l, log, dl, -, rfl⟩ := hst
  exact h

theorem round_same {out : List SAst} (hst : SameRun l1 l2 s t) (h : Round s out s') : ∃ t', Round t out t' ∧ SameRun l1 l2 s' t' := by
  cases h with
  | clean h =>
    cases h with
    | skip hd h =>
      obtain ⟨t', h1, h2⟩ := advance_same hst h
      exact ⟨t', .clean (.skip (tokeq_same hst hd) h1), h2⟩
    | @delimiter s1 s2 s3 _ hd hk h1 h2 h3 h4 =>
      obtain ⟨t1, k1, e1⟩ := capsNote_same hst h1
      obtain ⟨t2, k2, e2⟩ := advance_same e1 h2
      obtain ⟨t3, k3, e3⟩ := delimiterNote_same e2 h3
      have e4 : SameRun l1 l2 { s3 with delim := s2.token } { t3 with delim := t2.token } := by
        have := e2.fields.1
        obtain ⟨l, log, dl, h1, rfl⟩ := e3; exact ⟨l, log, dl, h1, by rw [this]⟩
      obtain ⟨t', k4, e5⟩ := advance_same e4 h4
      exact ⟨t', .clean (.delimiter (tokne_same hst hd) (by rw [hst.fields.1]; exact hk) k1 k2 k3 k4), e5⟩
    | stmt hs h hd ht =>
      obtain ⟨t1, k1, e1⟩ := parsesTo_same hst h
      obtain ⟨t', k2, e2⟩ := terminate_same e1 ht
      exact ⟨t', .clean (.stmt (start_same hst hs) k1 (tokeq_same e1 hd) k2), e2⟩
  | garbage hs h hd hl hk ht =>
    obtain ⟨t1, k1, e1⟩ := parsesTo_same hst h
    obtain ⟨t2, k2, e2⟩ := reports_same e1 hl
    obtain ⟨t3, k3, e3⟩ := skipTo_same e2 hk
    obtain ⟨t', k4, e4⟩ := terminate_same e3 ht
    exact ⟨t', .garbage (start_same hst hs) k1 (tokne_same e1 hd) (by rw [e1.fields.2]; exact k2) k3 k4, e4⟩
  | failed hs h hd ha =>
    obtain ⟨t1, k1, e1⟩ := failsTo_same hst h
    obtain ⟨t', k2, e2⟩ := advance_same e1 ha
    exact ⟨t', .failed (start_same hst hs) k1 (tokeq_same e1 hd) k2, e2⟩
  | skipped hs h hd hk ha =>
    obtain ⟨t1, k1, e1⟩ := failsTo_same hst h
    obtain ⟨t2, k2, e2⟩ := skipTo_same e1 hk
    obtain ⟨t', k3, e3⟩ := advance_same e2 ha
    exact ⟨t', .skipped (start_same hst hs) k1 (tokne_same e1 hd) k2 k3, e3⟩

theorem lastRound_same {out : List SAst} (hst : SameRun l1 l2 s t) (h : LastRound s out s') :
    ∃ t', LastRound t out t' ∧ SameRun l1 l2 s' t' := by
  cases h with
  | eof hd he => exact ⟨t, .eof (tokne_same hst hd) (by rw [hst.fields.1]; exact he), hst⟩
  | garbage hs h hd hl hk =>
    obtain ⟨t1, k1, e1⟩ := parsesTo_same hst h
    obtain ⟨t2, k2, e2⟩ := reports_same e1 hl
    obtain ⟨t3, k3, e3⟩ := skipToEnd_same e2 hk
    exact ⟨t3, .garbage (start_same hst hs) k1 (tokne_same e1 hd) (by rw [e1.fields.2]; exact k2) k3, e3⟩
  | skipped hs h hd hk =>
    obtain ⟨t1, k1, e1⟩ := failsTo_same hst h
    obtain ⟨t2, k2, e2⟩ := skipToEnd_same e1 hk
    exact ⟨t2, .skipped (start_same hst hs) k1 (tokne_same e1 hd) k2, e2⟩

theorem rounds_same {out : List SAst} (hst : SameRun l1 l2 s t) (h : Rounds s out s') : ∃ t', Rounds t out t' ∧ SameRun l1 l2 s' t' := by
  induction h generalizing t with
  | nil => exact ⟨t, .nil, hst⟩
  | cons h _ ih =>
    obtain ⟨t1, h1, h2⟩ := round_same hst h
    obtain ⟨t', h3, h4⟩ := ih h2
    exact ⟨t', .cons h1 h3, h4⟩
end

/-- Continuing from a state with the same position, argument counter, delimiter and mode gives the same statements and
the same new issues. -/
theorem finishes_same {s t : St} {l : List SAst} {new : List Issue} (hst : ∃ is log dl, t = { s with issues := is, argLog := log, dataLog := dl })
    (h : Finishes s l new) : Finishes t l new := by
  obtain ⟨is, log, dl, rfl⟩ := hst
  obtain ⟨la, lb, s1, s', h1, h2, h3, h4⟩ := h
  have h0 : SameRun s.issues is s { s with issues := is, argLog := log, dataLog := dl } := ⟨[], log, dl, by simp, by simp⟩
  obtain ⟨t1, k1, e1⟩ := rounds_same h0 h1
  obtain ⟨t', k2, e2⟩ := lastRound_same e1 h2
  refine ⟨la, lb, t1, t', k1, k2, h3, ?_⟩
  obtain ⟨k, log', dl', g1, rfl⟩ := e2
  have : k = new := by rw [h4] at g1; simpa using g1.symm
  rw [this]

end SqlParse
