import Verif.Proofs.SemiStmt
import Verif.Proofs.Compose
/-! Each round of `parse_statements` ends behind the next `;`, also if it finds an error. -/
namespace SqlParse
variable {md chk : Bool}

/-- The parser is between two statements. -/
structure Btw (md chk : Bool) (s : St) : Prop where
  checked : s.checked = chk
  delim : s.delim = .semiColon
  permit : s.permit = false
  peeked : s.peeked = none
  ahead : s.token = .eof ∨ (SemiAhead md chk s.token s.lx ∧ (s.token ≠ .semiColon → StartOk md s.token))

theorem lscript_start {l : Lexer} (h : LScript md chk true l) :
    ∃ t sp m, l.nextToken chk = .ok t sp m ∧ (t = .eof ∨ (SemiAhead md chk t m ∧ (t ≠ .semiColon → StartOk md t))) := by
  cases h with
  | eof h => exact ⟨_, _, _, h, .inl rfl⟩
  | semi h hr => exact ⟨_, _, _, h, .inr ⟨.inl ⟨rfl, hr⟩, fun h => absurd rfl h⟩⟩
  | tok h hs he ho hst hr => exact ⟨_, _, _, h, .inr ⟨.inr ⟨hs, he, ho, hr⟩, fun _ => hst rfl⟩⟩

theorem Near.semi {s : St} (h : Near md chk s) (hs : s.token = .semiColon) : s.peeked = none ∧ LScript md chk true s.lx := by
  have := h.ahead
  split at this
  · next hp =>
    rcases this with ⟨-, h⟩ | ⟨h, -⟩
    · exact ⟨hp, h⟩
    · exact absurd hs h
  · exact absurd hs this.1

/-- Behind the `;`. -/
theorem near_advance {s s' : St} (h : Near md chk s) (hs : s.token = .semiColon) (ha : Advance s s') : Btw md chk s' := by
  obtain ⟨h1, h2⟩ := h.semi hs
  obtain ⟨t, sp, m, e1, e2⟩ := lscript_start h2
  unfold Advance St.next at ha
  rw [h1, h.checked] at ha
  simp only [e1] at ha
  cases ha
  exact ⟨rfl, h.delim, h.permit, rfl, e2⟩

theorem Btw.near {s : St} (h : Btw md chk s) (he : s.token ≠ .eof) : Near md chk s := by
  refine ⟨h.checked, h.delim, h.permit, ?_⟩
  rw [h.peeked]
  exact (h.ahead.resolve_left he).1

theorem advance_near {s s' : St} (h : Near md chk s) (hs : s.token ≠ .semiColon) (ha : Advance s s') : Near md chk s' := by
  have := next_near h hs
  rw [show s.next = .ok () s' from ha] at this
  exact this

theorem skipTo_near {s s' : St} (h : Near md chk s) (hs : s.token ≠ .semiColon) (hk : SkipTo s s') : Near md chk s' := by
  induction hk with
  | here ha hd => exact advance_near h hs ha
  | next ha hd he _ ih =>
    have h1 := advance_near h hs ha
    exact ih h1 (by rw [← h1.delim]; exact hd)

theorem skipToEnd_near {s s' : St} (h : Near md chk s) (hs : s.token ≠ .semiColon) (hk : SkipToEnd s s') : False := by
  induction hk with
  | here ha hd he =>
    have h1 := advance_near h hs ha
    exact (h1.ok (by rw [← h1.delim]; exact hd)).1 he
  | next ha hd he _ ih =>
    have h1 := advance_near h hs ha
    exact ih h1 (by rw [← h1.delim]; exact hd)

theorem reports_near {s s' : St} {l : Level} {x : Msg} (h : Near md chk s) (hr : Reports l x s s') : Near md chk s' ∧ s'.token = s.token := by
  obtain ⟨seg, -, rfl⟩ := hr
  exact ⟨h.issues _, rfl⟩

theorem parsesTo_near {s s' : St} {v : SAst} (h : Btw md chk s) (hs : Start s) (hp : ParsesTo s v s') : Near md chk s' := by
  obtain ⟨n, hp⟩ := hp
  have := (runFn_near (md := md) (chk := chk) n).2 s (h.near hs.2.1) ((h.ahead.resolve_left hs.2.1).2 (by rw [← h.delim]; exact hs.1))
  rw [show runFn n _ .statement s = _ from hp] at this
  exact this

theorem failsTo_near {s s' : St} (h : Btw md chk s) (hs : Start s) (hp : FailsTo s s') : Near md chk s' := by
  obtain ⟨n, hp⟩ := hp
  have := (runFn_near (md := md) (chk := chk) n).2 s (h.near hs.2.1) ((h.ahead.resolve_left hs.2.1).2 (by rw [← h.delim]; exact hs.1))
  rcases hp with hp | ⟨s1, hp, hl⟩
  · rw [show runFn n _ .statement s = _ from hp] at this
    exact this
  · rw [show runFn n _ .statement s = _ from hp] at this
    exact (reports_near this hl).1

theorem terminate_btw {s s' : St} {v : SAst} {out : List SAst} (h : Near md chk s) (hd : s.token = s.delim) (ht : Terminate v s out s') :
    Loaded s' ∨ Btw md chk s' := by
  cases ht with
  | plain hv ha => exact .inr (near_advance h (by rw [hd, h.delim]) ha)
  | copy hv hr => exact .inl (readsData_loaded hr)

theorem round_btw {s s' : St} {out : List SAst} (h : Btw md chk s) (hr : Round s out s') : Loaded s' ∨ Btw md chk s' := by
  cases hr with
  | clean hr =>
    cases hr with
    | skip hd ha =>
      rw [h.delim] at hd
      exact .inr (near_advance (h.near (by rw [hd]; simp)) hd ha)
    | delimiter hd hk =>
      have he : s.token ≠ .eof := by intro e; rw [e] at hk; cases hk
      have := ((h.near he).ok (by rw [← h.delim]; exact hd)).2.delimiter
      rw [this] at hk; cases hk
    | stmt hs hp hd ht => exact terminate_btw (parsesTo_near h hs hp) hd ht
  | garbage hs hp hd hl hk ht =>
    obtain ⟨h1, h2⟩ := reports_near (parsesTo_near h hs hp) hl
    have h3 := parsesTo_near h hs hp
    exact terminate_btw (skipTo_near h1 (by rw [h2, ← h3.delim]; exact hd) hk) (skipTo_delim hk) ht
  | failed hs hp hd ha =>
    have h3 := failsTo_near h hs hp
    exact .inr (near_advance h3 (by rw [hd, h3.delim]) ha)
  | skipped hs hp hd hk ha =>
    have h3 := failsTo_near h hs hp
    have h4 := skipTo_near h3 (by rw [← h3.delim]; exact hd) hk
    exact .inr (near_advance h4 (by rw [skipTo_delim hk, h4.delim]) ha)

theorem rounds_btw {s s' : St} {l : List SAst} (h : Btw md chk s) (hr : Rounds s l s') : Loaded s' ∨ Btw md chk s' := by
  induction hr with
  | nil => exact .inr h
  | cons h1 h2 ih =>
    rcases round_btw h h1 with g | g
    · exact .inl (rounds_loaded g h2)
    · exact ih g

theorem lastRound_btw {s s' : St} {l : List SAst} (h : Btw md chk s) (hr : LastRound s l s') : l = [] ∧ s' = s ∧ s.token = .eof := by
  cases hr with
  | eof hd he => exact ⟨rfl, rfl, he⟩
  | garbage hs hp hd hl hk =>
    obtain ⟨h1, h2⟩ := reports_near (parsesTo_near h hs hp) hl
    have h3 := parsesTo_near h hs hp
    exact (skipToEnd_near h1 (by rw [h2, ← h3.delim]; exact hd) hk).elim
  | skipped hs hp hd hk =>
    have h3 := failsTo_near h hs hp
    exact (skipToEnd_near h3 (by rw [← h3.delim]; exact hd) hk).elim

theorem new_btw {src : List Char} {iss : Issues} {opts : Opts} {s : St} (h : LScript md chk true (Lexer.new src))
    (hn : St.new chk src iss opts = .ok () s) : Btw md chk s := by
  obtain ⟨t, sp, m, e1, e2⟩ := lscript_start h
  unfold St.new at hn
  rw [e1] at hn
  cases hn
  exact ⟨rfl, rfl, rfl, rfl, e2⟩

end SqlParse
