import Verif.Proofs.SoundApi
/-! C39: what is accepted without an issue is a sentence of the grammar.  C40: the grammar is unambiguous. -/
namespace SqlParse

/-- The position of the end of the source. -/
theorem laid_eof {chk : Bool} {data : Data} {o : Nat} {l : List Char} {ts : List Tk} (h : Laid chk data o l ts) :
    ∃ pre, ts = pre ++ [(.eof, ⟨o + blen l, o + blen l⟩)] := by
  induction h with
  | eof o u h => exact ⟨[], rfl⟩
  | tok o o' u w rest rest' t ts ht hs hf hg h ih =>
    obtain ⟨pre, ih⟩ := ih
    have e1 : o' + blen rest' = o + blen u + blen w + blen rest := by
      cases hg with
      | none => rfl
      | data => simp; omega
    have e2 : o' + blen rest' = o + blen (u ++ (w ++ rest)) := by rw [e1]; simp; omega
    exact ⟨_ :: pre, by rw [ih, List.cons_append, e2]⟩

theorem laid_end {chk : Bool} {data : Data} {src : List Char} {ts : List Tk} {sp : Span} (h : Laid chk data 0 src ts)
    (hs : [(Token.eof, sp)] <:+ ts) : [(Token.eof, sp)] = [eofTk src] := by
  obtain ⟨pre, h1⟩ := laid_eof h
  obtain ⟨pre', h2⟩ := hs
  rw [← h2] at h1
  have := (List.append_inj' h1 rfl).2
  simpa [eofTk] using this

theorem calm_end (s s' : St) (h : s'.issues = s.issues) : Calm ⟨s'.dataLog, s'.argLog⟩ s s' := ⟨h, ⟨[], by simp, by simp⟩, [], by simp, by simp⟩

/-! ### The theorems -/

/-- **C39** for `parse_statement`: if a call adds no issue then it has returned a statement `v`, and the source is one
statement of the grammar, with the AST `v`: everything written in the source is accounted for.  This holds for every source,
whether it can be divided into tokens or not. -/
theorem C39_statement (chk : Bool) (src : List Char) (iss : Issues) (opts : Opts) (r : Option SAst)
    (h : Api.one.Returns chk src iss opts r iss.issues) : ∃ v, r = some v ∧ IsStatement chk opts src v := by
  obtain ⟨n, h⟩ := h
  have := calls_sound n
  simp only [Api.run, parseStatement, runApi] at h
  cases hs : St.new chk src iss opts with
  | ok u s =>
    rw [hs] at h
    simp only at h
    cases h4 : singleStatement.run n s with
    | ok a s' =>
      obtain ⟨ts, h1, h2, hla⟩ := start_sat hs ⟨s'.dataLog, s'.argLog⟩
      have h3 := singleStatement_d (n := n) ⟨s'.dataLog, s'.argLog⟩ s h1
      rw [h4] at h h3
      simp only [Out.res, Res.ret.injEq] at h
      obtain ⟨rfl, h5⟩ := h
      obtain ⟨r, k1, k2, v, t, sp, tl, k3, k4, rfl, rfl⟩ := h3 (calm_end _ _ (by rw [h5, h2]))
      have := sat_eof k1 rfl
      subst this
      have hl := hla sp k2
      exact ⟨v, k3, _, _, ts, hl, by rw [laid_end hl k2] at k4; exact k4⟩
    | err s' =>
      obtain ⟨ts, h1, h2, hla⟩ := start_sat hs ⟨s'.dataLog, s'.argLog⟩
      have h3 := singleStatement_d (n := n) ⟨s'.dataLog, s'.argLog⟩ s h1
      rw [h4] at h h3
      simp only [Out.res, Res.ret.injEq] at h
      exact absurd (calm_end _ _ (h.2.trans h2.symm)) h3
    | panic m => rw [h4] at h; simp [Out.res] at h
    | oof => rw [h4] at h; simp [Out.res] at h
  | err s => rw [hs] at h; simp at h
  | panic m => rw [hs] at h; simp at h
  | oof => rw [hs] at h; simp at h

/-- **C39** for `parse_statements`: if a call adds no issue then the source is a script, and what is returned are its statements
(and its COPY data). -/
theorem C39_script (chk : Bool) (src : List Char) (iss : Issues) (opts : Opts) (l : List SAst)
    (h : Api.many.Returns chk src iss opts l iss.issues) : IsScript chk opts src l := by
  obtain ⟨n, h⟩ := h
  have := calls_sound n
  simp only [Api.run, parseStatements, runApi] at h
  cases hs : St.new chk src iss opts with
  | ok u s =>
    rw [hs] at h
    simp only [statements] at h
    cases h4 : (Prog.loop statementsStep []).run n s with
    | ok a s' =>
      obtain ⟨ts, h1, h2, hla⟩ := start_sat hs ⟨s'.dataLog, s'.argLog⟩
      have h3 := statements_sound (n := n) (acc := []) (.inl rfl) h1
      rw [h4] at h h3
      simp only [Out.res, Res.ret.injEq] at h
      obtain ⟨rfl, h5⟩ := h
      obtain ⟨l', k1, k2, sp, k3⟩ := h3 (calm_end _ _ (by rw [h5, h2]))
      rw [k1]
      exact ⟨_, _, ts, hla sp k3, k2⟩
    | err s' =>
      obtain ⟨ts, h1, h2, hla⟩ := start_sat hs ⟨s'.dataLog, s'.argLog⟩
      have h3 := statements_sound (n := n) (acc := []) (.inl rfl) h1
      rw [h4] at h h3
      simp only [Out.res, Res.ret.injEq] at h
      exact absurd (calm_end _ _ (h.2.trans h2.symm)) h3
    | panic m => rw [h4] at h; simp [Out.res] at h
    | oof => rw [h4] at h; simp [Out.res] at h
  | err s => rw [hs] at h; simp at h
  | panic m => rw [hs] at h; simp at h
  | oof => rw [hs] at h; simp at h

/-- **C38 and C39** together: `parse_statement` accepts exactly the statements of the grammar, and returns their AST. -/
theorem C39_statement_iff (chk : Bool) (src : List Char) (iss : Issues) (opts : Opts) (v : SAst)
    (hu : opts.warnUnquoted = false) (hc : opts.warnCaps = false) :
    Api.one.Returns chk src iss opts (some v) iss.issues ↔ IsStatement chk opts src v := by
  refine ⟨fun h => ?_, C38_statement chk src iss opts v hu hc⟩
  obtain ⟨v', h1, h2⟩ := C39_statement chk src iss opts _ h
  cases h1
  exact h2

/-- **C38 and C39** together for scripts. -/
theorem C39_script_iff (chk : Bool) (src : List Char) (iss : Issues) (opts : Opts) (l : List SAst)
    (hu : opts.warnUnquoted = false) (hc : opts.warnCaps = false) :
    Api.many.Returns chk src iss opts l iss.issues ↔ IsScript chk opts src l :=
  ⟨C39_script chk src iss opts l, C38_script chk src iss opts l hu hc⟩

/-- **C40**: a source is at most one statement of the grammar: the grammar is unambiguous. -/
theorem C40_statement (chk : Bool) (src : List Char) (opts : Opts) (v v' : SAst) (h : IsStatement chk opts src v)
    (h' : IsStatement chk opts src v') : v = v' := by
  have h1 := C38_statement chk src ⟨src, []⟩ opts.noStyle v rfl rfl h
  have h2 := C38_statement chk src ⟨src, []⟩ opts.noStyle v' rfl rfl h'
  have := (returns_unique .one h1 h2).1
  cases this
  rfl

/-- **C40** for scripts. -/
theorem C40_script (chk : Bool) (src : List Char) (opts : Opts) (l l' : List SAst) (h : IsScript chk opts src l)
    (h' : IsScript chk opts src l') : l = l' := by
  have h1 := C38_script chk src ⟨src, []⟩ opts.noStyle l rfl rfl h
  have h2 := C38_script chk src ⟨src, []⟩ opts.noStyle l' rfl rfl h'
  exact (returns_unique .many h1 h2).1

end SqlParse
