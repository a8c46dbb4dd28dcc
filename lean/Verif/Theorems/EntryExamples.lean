import Verif.Theorems.Entry
import Verif.Theorems.SoundExamples
/-! Non-vacuity of C50 and C51. -/
namespace SqlParse

theorem query_accepted : ∃ v, takesData v = false ∧ Api.one.Returns true querySrc ⟨querySrc, []⟩ queryOpts (some v) [] := by
  obtain ⟨a, is, h1, h2⟩ := returns_of_test (api := .one) (n := 60) (checked := true) (src := querySrc) (iss := ⟨querySrc, []⟩)
      (opts := queryOpts) (f := fun o is => is.isEmpty && o.any (fun v => !takesData v)) (by decide +kernel)
  simp only [Bool.and_eq_true, List.isEmpty_iff] at h2
  obtain ⟨rfl, h2⟩ := h2
  cases a with
  | none => cases h2
  | some v => exact ⟨v, by simpa using h2, h1⟩

/-- Non-vacuity of C50: a query that meets all hypotheses of `C50_agree`, and both sides hold. -/
example : ∃ v, ';' ∉ querySrc ∧ ¬ c!"$$" <:+: querySrc ∧ Api.one.Returns true querySrc ⟨querySrc, []⟩ queryOpts (some v) [] ∧
    Api.many.Returns true (querySrc ++ c!"\n;") ⟨querySrc ++ c!"\n;", []⟩ queryOpts [v] [] := by
  obtain ⟨v, h1, h2⟩ := query_accepted
  exact ⟨v, by decide +kernel, by decide +kernel, h2, C50_forward true querySrc _ ⟨_, []⟩ queryOpts v rfl rfl h2 h1⟩

/-- The condition on COPY in C50 is needed: COPY .. FROM STDIN is a statement, but as a script it is one without its data, and has two elements. -/
example : (Api.one.run 40 true c!"COPY t (a) FROM STDIN" ⟨c!"COPY t (a) FROM STDIN", []⟩ {}).test (fun o is => is.isEmpty && o.any takesData) = true ∧
    (Api.many.run 40 true c!"COPY t (a) FROM STDIN\n;" ⟨c!"COPY t (a) FROM STDIN\n;", []⟩ {}).test (fun l _ => decide (l.length = 2)) = true := by
  decide +kernel

/-- Non-vacuity of `C51_statement`. -/
example : AllTokens true querySrc := by
  obtain ⟨v, -, h⟩ := query_accepted
  exact C51_statement true querySrc _ queryOpts _ (.inl (by decide)) h

/-- Non-vacuity of `C51_script`. -/
example : AllTokens true copySrc := by
  obtain ⟨v, w, h⟩ := copy_scr
  exact C51_script true copySrc ⟨copySrc, []⟩ {} _ (.inl (by decide))
    (C38_script true copySrc _ {} _ rfl rfl ⟨copyData, allArgs, copyToks, copy_laid, h⟩)

/-- Non-vacuity of `C51_reported`: a string that is not closed. -/
example : ∃ a is, Api.one.Returns true c!"SELECT 'a" ⟨c!"SELECT 'a", []⟩ {} a is ∧
    Written true 0 c!"SELECT 'a" [(.ident c!"SELECT" .SELECT, ⟨0, 6⟩), (.invalid, ⟨7, 9⟩)] := by
  obtain ⟨a, is, h1, -⟩ := returns_of_test (api := .one) (n := 60) (checked := true) (src := c!"SELECT 'a") (iss := ⟨c!"SELECT 'a", []⟩)
      (opts := {}) (f := fun _ _ => true) (by decide +kernel)
  exact ⟨a, is, h1, (C37_written_iff true _ _ (by decide)).2 ⟨⟨c!"SELECT 'a", 9, []⟩, by decide +kernel⟩⟩

/-- Between `$$` and `$$` this is different (PostgreSQL): there is an invalid token (`€`) in the source, but it is accepted without any issue. -/
theorem C51_dollars : ∃ v toks, Api.one.Returns true c!"CREATE FUNCTION f(x int) RETURNS int AS $$€$$ LANGUAGE sql"
      ⟨c!"CREATE FUNCTION f(x int) RETURNS int AS $$€$$ LANGUAGE sql", []⟩ { dialect := .postgreSQL } (some v) [] ∧
    Written true 0 c!"CREATE FUNCTION f(x int) RETURNS int AS $$€$$ LANGUAGE sql" toks ∧ ∃ sp, (Token.invalid, sp) ∈ toks := by
  obtain ⟨a, is, h1, h2⟩ := returns_of_test (api := .one) (n := 60) (checked := true)
      (src := c!"CREATE FUNCTION f(x int) RETURNS int AS $$€$$ LANGUAGE sql") (iss := ⟨c!"CREATE FUNCTION f(x int) RETURNS int AS $$€$$ LANGUAGE sql", []⟩)
      (opts := { dialect := .postgreSQL }) (f := fun o is => is.isEmpty && o.isSome) (by decide +kernel)
  simp only [Bool.and_eq_true, List.isEmpty_iff] at h2
  obtain ⟨rfl, h2⟩ := h2
  cases a with
  | none => cases h2
  | some v =>
    refine ⟨v, [(.ident c!"CREATE" .CREATE, ⟨0, 6⟩), (.ident c!"FUNCTION" .FUNCTION, ⟨7, 15⟩), (.ident c!"f" .NOT_A_KEYWORD, ⟨16, 17⟩),
      (.lParen, ⟨17, 18⟩), (.ident c!"x" .NOT_A_KEYWORD, ⟨18, 19⟩), (.ident c!"int" .INT, ⟨20, 23⟩), (.rParen, ⟨23, 24⟩),
      (.ident c!"RETURNS" .RETURNS, ⟨25, 32⟩), (.ident c!"int" .INT, ⟨33, 36⟩), (.ident c!"AS" .AS, ⟨37, 39⟩), (.doubleDollar, ⟨40, 42⟩),
      (.invalid, ⟨42, 45⟩), (.doubleDollar, ⟨45, 47⟩), (.ident c!"LANGUAGE" .LANGUAGE, ⟨48, 56⟩), (.ident c!"sql" .SQL, ⟨57, 60⟩)], h1,
      (C37_written_iff true _ _ (by decide)).2 ⟨⟨c!"CREATE FUNCTION f(x int) RETURNS int AS $$€$$ LANGUAGE sql", 60, []⟩, by decide +kernel⟩, ⟨42, 45⟩, by decide⟩

end SqlParse
