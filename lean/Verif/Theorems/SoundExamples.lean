import Verif.Theorems.Sound
import Verif.Theorems.GrammarExamples
import Verif.Proofs.Examples
/-! Non-vacuity of C39 and C40: sources that meet the hypotheses. -/
namespace SqlParse

theorem query_written : Written true 0 querySrc queryToks :=
  (C37_written_iff true _ _ (by decide)).2 ⟨⟨querySrc, 94, []⟩, by decide +kernel⟩

theorem script_written : Written true 0 scriptSrc scriptToks :=
  (C37_written_iff true _ _ (by decide)).2 ⟨⟨scriptSrc, 154, []⟩, by decide +kernel⟩

/-- Non-vacuity of `C39_statement`, `C39_statement_iff` and `C40_statement`. -/
example : ∃ v, Api.one.Returns true querySrc ⟨querySrc, []⟩ queryOpts (some v) [] ∧
    IsStatement true queryOpts querySrc v := by
  obtain ⟨v, h⟩ := query_stm
  have hs : IsStatement true queryOpts querySrc v := isStatement_written query_written h
  exact ⟨v, C38_statement true querySrc ⟨querySrc, []⟩ queryOpts v rfl rfl hs, hs⟩

/-- Non-vacuity of `C39_script`, `C39_script_iff` and `C40_script`. -/
example : ∃ l, l.length = 2 ∧ Api.many.Returns true scriptSrc ⟨scriptSrc, []⟩ {} l [] ∧
    IsScript true {} scriptSrc l := by
  obtain ⟨v, w, h⟩ := script_scr
  have hs : IsScript true {} scriptSrc [v, w] := isScript_written script_written h
  exact ⟨_, rfl, C38_script true scriptSrc ⟨scriptSrc, []⟩ {} _ rfl rfl hs, hs⟩

/-- Non-vacuity of `C39_statement_iff`: COPY data inside of a block. -/
example : ∃ v, Api.one.Returns true nestedSrc ⟨nestedSrc, []⟩ {} (some v) [] ∧ IsStatement true {} nestedSrc v := by
  obtain ⟨v, h⟩ := nested_stm
  have hs : IsStatement true {} nestedSrc v := ⟨nestedData, allArgs, nestedToks, nested_laid, h⟩
  exact ⟨v, (C39_statement_iff true nestedSrc ⟨nestedSrc, []⟩ {} v rfl rfl).2 hs, hs⟩

/-- Non-vacuity of `C39_script_iff`: a script with COPY data. -/
example : ∃ l, l.length = 3 ∧ Api.many.Returns true copySrc ⟨copySrc, []⟩ {} l [] ∧ IsScript true {} copySrc l := by
  obtain ⟨v, w, h⟩ := copy_scr
  have hs : IsScript true {} copySrc _ := ⟨copyData, allArgs, copyToks, copy_laid, h⟩
  exact ⟨_, rfl, (C39_script_iff true copySrc ⟨copySrc, []⟩ {} _ rfl rfl).2 hs, hs⟩

/-- A function of PostgreSQL; there are two invalid tokens in its body. -/
def dollarSrc : List Char := c!"CREATE FUNCTION f(x int) RETURNS int AS $$ anything ; € $ at all $$ LANGUAGE plpgsql"

/-- The options: PostgreSQL, `$1` .. are arguments. -/
def dollarOpts : Opts := { dialect := .postgreSQL, arguments := .dollar }

/-- Non-vacuity of `C39_statement` with `$$`: the source is accepted, and so it is a statement of the grammar. -/
example : ∃ v, Api.one.Returns true dollarSrc ⟨dollarSrc, []⟩ dollarOpts (some v) [] ∧
    IsStatement true dollarOpts dollarSrc v := by
  obtain ⟨a, is, h1, h2⟩ := returns_of_test (api := .one) (n := 60) (checked := true) (src := dollarSrc) (iss := ⟨dollarSrc, []⟩)
      (opts := dollarOpts) (f := fun _ is => is.isEmpty) (by decide +kernel)
  cases is with
  | nil =>
    obtain ⟨v, rfl, h3⟩ := C39_statement true dollarSrc ⟨dollarSrc, []⟩ dollarOpts a h1
    exact ⟨v, h1, h3⟩
  | cons => cases h2

/-- `_LIST_` as a name and as the placeholder of a list, both in one statement. -/
def listSrc : List Char := c!"SELECT 1 AS _LIST_ FROM t WHERE a IN (_LIST_) AND b = ?"

/-- The options: `_LIST_` stands for a list, `?` is an argument. -/
def listOpts : Opts := { listHack := true, arguments := .questionMark }

/-- Non-vacuity of `C39_statement_iff` with the list hack and with arguments: the first `_LIST_` is a name and the second is not. -/
example : ∃ v, Api.one.Returns true listSrc ⟨listSrc, []⟩ listOpts (some v) [] ∧ IsStatement true listOpts listSrc v := by
  obtain ⟨a, is, h1, h2⟩ := returns_of_test (api := .one) (n := 60) (checked := true) (src := listSrc) (iss := ⟨listSrc, []⟩)
      (opts := listOpts) (f := fun a is => is.isEmpty && a.any (fun v =>
        v.ast.find (fun | .node .ListHack _ => true | _ => false) &&
        v.ast.find (fun | .node .Arg _ => true | _ => false))) (by decide +kernel)
  cases is with
  | nil =>
    cases a with
    | none => simp at h2
    | some v => exact ⟨v, h1, (C39_statement_iff true listSrc ⟨listSrc, []⟩ listOpts v rfl rfl).1 h1⟩
  | cons => simp at h2

/-- A function of PostgreSQL with a marker inside of its body. -/
def bodySrc : List Char := c!"CREATE FUNCTION f(x int) RETURNS int AS $$ SELECT $1 $$ LANGUAGE plpgsql"

/-- Non-vacuity of `C39_statement` with a marker in a body. -/
example : ∃ v, Api.one.Returns true bodySrc ⟨bodySrc, []⟩ dollarOpts (some v) [] ∧
    IsStatement true dollarOpts bodySrc v := by
  obtain ⟨a, is, h1, h2⟩ := returns_of_test (api := .one) (n := 60) (checked := true) (src := bodySrc) (iss := ⟨bodySrc, []⟩)
      (opts := dollarOpts) (f := fun _ is => is.isEmpty) (by decide +kernel)
  cases is with
  | nil =>
    obtain ⟨v, rfl, h3⟩ := C39_statement true bodySrc ⟨bodySrc, []⟩ dollarOpts a h1
    exact ⟨v, h1, h3⟩
  | cons => cases h2

end SqlParse
