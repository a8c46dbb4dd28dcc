import Verif.Api
/-! Vocabulary for statements about the two entry points. -/
namespace SqlParse

/-- The two entry points, as one family: `api` is one of them. -/
inductive Api : Type → Type where
  /-- lib.rs `parse_statement` -/
  | one : Api (Option SAst)
  /-- lib.rs `parse_statements` -/
  | many : Api (List SAst)

/-- Call an entry point and look at it after `n` steps. -/
def Api.run {α : Type} (api : Api α) (n : Nat) (checked : Bool) (src : List Char) (iss : Issues) (opts : Opts) : Res α :=
  match api with
  | .one => parseStatement n checked src iss opts
  | .many => parseStatements n checked src iss opts

/-- The call returns `a`, leaving `is` in the `Issues` object. -/
def Api.Returns {α : Type} (api : Api α) (checked : Bool) (src : List Char) (iss : Issues) (opts : Opts) (a : α)
    (is : List Issue) : Prop :=
  ∃ n, api.run n checked src iss opts = .ret a is

/-- The call panics with message `m`. -/
def Api.Panics {α : Type} (api : Api α) (checked : Bool) (src : List Char) (iss : Issues) (opts : Opts) (m : String) : Prop :=
  ∃ n, api.run n checked src iss opts = .panic m

/-- The call never returns: it is still running after any number of steps. -/
def Api.Hangs {α : Type} (api : Api α) (checked : Bool) (src : List Char) (iss : Issues) (opts : Opts) : Prop :=
  ∀ n, api.run n checked src iss opts = .running

/-- The statements a call returned. -/
def Api.stmts {α : Type} : Api α → α → List SAst
  | .one, o => o.toList
  | .many, l => l

/-- `sp` is the byte range of the occurrence of `text` in `src` that follows `pre`. -/
def SpanIs (src : List Char) (sp : Span) (text : List Char) : Prop :=
  ∃ pre post, src = pre ++ text ++ post ∧ sp.start = blen pre ∧ sp.stop = blen (pre ++ text)

/-- An issue of Error level. -/
def Issue.isError (i : Issue) : Prop := i.level = .error

/-- There is an Error level issue among `l`. -/
def HasError (l : List Issue) : Prop := ∃ i ∈ l, i.isError

end SqlParse
