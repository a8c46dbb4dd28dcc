import Verif.Spec.Api
/-! Vocabulary for C14: the issues about style. -/
namespace SqlParse

/-- The options, with other values of the two warning flags. -/
def Opts.withWarnings (o : Opts) (unquoted caps : Bool) : Opts := { o with warnUnquoted := unquoted, warnCaps := caps }

/-- An issue about style, switched on by one of the two flags: "identifiers should be quoted as .." for
`warn_unquoted_identifiers`, "keyword .. should be in ALL CAPS .." for `warn_none_capital_keywords`. -/
def Issue.isStyle (unquoted caps : Bool) (i : Issue) : Prop :=
  (unquoted = true ∧ ∃ v, i.message = .unquoted v) ∨ (caps = true ∧ ∃ v, i.message = .caps v)

/-- `PlusSome P a b`: the list `b` is `a` with more elements put in, all of which satisfy `P`. -/
inductive PlusSome {α : Type} (P : α → Prop) : List α → List α → Prop where
  | nil : PlusSome P [] []
  | keep {a b : List α} (x : α) (h : PlusSome P a b) : PlusSome P (x :: a) (x :: b)
  | more {a b : List α} (x : α) (hx : P x) (h : PlusSome P a b) : PlusSome P a (x :: b)

end SqlParse
