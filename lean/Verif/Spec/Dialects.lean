import Verif.Spec.Api
/-! Vocabulary for C56, C59: issues about features that the dialect does not have. -/
namespace SqlParse

/-- The texts of the Errors that say that a feature, which was understood, is not one of the selected dialect. -/
def dialectMessages : List Msg := [
  "Only support by mariadb", "Only support by postgesql", "Only support by PostgreSQL",
  "Index hints only supported by MariaDb",
  "WITH statements only supported by postgresql",
  "CREATE TYPE only supported by postgresql",
  "Opclasses not supporetd",
  "Partial indexes not supported",
  "IF NOT EXIST is not supported",
  "On required for index drops in MariaDb",
  "On not supported for index drops in PostgreSQL",
  "quoted identifiers not supported by postgresql"]

/-- The issue is such an Error. -/
def Issue.aboutDialect (i : Issue) : Bool := decide (i.level = .error) && decide (i.message ∈ dialectMessages)

/-- The issues without those. -/
def apartFromDialect (is : List Issue) : List Issue := is.filter fun i => !i.aboutDialect

end SqlParse
