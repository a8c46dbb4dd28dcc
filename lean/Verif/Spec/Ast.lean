import Verif.Spec.Api
/-! Vocabulary for statements about returned ASTs. -/
namespace SqlParse

/-- `a.Has b`: the value `b` occurs in `a` (possibly `a` itself). -/
inductive Ast.Has : Ast → Ast → Prop where
  | refl (a : Ast) : Ast.Has a a
  | some (a b : Ast) (h : Ast.Has a b) : Ast.Has (.some a) b
  | list (l : List Ast) (a b : Ast) (hm : a ∈ l) (h : Ast.Has a b) : Ast.Has (.list l) b
  | node (k : Kind) (fs : List Ast) (a b : Ast) (hm : a ∈ fs) (h : Ast.Has a b) : Ast.Has (.node k fs) b

/-- The span is a range of the source on character boundaries. -/
def SpanValid (src : List Char) (sp : Span) : Prop := ∃ text, SpanIs src sp text

/-- The span `sp` is stored in `a`: as a field, or as the span of an identifier or string literal. -/
def Ast.HasSpan (a : Ast) (sp : Span) : Prop :=
  a.Has (.span sp) ∨ (∃ v, a.Has (.ident v sp)) ∨ (∃ v, a.Has (.sstring v sp))

/-- Everything stored in `a` ends before anything stored in `b` starts. -/
def Ast.Before (a b : Ast) : Prop := ∀ sa sb, a.HasSpan sa → b.HasSpan sb → sa.stop ≤ sb.start

/-- Kinds of statements that may begin with a keyword. -/
def kwKinds : List (Keyword × List Kind) := [
  (.CREATE, [.CreateTable, .CreateView, .CreateFunction, .CreateTrigger, .CreateIndex, .CreateTypeEnum]),
  (.DROP, [.DropTable, .DropDatabase, .DropEvent, .DropFunction, .DropIndex, .DropProcedure, .DropServer,
    .DropTrigger, .DropView]),
  (.SELECT, [.Select, .Union]),
  (.DELETE, [.Delete]), (.INSERT, [.InsertReplace]), (.REPLACE, [.InsertReplace]), (.UPDATE, [.Update]),
  (.SET, [.Set]), (.SIGNAL, [.Signal]), (.BEGIN, [.Statement_Block, .Statement_Begin]), (.END, [.Statement_End]),
  (.START, [.Statement_StartTransaction]), (.COMMIT, [.Statement_Commit]), (.IF, [.If]), (.RETURN, [.Return]),
  (.ALTER, [.AlterTable]), (.CASE, [.CaseStatement]), (.COPY, [.Copy]), (.DO, [.Statement_Do]),
  (.TRUNCATE, [.TruncateTable]), (.RENAME, [.RenameTable]), (.WITH, [.WithQuery])]

/-- Kinds of statements that may begin with the token `t`. -/
def stmtKinds (t : Token) : List Kind :=
  if t = .lParen then [.Select, .Union, .Statement_Invalid]
  else match kwKinds.lookup t.kw with
    | some l => l
    | none => []

/-- Placeholders the parser puts into the AST where it could not parse something. -/
def isPlaceholder : Kind → Bool
  | .Invalid => true
  | .Statement_Invalid => true
  | .Function_Unknown => true
  | _ => false

/-- The value is `Some(..)`. -/
def Ast.isSome : Ast → Bool
  | .some _ => true
  | _ => false

/-- Constructs the dialect `d` does not have (those that the parser checks). -/
def Unsupported (d : Dialect) : Ast → Prop
  /- WITH, ON CONFLICT, CREATE TYPE .. AS ENUM, named types, FOR NO KEY UPDATE, FOR KEY SHARE -/
  | .node .WithQuery _ => d ≠ .postgreSQL
  | .node .OnConflict _ => d ≠ .postgreSQL
  | .node .CreateTypeEnum _ => d ≠ .postgreSQL
  | .node .Type_Named _ => d ≠ .postgreSQL
  | .node .LockStrength_NoKeyUpdate _ => d ≠ .postgreSQL
  | .node .LockStrength_KeyShare _ => d ≠ .postgreSQL
  /- ON DUPLICATE KEY UPDATE -/
  | .node .InsertReplaceOnDuplicateKeyUpdate _ => d ≠ .mariaDB
  /- index hints after a table name -/
  | .node .TableReference_Table [_, _, _, .list (_ :: _)] => d ≠ .mariaDB
  /- UPDATE .. RETURNING -/
  | .node .Update [_, _, _, _, _, _, .some _] => d ≠ .postgreSQL
  /- DROP INDEX .. ON table -/
  | .node .DropIndex [_, _, _, _, .some _] => d = .postgreSQL
  /- DROP INDEX without ON -/
  | .node .DropIndex [_, _, _, _, .none] => d = .mariaDB
  /- CREATE INDEX .. WHERE -/
  | .node .CreateIndex [_, _, _, _, _, _, _, _, _, _, _, .some _] => d = .mariaDB
  /- DROP TABLE .. CASCADE -/
  | .node .DropTable [_, _, _, _, _, .some _] => d ≠ .postgreSQL
  /- ADD COLUMN IF NOT EXISTS -/
  | .node .AlterSpecification_AddColumn [_, .some _, _, _] => d = .mariaDB
  | _ => False

/-- An argument placeholder of the AST: its number and its span. -/
def Ast.HasArg (a : Ast) (i : Nat) (sp : Span) : Prop := a.Has (.node .Arg [.nat i, .span sp])
/-- A `_LIST_` marker of the AST: its number and its span. -/
def Ast.HasListHack (a : Ast) (i : Nat) (sp : Span) : Prop := a.Has (.node .ListHack [.nat i, .span sp])

/-- The tokens that get a number, in the given options. -/
def isMarker (o : Opts) (t : Token) : Prop :=
  (t = .questionMark ∧ o.arguments = .questionMark) ∨ (t = .percentS ∧ o.arguments = .percent) ∨
  (t.isKw .«_LIST_» = true ∧ o.listHack = true)

end SqlParse
