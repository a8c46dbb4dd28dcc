import Verif.Spec.Tokens
import Verif.Prog
/-! Vocabulary for C46–C48: what the message of an issue claims about the source at the place the issue points to. -/
namespace SqlParse

/-- The words that the text of a message names or lists ("Expected ''UPDATE' or 'DELETE'' here"; of several words in a row, the first one).  (For the action of a foreign
key the text names DEFAULT, but the parser looks for DELETE there: "Expected ''NULL' or 'DEFAULT'' here" is said of a DEFAULT, see `C46_default_violated`.) -/
def namedWords : List (String × List Keyword) := [
  ("'BTREE', 'RTREE' or 'HASH'", [.BTREE, .RTREE, .HASH]),
  ("'UPDATE' or 'DELETE'", [.UPDATE, .DELETE]),
  ("'NULL' or 'DEFAULT'", [.NULL]),
  ("'RESTRICT' or 'CASCADE', 'SET' or 'NO", [.RESTRICT, .CASCADE, .SET, .NO]),
  ("'KEY' or 'INDEX'", [.KEY, .INDEX]),
  ("addable", [.FOREIGN, .PRIMARY, .INDEX, .KEY, .FULLTEXT, .UNIQUE, .SPATIAL, .COLUMN]),
  ("'DEFAULT' or 'NOT NULL'", [.DEFAULT, .NOT]),
  ("alter column action", [.SET, .DROP, .TYPE]),
  ("alter specification", [.ADD, .MODIFY, .OWNER, .DROP, .ALTER]),
  ("alterable", [.TABLE]),
  ("CASCADE, DELETE OR SET NULL", [.CASCADE, .DELETE, .SET]),
  ("language name", [.SQL, .PLPGSQL]),
  ("'DEFINER' or 'USER'", [.DEFINER, .USER]),
  ("'DEFINER', 'USER'", [.DEFINER, .USER]),
  ("'BEFORE' or 'AFTER'", [.BEFORE, .AFTER]),
  ("'UPDATE' or 'INSERT' or 'DELETE'", [.UPDATE, .INSERT, .DELETE]),
  ("'CHARSET' or 'COLLATE'", [.CHARSET, .COLLATE]),
  ("table option or delimiter", [.ENGINE, .DEFAULT, .CHARSET, .COLLATE, .ROW_FORMAT, .COMMENT, .STRICT]),
  ("'UNDEFINED', 'MERGE' or 'TEMPTABLE'", [.UNDEFINED, .MERGE, .TEMPTABLE]),
  ("'TABLE' | 'VIEW' | 'TRIGGER' | 'FUNCTION' | 'INDEX' | 'TYPE'", [.TABLE, .VIEW, .TRIGGER, .FUNCTION, .INDEX, .TYPE]),
  ("type", [.BOOLEAN, .TINYINT, .SMALLINT, .INT, .INTEGER, .BIGINT, .CHAR, .VARCHAR, .TEXT, .BLOB, .DATE, .TIME, .DATETIME, .TIMESTAMP, .FLOAT, .DOUBLE, .REAL,
    .NUMERIC, .ENUM, .SET, .JSON, .BIT, .BYTEA, .BINARY, .VARBINARY]),
  ("VALUE, VALUES, SELECT or SET", [.VALUE, .VALUES, .SELECT, .SET]),
  ("'NOTHING' or 'UPDATE'", [.NOTHING, .UPDATE]),
  ("'DUPLICATE' OR 'CONFLICT'", [.DUPLICATE, .CONFLICT]),
  ("INSERT or REPLACE", [.INSERT, .REPLACE]),
  ("droppable", [.TABLE, .DATABASE, .SCHEMA, .EVENT, .FUNCTION, .INDEX, .PROCEDURE, .SERVER, .TRIGGER, .VIEW]),
  ("'TRUE', 'FALSE', 'UNKNOWN' or 'NULL'", [.TRUE, .FALSE, .UNKNOWN, .NULL]),
  ("'NOT', 'TRUE', 'FALSE', 'UNKNOWN' or 'NULL'", [.NOT, .TRUE, .FALSE, .UNKNOWN, .NULL]),
  ("'IN' or 'LIKE'", [.IN, .LIKE]),
  ("'JOIN', 'GROUP BY' or 'ORDER BY'", [.JOIN, .GROUP, .ORDER]),
  ("'INDEX' or 'KEY'", [.INDEX, .KEY]),
  ("'INNER', 'LEFT', 'RIGHT' or 'JOIN'", [.INNER, .LEFT, .RIGHT, .JOIN]),
  ("UPDATE, SHARE, NO KEY UPDATE or KEY SHARE here", [.UPDATE, .SHARE, .NO, .KEY]),
  ("Condition information item name", [.CLASS_ORIGIN, .SUBCLASS_ORIGIN, .MESSAGE_TEXT, .MYSQL_ERRNO, .CONSTRAINT_CATALOG, .CONSTRAINT_SCHEMA, .CONSTRAINT_NAME,
    .CATALOG_NAME, .SCHEMA_NAME, .TABLE_NAME, .COLUMN_NAME, .CURSOR_NAME]),
  ("'SELECET' or '('", [.SELECT]),
  ("'END'", [.END]),
  ("'END' | 'EXCEPTION'", [.END, .EXCEPTION])]

/-- The other tokens that the text of a message names. -/
def namedTokens : List (String × List Token) := [
  ("'('", [.lParen]), ("')'", [.rParen]), (")", [.rParen]), ("')' or ','", [.rParen, .comma]), ("',' or ')'", [.comma, .rParen]), ("'SELECET' or '('", [.lParen]),
  ("Identifier or '*'", [.mul]), ("table option or delimiter", [.eof]), ("Unexpected token after statement", [.eof])]

/-- `t` is of a kind that the text names. -/
def Token.ofKind (s : String) : Token → Bool
  | .ident .. => s = "identifier" || s = "Identifier" || s = "Identifier or '*'" || s = "subquery or identifier"
  | .singleQuotedString _ => s = "string"
  | .doubleQuotedString _ => s = "string"
  | .integer _ => s = "integer"
  | .float _ => s = "float"
  | _ => false

/-- `t` is not the token that was wanted, nor any of those that the text names. -/
def Wanted.Missed (t : Token) : Wanted → Prop
  /- a keyword: `t` is a different word, or no word -/
  | .kw k => ∀ v, t ≠ .ident v k
  | .tok t' => t ≠ t'
  | .lit s => (∀ k ∈ (namedWords.lookup s).getD [], ∀ v, t ≠ .ident v k) ∧ (∀ u ∈ (namedTokens.lookup s).getD [], t ≠ u) ∧ t.ofKind s = false

/-- The texts that blame the parser itself: parser.rs:194-200 `ice` at alter.rs:544, expression.rs:1617, 1621, and the messages
of `Reducer::reduce` about its stack (expression.rs:1014, 1037). -/
def blameTexts : List String :=
  ["Internal compiler error at src/alter.rs:544", "Internal compiler error at src/expression.rs:1617",
   "Internal compiler error at src/expression.rs:1621", "ICE Reduce stack error 1", "ICE Reduce stack error 2"]

/-- The texts that say that something is only there for PostgreSQL. -/
def postgresOnlyTexts : List String :=
  ["CREATE TYPE only supported by postgresql", "Opclasses not supporetd", "Only support by postgesql",
   "Only support by PostgreSQL", "WITH statements only supported by postgresql"]

/-- The texts that say that something is only there for MariaDB. -/
def mariaOnlyTexts : List String := ["Only support by mariadb", "Index hints only supported by MariaDb"]

/-- The texts that say that something is not there for PostgreSQL. -/
def notPostgresTexts : List String :=
  ["On not supported for index drops in PostgreSQL", "quoted identifiers not supported by postgresql"]

/-- The texts that say that something is not there for MariaDB. -/
def notMariaTexts : List String :=
  ["On required for index drops in MariaDb", "Partial indexes not supported", "IF NOT EXIST is not supported"]

/-- What a message with a fixed text says is true: it speaks of the dialect that was selected; and no message ever blames
the parser itself. -/
structure PlainTrue (opts : Opts) (s : String) : Prop where
  blame : s ∉ blameTexts
  postgresOnly : s ∈ postgresOnlyTexts → opts.dialect ≠ .postgreSQL
  mariaOnly : s ∈ mariaOnlyTexts → opts.dialect ≠ .mariaDB
  notPostgres : s ∈ notPostgresTexts → opts.dialect = .postgreSQL
  notMaria : s ∈ notMariaTexts → opts.dialect = .mariaDB

/-- What the message of `i` says is true: the token that `i` points to is
* for "Expected '..' here" (an Error): not the keyword or the token expected, nor one of those that the text names;
* for "'v' is a reserved identifier use `v`" (an Error): the word `v`, which is a reserved keyword;
* for "identifiers should be quoted as `v`" (only with `warn_unquoted_identifiers`): the word `v`, not quoted, and not a
  reserved keyword;
* for "keyword v should be in ALL CAPS V" (a Warning, only with `warn_none_capital_keywords`): the word `v`, a keyword, not
  all of whose characters are capital letters. -/
def Issue.Truth (checked : Bool) (src : List Char) (opts : Opts) (i : Issue) : Prop :=
  match i.message with
  | .plain s => PlainTrue opts s
  | .expected w => i.level = .error ∧ ∃ t, IsToken checked src t i.span ∧ w.Missed t
  | .reserved v => i.level = .error ∧ i.segment = v ∧ (Keyword.ofStr (upper v)).reserved = true ∧
      ∃ k, IsToken checked src (.ident v k) i.span
  | .unquoted v => opts.warnUnquoted = true ∧ i.segment = v ∧ (Keyword.ofStr (upper v)).reserved = false ∧
      ∃ k, IsToken checked src (.ident v k) i.span
  | .caps v => opts.warnCaps = true ∧ i.level = .warning ∧ i.segment = v ∧ (∃ c ∈ v, isUp c = false) ∧
      Keyword.ofStr (upper v) ≠ .NOT_A_KEYWORD ∧ ∃ k, IsToken checked src (.ident v k) i.span

end SqlParse
