import Verif.Prog
/-! Model of `ParseOptions` and `SQLDialect` (/repo/src/lib.rs). -/
namespace SqlParse

/-- lib.rs:118-120 `is_postgresql` -/
def Dialect.isPostgresql : Dialect → Bool
  | .postgreSQL => true
  | _ => false
/-- lib.rs:122-124 `is_maria` -/
def Dialect.isMaria : Dialect → Bool
  | .mariaDB => true
  | _ => false
/-- lib.rs:126-128 `is_sqlite` -/
def Dialect.isSqlite : Dialect → Bool
  | .sqlite => true
  | _ => false

/-- lib.rs:167-169 `ParseOptions::new`, lib.rs:154-164 `default` -/
def Opts.new : Opts := { dialect := .mariaDB, arguments := .none, warnCaps := false, warnUnquoted := false, listHack := false }

/-- The setters of `ParseOptions`. -/
inductive OptCall where
  | dialect (d : Dialect)
  | arguments (a : Arguments)
  | warnUnquoted (b : Bool)
  | warnCaps (b : Bool)
  | listHack (b : Bool)

/-- lib.rs:172-174 `dialect`, 181-183 `arguments`, 186-191 `warn_unquoted_identifiers`, 194-199 `warn_none_capital_keywords`, 202-204 `list_hack` -/
def Opts.call (o : Opts) : OptCall → Opts
  | .dialect d => { o with dialect := d }
  | .arguments a => { o with arguments := a }
  | .warnUnquoted b => { o with warnUnquoted := b }
  | .warnCaps b => { o with warnCaps := b }
  | .listHack b => { o with listHack := b }

/-- lib.rs:176-178 `get_dialect` -/
def Opts.getDialect (o : Opts) : Dialect := o.dialect

end SqlParse
