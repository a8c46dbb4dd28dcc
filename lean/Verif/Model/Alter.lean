import Verif.Model.Dml
/-!
Model of /repo/src/alter.rs.
-/
namespace SqlParse

/-- The recursive call with `no_as = false`: data_type.rs:223-503 `parse_data_type(parser, false)` -/
def dataType : Prog Ast := parseDataType false

/-- alter.rs:336-347 -/
def indexTypeTable : List (Keyword × Kind) := [(Keyword.BTREE, Kind.IndexOption_IndexTypeBTree),
  (Keyword.HASH, Kind.IndexOption_IndexTypeHash), (Keyword.RTREE, Kind.IndexOption_IndexTypeRTree)]

/-- alter.rs:331-349 `parse_index_type` -/
def indexType : Prog Ast := do
  let _ ← ckw .USING
  let o ← kwNode indexTypeTable
  orExpected o "'BTREE', 'RTREE' or 'HASH'"

/-- alter.rs:351-366 `parse_index_options`, one round -/
def indexOption : Prog (Option Ast) := do
  let t ← curT
  if t.isKw .USING then do
    let o ← indexType
    return some o
  else if t.isKw .COMMENT then do
    let _ ← ckw .COMMENT
    let s ← string
    return some (nd% IndexOption_Comment [s])
  else return none

/-- alter.rs:374-381 `(size)`; a failed size is the default `(0, 0..0)` -/
def indexSize : Prog (Nat × Span) := do
  let r ← recovered "')'" isRParen (int u32Max)
  let _ ← ctk .rParen
  return r.getD (0, ⟨0, 0⟩)

/-- alter.rs:373-386 IndexCol fields: name, size -/
def indexCol : Prog Ast := do
  let n ← ident
  let l ← skips .lParen
  let size ← optIf l indexSize
  return nd% IndexCol [n, size]

/-- alter.rs:368-395 `parse_index_cols` -/
def indexCols : Prog (List Ast) := do
  let _ ← ctk .lParen
  let l ← parenItems indexCol
  let _ ← ctk .rParen
  return l

/-- alter.rs:397-411 `parse_cols` -/
def parseCols : Prog (List Ast) := do
  let _ ← ctk .lParen
  let l ← parenItems ident
  let _ ← ctk .rParen
  return l

/-- `[IF NOT EXISTS]`: alter.rs:429-437, 547-555, create.rs:422-430, 577-585, 839-847, 1021-1029 -/
def ifNotExists : Prog (Option Span) := do
  let i ← skw .IF
  optMap i fun i => do
    let e ← ckws .NOT [.EXISTS]
    return joinSpan e i

/-- alter.rs:438-441, 557-560 an optional name -/
def optName : Prog (Option Ast) := do
  let t ← curT
  optIf t.isPlainWord ident

/-- alter.rs:417-425 CONSTRAINT [name] -/
def constraintOpt : Prog (Option (Span × Option Ast)) := do
  let s ← skw .CONSTRAINT
  optMap s fun s => do
    let n ← optName
    return (s, n)

/-- alter.rs:449-457 -/
def fkOnType (on : Span) : Prog Ast := do
  let t ← curT
  if t.isKw .UPDATE then do
    let s ← ckw .UPDATE
    return nd% ForeignKeyOnType_Update [joinSpan s on]
  else if t.isKw .DELETE then do
    let s ← ckw .DELETE
    return nd% ForeignKeyOnType_Delete [joinSpan s on]
  else expectedFailure "'UPDATE' or 'DELETE'"

/-- alter.rs:459-482 (sic: NO ACTION yields SetNull, and SET DEFAULT cannot succeed) -/
def fkOnAction : Prog Ast := do
  let t ← curT
  if t.isKw .RESTRICT then do
    let s ← ckw .RESTRICT
    return nd% ForeignKeyOnAction_Restrict [s]
  else if t.isKw .CASCADE then do
    let s ← ckw .CASCADE
    return nd% ForeignKeyOnAction_Cascade [s]
  else if t.isKw .SET then do
    let set ← ckw .SET
    let t ← curT
    if t.isKw .NULL then do
      let s ← ckw .NULL
      return nd% ForeignKeyOnAction_SetNull [joinSpan s set]
    else if t.isKw .DELETE then do
      let s ← ckw .DEFAULT
      return nd% ForeignKeyOnAction_SetDefault [joinSpan s set]
    else expectedFailure "'NULL' or 'DEFAULT'"
  else if t.isKw .NO then do
    let s ← ckws .NO [.ACTION]
    return nd% ForeignKeyOnAction_SetNull [s]
  else expectedFailure "'RESTRICT' or 'CASCADE', 'SET' or 'NO"

/-- alter.rs:448-484 one ON clause; ForeignKeyOn fields: type_, action -/
def foreignKeyOn : Prog (Option Ast) := do
  let on ← skw .ON
  optMap on fun on => do
    let ty ← fkOnType on
    let a ← fkOnAction
    return nd% ForeignKeyOn [ty, a]

/-- alter.rs:427-497 ADD FOREIGN KEY; fields: add_span, constraint, foreign_key_span, if_not_exists,
name, cols, references_span, references_table, references_cols, ons -/
def addForeignKey (add : Span) (con : Option (Span × Option Ast)) : Prog Ast := do
  let fk ← ckws .FOREIGN [.KEY]
  let ine ← ifNotExists
  let name ← optName
  let cols ← indexCols
  let rs ← ckw .REFERENCES
  let rt ← ident
  let rc ← parseCols
  let ons ← manyOpt foreignKeyOn
  return nd% AlterSpecification_AddForeignKey [add, con, fk, ine, name, cols, rs, rt, rc, ons]

/-- alter.rs:514-543 FULLTEXT / SPATIAL / UNIQUE followed by INDEX or KEY (sic: all yield FullText) -/
def specialIndex (k : Keyword) : Prog Ast := do
  let s ← ckw k
  let t ← curT
  if t.isKw .INDEX || t.isKw .KEY then do
    let i ← ckw t.kw
    return nd% IndexType_FullText [joinSpan i s]
  else expectedFailure "'KEY' or 'INDEX'"

/-- alter.rs:507-545 the index type -/
def addIndexType : Prog Ast := do
  let t ← curT
  if t.isKw .PRIMARY then do
    let s ← ckws .PRIMARY [.KEY]
    return nd% IndexType_Primary [s]
  else if t.isKw .INDEX || t.isKw .KEY then do
    let s ← consume
    return nd% IndexType_Index [s]
  else if t.isKw .FULLTEXT then specialIndex .FULLTEXT
  else if t.isKw .SPATIAL then specialIndex .SPATIAL
  else if t.isKw .UNIQUE then specialIndex .UNIQUE
  else errHere "Internal compiler error at src/alter.rs:544"

/-- alter.rs:498-578 ADD INDEX; fields: add_span, index_type, if_not_exists, name, constraint, cols,
index_options -/
def addIndex (add : Span) (con : Option (Span × Option Ast)) : Prog Ast := do
  let ty ← addIndexType
  let ine ← ifNotExists
  let name ← optName
  let t ← curT
  let o1 ← optIf (t.isKw .USING) indexType
  let cols ← indexCols
  let o2 ← manyOpt indexOption
  return nd% AlterSpecification_AddIndex [add, ty, ine, name, con, cols, o1.toList ++ o2]

/-- alter.rs:581-591 -/
def addColumnIfNotExists : Prog (Option Span) := do
  let t ← curT
  let o ← optIf (t.isKw .IF) (ckws .IF [.NOT, .EXISTS])
  match o with
  | some s => do
    let m ← isMaria
    Prog.when m (err "IF NOT EXIST is not supported" s)
    return some s
  | none => return none

/-- alter.rs:579-601 ADD COLUMN; fields: add_span, if_not_exists_span, identifier, data_type -/
def addColumn (add : Span) : Prog Ast := do
  let _ ← ckw .COLUMN
  let ine ← addColumnIfNotExists
  let i ← ident
  let d ← dataType
  return nd% AlterSpecification_AddColumn [add, ine, i, d]

/-- alter.rs:413-604 `parse_add_alter_specification` -/
def addAlter : Prog Ast := do
  let add ← ckw .ADD
  let con ← constraintOpt
  let t ← curT
  if t.isKw .FOREIGN then addForeignKey add con
  else if t.isKw .PRIMARY || t.isKw .INDEX || t.isKw .KEY || t.isKw .FULLTEXT || t.isKw .UNIQUE
      || t.isKw .SPATIAL then addIndex add con
  else if t.isKw .COLUMN then addColumn add
  else expectedFailure "addable"

/-- alter.rs:693-712 MODIFY; fields: modify_span, if_exists, col, definition -/
def alterModify : Prog Ast := do
  let m ← ckw .MODIFY
  let c ← skw .COLUMN
  let ie ← ifExists
  let col ← ident
  let d ← dataType
  return nd% AlterSpecification_Modify [(match c with | some v => joinSpan m v | none => m : Span), ie, col, d]

/-- alter.rs:734-753 ALTER COLUMN .. SET -/
def alterColumnSet : Prog Ast := do
  let s ← consume
  let t ← curT
  if t.isKw .DEFAULT then do
    let d ← consume
    let v ← expr
    return nd% AlterColumnAction_SetDefault [joinSpan d s, v]
  else if t.isKw .NOT then do
    let n ← ckws .NOT [.NULL]
    return nd% AlterColumnAction_SetNotNull [joinSpan s n]
  else expectedFailure "'DEFAULT' or 'NOT NULL'"

/-- alter.rs:754-769 ALTER COLUMN .. DROP -/
def alterColumnDrop : Prog Ast := do
  let s ← consume
  let t ← curT
  if t.isKw .DEFAULT then do
    let d ← consume
    return nd% AlterColumnAction_DropDefault [joinSpan d s]
  else if t.isKw .NOT then do
    let n ← ckws .NOT [.NULL]
    return nd% AlterColumnAction_DropNotNull [joinSpan s n]
  else expectedFailure "'DEFAULT' or 'NOT NULL'"

/-- alter.rs:729-782 ALTER COLUMN; fields: alter_column_span, column, alter_column_action -/
def alterColumn : Prog Ast := do
  let s ← ckws .ALTER [.COLUMN]
  let col ← ident
  let t ← curT
  let a ← (if t.isKw .SET then alterColumnSet
    else if t.isKw .DROP then alterColumnDrop
    else if t.isKw .TYPE then do
      let ts ← consume
      let ty ← dataType
      return nd% AlterColumnAction_Type [ts, ty]
    else expectedFailure "alter column action")
  return nd% AlterSpecification_AlterColumn [s, col, a]

/-- alter.rs:691-784 one alter specification; OwnerTo: span, owner; DropColumn: drop_column_span, column,
cascade -/
def alterSpecification : Prog Ast := do
  let t ← curT
  if t.isKw .ADD then addAlter
  else if t.isKw .MODIFY then alterModify
  else if t.isKw .OWNER then do
    let s ← ckws .OWNER [.TO]
    let o ← ident
    return nd% AlterSpecification_OwnerTo [s, o]
  else if t.isKw .DROP then do
    let s ← ckws .DROP [.COLUMN]
    let c ← ident
    let cas ← skw .CASCADE
    return nd% AlterSpecification_DropColumn [s, c, cas]
  else if t.isKw .ALTER then alterColumn
  else expectedFailure "alter specification"

/-- alter.rs:674-800 `parse_alter_table`; fields: alter_span, online, ignore, table_span, if_exists,
table, alter_specifications -/
def alterTable (a : Span) (online ignore : Option Span) : Prog Ast := do
  let t ← ckw .TABLE
  let ie ← ifExists
  let table ← qualifiedName
  let d ← Prog.op .delim
  let specs ← recoveredAcc "delimiter" (fun t => decide (t = d) || decide (t = .eof))
    (accLoop (fun acc => do
      let i ← alterSpecification
      let m ← skips .comma
      return (if m then .cont (acc ++ [i]) else .done (acc ++ [i]))) [])
  return nd% AlterTable [a, online, ignore, t, ie, table, specs]

/-- alter.rs:802-814 `parse_alter` -/
def parseAlter : Prog Ast := do
  let a ← ckw .ALTER
  let online ← skw .ONLINE
  let ignore ← skw .IGNORE
  let t ← curT
  if t.isKw .TABLE then alterTable a online ignore
  else expectedFailure "alterable"

end SqlParse
