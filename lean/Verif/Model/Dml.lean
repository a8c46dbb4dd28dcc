import Verif.Model.Select
/-!
Model of /repo/src/delete.rs, update.rs, insert_replace.rs, rename.rs, truncate.rs and drop.rs.
-/
namespace SqlParse

/-- `[RETURNING select_expr, ..]`: delete.rs:169-180, update.rs:140-154, insert_replace.rs:504-515 -/
def returningClause : Prog (Option (Span × List Ast)) := do
  let r ← skw .RETURNING
  optMap r fun r => do
    let l ← commaList selectExpr
    return (r, l)

/-- delete.rs:101-114 -/
def deleteFlagTable : List (Keyword × Kind) := [(Keyword.LOW_PRIORITY, Kind.DeleteFlag_LowPriority),
  (Keyword.QUICK, Kind.DeleteFlag_Quick), (Keyword.IGNORE, Kind.DeleteFlag_Ignore)]

/-- delete.rs:116-141 the tables; from_span, tables, using -/
def deleteTables : Prog (Span × List Ast × List Ast) := do
  let f ← skw .FROM
  match f with
  | some f => do
    let l ← commaList qualifiedName
    return (f, l, [])
  | none => do
    let l ← commaList qualifiedName
    let f ← ckw .FROM
    let u ← commaList tableReference
    return (f, l, u)

/-- delete.rs:146-159 USING -/
def deleteUsing (using_ : List Ast) : Prog (List Ast) := do
  let u ← skw .USING
  match u with
  | some s => do
    Prog.when (!using_.isEmpty) (err "Using not allowed in delete with table names before FROM" s)
    let l ← commaList tableReference
    return using_ ++ l
  | none => return using_

/-- delete.rs:97-191 `parse_delete`; fields: delete_span, flags, from_span, tables, using, where_,
returning -/
def parseDelete : Prog Ast := do
  let d ← ckw .DELETE
  let flags ← manyOpt (kwNode deleteFlagTable)
  let (f, tables, using0) ← deleteTables
  let using_ ← deleteUsing using0
  let where_ ← kwExpr .WHERE
  let ret ← returningClause
  return nd% Delete [d, flags, f, tables, using_, where_, ret]

/-- update.rs:99-109 -/
def updateFlagTable : List (Keyword × Kind) := [(Keyword.LOW_PRIORITY, Kind.UpdateFlag_LowPriority),
  (Keyword.IGNORE, Kind.UpdateFlag_Ignore)]

/-- update.rs:122-128 one `a.b = expr` -/
def updateSet : Prog (List Ast × Ast) := do
  let col ← sepLoop (skips .period) ident
  let _ ← ctk .eq
  let e ← expr
  return (col, e)

/-- update.rs:140-154 RETURNING, PostgreSQL only -/
def updateReturning : Prog (Option (Span × List Ast)) := do
  let r ← returningClause
  match r with
  | some (sp, l) => do
    let pg ← isPg
    Prog.when (!pg) (err "Only support by postgesql" sp)
    return some (sp, l)
  | none => return none

/-- update.rs:95-165 `parse_update`; fields: update_span, flags, tables, set_span, set, where_, returning -/
def parseUpdate : Prog Ast := do
  let u ← ckw .UPDATE
  let flags ← manyOpt (kwNode updateFlagTable)
  let tables ← commaList tableReference
  let s ← ckw .SET
  let set ← commaList updateSet
  let where_ ← kwExpr .WHERE
  let ret ← updateReturning
  return nd% Update [u, flags, tables, s, set, where_, ret]

/-- insert_replace.rs:263-267 -/
def insertTypeTable : List (Keyword × Kind) := [(Keyword.INSERT, Kind.InsertReplaceType_Insert),
  (Keyword.REPLACE, Kind.InsertReplaceType_Replace)]

/-- insert_replace.rs:271-288 -/
def insertFlagTable : List (Keyword × Kind) := [
  (Keyword.LOW_PRIORITY, Kind.InsertReplaceFlag_LowPriority),
  (Keyword.HIGH_PRIORITY, Kind.InsertReplaceFlag_HighPriority),
  (Keyword.DELAYED, Kind.InsertReplaceFlag_Delayed),
  (Keyword.IGNORE, Kind.InsertReplaceFlag_Ignore)]

/-- The kind of a node. -/
def Ast.kind? : Ast → Option Kind
  | .node k _ => Option.some k
  | _ => Option.none

/-- insert_replace.rs:290-305 flags not allowed in REPLACE -/
def checkInsertFlags (insert : Bool) : List Ast → Prog Unit
  | [] => .ret ()
  | f :: r => do
    Prog.when (!insert && (decide (f.kind? = some .InsertReplaceFlag_HighPriority) ||
        decide (f.kind? = some .InsertReplaceFlag_Ignore))) (do
      let sp ← spanOf f
      err "Not supported for replace" sp)
    checkInsertFlags insert r

/-- `( item, .. )` with recovery at `)`; on failure the items before the failing one are kept:
insert_replace.rs:313-321, 338-346, alter.rs:371-392, 400-408, create.rs:590-640; `m` is the text of the message -/
def parenItems {α : Type} (item : Prog α) (m : String := "')'") : Prog (List α) :=
  recoveredAcc m isRParen (accLoop (fun acc => do
    let i ← item
    let m ← skips .comma
    return (if m then .cont (acc ++ [i]) else .done (acc ++ [i]))) [])

/-- insert_replace.rs:311-323 the column list -/
def insertColumns : Prog (List Ast) := do
  let l ← stk .lParen
  match l with
  | some _ => do
    let c ← parenItems ident ")"
    let _ ← ctk .rParen
    return c
  | none => return []

/-- insert_replace.rs:336-347 one row of VALUES -/
def valuesRow : Prog (List Ast) := do
  let _ ← ctk .lParen
  let v ← parenItems expr ")"
  let _ ← ctk .rParen
  return v

/-- InsertReplaceSetPair fields: column, equal_span, value: insert_replace.rs:359-366, 396-403 -/
def setPair : Prog Ast := do
  let c ← ident
  let e ← ctk .eq
  let v ← expr
  return nd% InsertReplaceSetPair [c, e, v]

/-- insert_replace.rs:325-381 VALUES / SELECT / SET: values, select, set -/
def insertBody (columns : List Ast) :
    Prog (Option (Span × List (List Ast)) × Option Ast × Option Ast) := do
  let t ← curT
  if t.isKw .SELECT then do
    let s ← parseSelect
    return (none, some s, none)
  else if t.isKw .VALUE || t.isKw .VALUES then do
    let s ← consume
    let rows ← commaList valuesRow
    return (some (s, rows), none, none)
  else if t.isKw .SET then do
    let s ← ckw .SET
    let pairs ← commaList setPair
    Prog.when (!columns.isEmpty) (do
      let cs ← spanOf columns
      err "Columns may not be used here" cs [("Together with SET", s)])
    return (none, none, some (nd% InsertReplaceSet [s, pairs]))
  else do
    expectedError "VALUE, VALUES, SELECT or SET"
    return (none, none, none)

/-- insert_replace.rs:426-447 the ON CONFLICT target; Columns: names; OnConstraint: on_constraint_span, name -/
def conflictTarget : Prog OAst := do
  let t ← curT
  if t = .lParen then do
    let _ ← ctk .lParen
    let l ← commaList ident
    let _ ← ctk .rParen
    return ond% OnConflictTarget_Columns [l]
  else if t.isKw .ON then do
    let s ← ckws .ON [.CONSTRAINT]
    let n ← ident
    return ond% OnConflictTarget_OnConstraint [s, n]
  else return ond% OnConflictTarget_None []

/-- `name = expr`: insert_replace.rs:460-463, statement.rs:56-59 -/
def assignment : Prog (Ast × Ast) := do
  let n ← ident
  let _ ← ctk .eq
  let e ← expr
  return (n, e)

/-- insert_replace.rs:449-484 DO NOTHING / DO UPDATE SET; DoUpdateSet fields: do_update_set_span, sets,
where_ -/
def conflictAction : Prog Ast := do
  let d ← ckw .DO
  let t ← curT
  if t.isKw .NOTHING then do
    let n ← ckw .NOTHING
    return nd% OnConflictAction_DoNothing [joinSpan d n]
  else if t.isKw .UPDATE then do
    let u ← ckws .UPDATE [.SET]
    let sets ← commaList assignment
    let w ← kwExpr .WHERE
    return nd% OnConflictAction_DoUpdateSet [joinSpan d u, sets, w.map fun p => (p.2, p.1)]
  else expectedFailure "'NOTHING' or 'UPDATE'"

/-- insert_replace.rs:383-502 ON DUPLICATE KEY UPDATE / ON CONFLICT; OnConflict fields:
on_conflict_span, target, action -/
def insertOn : Prog (Option Ast × Option Ast) := do
  let on ← skw .ON
  match on with
  | none => return (none, none)
  | some on => do
    let t ← curT
    if t.isKw .DUPLICATE then do
      let d ← ckws .DUPLICATE [.KEY, .UPDATE]
      let pairs ← commaList setPair
      let m ← isMaria
      Prog.when (!m) (do
        let sp ← spanOf (joinSpan on d, pairs)
        err "Only support by mariadb" sp)
      return (some (nd% InsertReplaceOnDuplicateKeyUpdate [joinSpan on d, pairs]), none)
    else if t.isKw .CONFLICT then do
      let c ← ckw .CONFLICT
      let target ← conflictTarget
      let action ← conflictAction
      let pg ← isPg
      Prog.when (!pg) (do
        let sp ← spanOf (nd% OnConflict [joinSpan on c, target, action])
        err "Only support by postgesql" sp)
      return (none, some (nd% OnConflict [joinSpan on c, target, action]))
    else expectedFailure "'DUPLICATE' OR 'CONFLICT'"

/-- insert_replace.rs:260-530 `parse_insert_replace`; fields: type_, flags, into_span, table, columns,
values, select, set, on_duplicate_key_update, on_conflict, returning -/
def parseInsertReplace : Prog Ast := do
  let ty ← consNode insertTypeTable
  let ty ← orExpected ty "INSERT or REPLACE"
  let flags ← manyOpt (kwNode insertFlagTable)
  checkInsertFlags (decide (ty.kind? = some .InsertReplaceType_Insert)) flags
  let into ← skw .INTO
  let table ← qualifiedName
  let columns ← insertColumns
  let (values, select, set) ← insertBody columns
  let (dup, conflict) ← insertOn
  let ret ← returningClause
  return nd% InsertReplace [ty, flags, into, table, columns, values, select, set, dup, conflict, ret]

/-- rename.rs:71-78 `a TO b`; TableToTable fields: table, to_span, new_table -/
def tableToTable : Prog Ast := do
  let t ← qualifiedName
  let s ← ckw .TO
  let n ← qualifiedName
  return nd% TableToTable [t, s, n]

/-- rename.rs:64-88 `parse_rename_table`; fields: rename_span, table_span, table_to_tables -/
def parseRename : Prog Ast := do
  let r ← ckw .RENAME
  let t ← skw .TABLE
  let l ← commaList tableToTable
  return nd% RenameTable [r, t, l]

/-- truncate.rs:45-56 `parse_truncate_table`; fields: truncate_span, table_span, table_name -/
def parseTruncate : Prog Ast := do
  let r ← ckw .TRUNCATE
  let t ← skw .TABLE
  let n ← qualifiedName
  return nd% TruncateTable [r, t, n]

/-- `[IF EXISTS]`: drop.rs:344-348 and the other arms of `parse_drop`, alter.rs:681-685, 698-702 -/
def ifExists : Prog (Option Span) := do
  let i ← skw .IF
  optMap i fun i => do
    let e ← ckw .EXISTS
    return joinSpan e i

/-- drop.rs:342-369 DROP TABLE; fields: drop_span, temporary, table_span, if_exists, tables, cascade -/
def dropTable (d : Span) (tmp : Option Span) : Prog Ast := do
  let t ← ckw .TABLE
  let ie ← ifExists
  let l ← commaList qualifiedName
  let pg ← isPg
  let c ← (if pg then skw .CASCADE else .ret none)
  return nd% DropTable [d, tmp, t, ie, l, c]

/-- drop.rs:419-450 DROP INDEX; fields: drop_span, index_span, if_exists, index_name, on -/
def dropIndex (d : Span) : Prog Ast := do
  let i ← ckw .INDEX
  let ie ← ifExists
  let n ← ident
  let on ← skw .ON
  let on ← optMap on fun s => do
    let t ← qualifiedName
    return (s, t)
  let m ← isMaria
  let pg ← isPg
  let v := nd% DropIndex [d, i, ie, n, on]
  Prog.when (on.isNone && m) (do
    let sp ← spanOf v
    err "On required for index drops in MariaDb" sp)
  Prog.when (on.isSome && pg) (do
    let sp ← spanOf v
    err "On not supported for index drops in PostgreSQL" sp)
  return v

/-- drop.rs:502-524 DROP VIEW; fields: drop_span, temporary, view_span, if_exists, views -/
def dropView (d : Span) (tmp : Option Span) : Prog Ast := do
  let t ← ckw .VIEW
  let ie ← ifExists
  let l ← commaList qualifiedName
  return nd% DropView [d, tmp, t, ie, l]

/-- drop.rs:370-418, 451-466, 471-501 `DROP <keyword> [IF EXISTS] name` -/
def dropNamed (k : Keyword) (name : Prog Ast) : Prog (Span × Option Span × Ast) := do
  let s ← ckw k
  let ie ← ifExists
  let n ← name
  return (s, ie, n)

/-- drop.rs:338-531 `parse_drop` -/
def parseDrop : Prog Ast := do
  let d ← ckw .DROP
  let tmp ← skw .TEMPORARY
  let t ← curT
  if t.isKw .TABLE then dropTable d tmp
  else if t.isKw .DATABASE || t.isKw .SCHEMA then do
    let (s, ie, n) ← dropNamed t.kw ident
    return nd% DropDatabase [d, s, ie, n]
  else if t.isKw .EVENT then do
    let (s, ie, n) ← dropNamed .EVENT qualifiedName
    return nd% DropEvent [d, s, ie, n]
  else if t.isKw .FUNCTION then do
    let (s, ie, n) ← dropNamed .FUNCTION qualifiedName
    return nd% DropFunction [d, s, ie, n]
  else if t.isKw .INDEX then dropIndex d
  else if t.isKw .PROCEDURE then do
    let (s, ie, n) ← dropNamed .PROCEDURE qualifiedName
    return nd% DropProcedure [d, s, ie, n]
  else if t.isKw .SEQUENCE then errHere "Not yet implemented at src/drop.rs:469"
  else if t.isKw .SERVER then do
    let (s, ie, n) ← dropNamed .SERVER ident
    return nd% DropServer [d, s, ie, n]
  else if t.isKw .TRIGGER then do
    let (s, ie, n) ← dropNamed .TRIGGER qualifiedName
    return nd% DropTrigger [d, s, ie, n]
  else if t.isKw .VIEW then dropView d tmp
  else if t.isKw .USER then errHere "Not yet implemented at src/drop.rs:527"
  else expectedFailure "droppable"

end SqlParse
