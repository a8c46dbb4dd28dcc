import Verif.Model.Alter
/-!
Model of /repo/src/create.rs.
-/
namespace SqlParse

/-- create.rs:381-398 ON DELETE .. of a constraint (the result is not kept) -/
def constraintOnDelete : Prog Unit := do
  let on ← skw .ON
  Prog.when on.isSome (do
    let _ ← ckw .DELETE
    let t ← curT
    if t.isKw .CASCADE then do let _ ← ckw .CASCADE; return ()
    else if t.isKw .DELETE then do let _ ← ckw .DELETE; return ()
    else if t.isKw .RESTRICT then do let _ ← ckw .RESTRICT; return ()
    else if t.isKw .SET then do let _ ← ckws .SET [.NULL]; return ()
    else expectedFailure "CASCADE, DELETE OR SET NULL")

/-- create.rs:360-400 `parse_create_constraint_definition`; fields: span, identifier -/
def constraintDefinition : Prog Ast := do
  let s ← ckw .CONSTRAINT
  let i ← ident
  let _ ← ckws .FOREIGN [.KEY]
  let _ ← ctk .lParen
  let _ ← commaList ident
  let _ ← ctk .rParen
  let _ ← ckw .REFERENCES
  let _ ← ident
  let _ ← ctk .lParen
  let _ ← commaList ident
  let _ ← ctk .rParen
  constraintOnDelete
  return nd% CreateDefinition_ConstraintDefinition [s, i]

/-- create.rs:402-413 `parse_create_definition`; ColumnDefinition fields: identifier, data_type -/
def createDefinition : Prog Ast := do
  let t ← curT
  if t.isKw .CONSTRAINT then constraintDefinition
  else
    match t with
    | .ident _ _ => do
      let i ← ident
      let d ← dataType
      return nd% CreateDefinition_ColumnDefinition [i, d]
    | _ => expectedFailure "identifier"

/-- create.rs:415-450 `parse_create_view`; fields: create_span, create_options, view_span,
if_not_exists, name, as_span, select -/
def createView (c : Span) (opts : List Ast) : Prog Ast := do
  let v ← ckw .VIEW
  let ine ← ifNotExists
  let n ← qualifiedName
  let a ← ckw .AS
  let s ← .call .compoundQuery
  return nd% CreateView [c, opts, v, ine, n, a, s]

/-- create.rs:592-608 -/
def paramDirection : Prog (Option Ast) := do
  let t ← curT
  if t.isKw .IN then do
    let i ← ckw .IN
    let o ← skw .OUT
    return (match o with
      | some o => some (nd% FunctionParamDirection_InOut [joinSpan i o])
      | none => some (nd% FunctionParamDirection_In [i]))
  else if t.isKw .OUT then do
    let o ← ckw .OUT
    return some (nd% FunctionParamDirection_Out [o])
  else if t.isKw .INOUT then do
    let o ← ckw .INOUT
    return some (nd% FunctionParamDirection_InOut [o])
  else return none

/-- create.rs:591-612 one parameter: direction, name, type -/
def functionParam : Prog (Option Ast × Ast × Ast) := do
  let d ← paramDirection
  let n ← ident
  let t ← dataType
  return (d, n, t)

/-- create.rs:622-636 the skipped body `AS $$ .. $$` (PostgreSQL) -/
def functionBody : Prog Unit := do
  let pg ← isPg
  let a ← (if pg then skw .AS else .ret none)
  Prog.when a.isSome (do
    let _ ← ctk .doubleDollar
    .loop (fun _ => do
      let t ← curT
      if t = .eof ∨ t = .doubleDollar then do
        let _ ← ctk .doubleDollar
        return .done ()
      else do
        let _ ← consume
        return .cont ()) ())

/-- create.rs:638-699 one characteristic -/
def functionCharacteristic : Prog (Option Ast) := do
  let t ← curT
  if t.isKw .LANGUAGE then do
    let lg ← consume
    let t ← curT
    if t.isKw .SQL then do
      let s ← consume
      return some (nd% FunctionCharacteristic_LanguageSql [joinSpan lg s])
    else if t.isKw .PLPGSQL then do
      let s ← consume
      return some (nd% FunctionCharacteristic_LanguagePlpgsql [joinSpan lg s])
    else expectedFailure "language name"
  else if t.isKw .NOT then do
    let s ← ckws .NOT [.DETERMINISTIC]
    return some (nd% FunctionCharacteristic_NotDeterministic [s])
  else if t.isKw .DETERMINISTIC then do
    let s ← ckw .DETERMINISTIC
    return some (nd% FunctionCharacteristic_Deterministic [s])
  else if t.isKw .CONTAINS then do
    let s ← ckws .CONTAINS [.SQL]
    return some (nd% FunctionCharacteristic_ContainsSql [s])
  else if t.isKw .NO then do
    let s ← ckws .NO [.SQL]
    return some (nd% FunctionCharacteristic_NoSql [s])
  else if t.isKw .READS then do
    let s ← ckws .READS [.SQL, .DATA]
    return some (nd% FunctionCharacteristic_ReadsSqlData [s])
  else if t.isKw .MODIFIES then do
    let s ← ckws .MODIFIES [.SQL, .DATA]
    return some (nd% FunctionCharacteristic_ModifiesSqlData [s])
  else if t.isKw .COMMENT then do
    let _ ← ckw .COMMENT
    let s ← string
    return some (nd% FunctionCharacteristic_Comment [s])
  else if t.isKw .SQL then do
    let s ← ckws .SQL [.SECURITY]
    let t ← curT
    if t.isKw .DEFINER then do
      let d ← ckw .DEFINER
      return some (nd% FunctionCharacteristic_SqlSecurityDefiner [joinSpan d s])
    else if t.isKw .USER then do
      let d ← ckw .USER
      return some (nd% FunctionCharacteristic_SqlSecurityUser [joinSpan d s])
    else expectedFailure "'DEFINER' or 'USER'"
  else return none

/-- A statement is required: create.rs:702-705, 884-887 -/
def statementReq : Prog SAst := do
  let o ← .call .statement
  orExpected o "statement"

/-- create.rs:570-722 `parse_create_function`; fields: create_span, create_options, function_span,
if_not_exists, name, params, returns_span, return_type, characteristics, return_ -/
def createFunction (c : Span) (opts : List Ast) : Prog SAst := do
  let f ← ckw .FUNCTION
  let ine ← ifNotExists
  let n ← ident
  let _ ← ctk .lParen
  let params ← parenItems functionParam
  let _ ← ctk .rParen
  let rs ← ckw .RETURNS
  let rt ← parseDataType true
  functionBody
  let chars ← manyOpt functionCharacteristic
  let m ← isMaria
  let ret ← optIf m statementReq
  return snd% CreateFunction [c, opts, f, ine, n, params, rs, rt, chars, ret]

/-- create.rs:851-859 -/
def triggerTimeTable : List (Keyword × Kind) := [(Keyword.AFTER, Kind.TriggerTime_After),
  (Keyword.BEFORE, Kind.TriggerTime_Before)]
/-- create.rs:861-872 -/
def triggerEventTable : List (Keyword × Kind) := [(Keyword.UPDATE, Kind.TriggerEvent_Update),
  (Keyword.INSERT, Kind.TriggerEvent_Insert), (Keyword.DELETE, Kind.TriggerEvent_Delete)]

/-- create.rs:832-903 `parse_create_trigger`; fields: create_span, create_options, trigger_span,
if_not_exists, name, trigger_time, trigger_event, on_span, table, for_each_row_span, statement.  (sic:
`permit_compound_statements` is not restored when the statement fails.) -/
def createTrigger (c : Span) (opts : List Ast) : Prog SAst := do
  let tr ← ckw .TRIGGER
  let ine ← ifNotExists
  let n ← ident
  let time ← kwNode triggerTimeTable
  let time ← orExpected time "'BEFORE' or 'AFTER'"
  let event ← kwNode triggerEventTable
  let event ← orExpected event "'UPDATE' or 'INSERT' or 'DELETE'"
  let on ← ckw .ON
  let table ← ident
  let fe ← ckws .FOR [.EACH, .ROW]
  let old ← Prog.op .permit
  Prog.op (.setPermit true)
  let st ← statementReq
  Prog.op (.setPermit old)
  return snd% CreateTrigger [c, opts, tr, ine, n, time, event, on, table, fe, st]

/-- create.rs:944-958 the values; as `hintIndexList`, with strings -/
def enumValues : Prog (List Ast) :=
  .loop (fun acc => do
    let r ← recovered "')' or ','" isRParenComma string
    let t ← curT
    if t = .rParen then return .done (acc ++ r.toList)
    else do
      let _ ← ctk .comma
      return .cont (acc ++ r.toList)) []

/-- create.rs:932-968 `parse_create_type`; fields: create_span, create_options, type_span, name,
as_enum_span, values -/
def createType (c : Span) (opts : List Ast) : Prog Ast := do
  let ts ← ckw .TYPE
  let pg ← isPg
  Prog.when (!pg) (err "CREATE TYPE only supported by postgresql" ts)
  let n ← ident
  let a ← ckws .AS [.ENUM]
  let _ ← ctk .lParen
  let v ← enumValues
  let _ ← ctk .rParen
  return nd% CreateTypeEnum [c, opts, ts, n, a, v]

/-- create.rs:1041-1049 operator classes -/
def isOpclass (t : Token) : Bool :=
  t.isKw .TEXT_PATTERN_OPS || t.isKw .VARCHAR_PATTERN_OPS || t.isKw .BPCHAR_PATTERN_OPS ||
  t.isKw .INT8_OPS || t.isKw .INT4_OPS || t.isKw .INT2_OPS

/-- create.rs:1040-1055 one column of an index -/
def createIndexCol : Prog Ast := do
  let i ← ident
  let t ← curT
  Prog.when (isOpclass t) (do
    let r ← consume
    let pg ← isPg
    Prog.when (!pg) (err "Opclasses not supporetd" r))
  return i

/-- create.rs:1029-1035 USING GIST -/
def usingGist : Prog (List Ast) := do
  let u ← skw .USING
  match u with
  | some u => do
    let g ← ckw .GIST
    return [nd% CreateIndexOption_UsingGist [joinSpan g u]]
  | none => return []

/-- create.rs:1063-1073 WHERE of an index -/
def indexWhere : Prog (Option (Span × Ast)) := do
  let w ← skw .WHERE
  optMap w fun w => do
    let e ← expr
    let m ← isMaria
    Prog.when m (do
      let sp ← spanOf (w, e)
      err "Partial indexes not supported" sp)
    return (w, e)

/-- create.rs:1015-1089 `parse_create_index`; fields: create_span, create_options, index_span,
index_name, if_not_exists, on_span, table_name, index_options, l_paren_span, column_names,
r_paren_span, where_ -/
def createIndex (c : Span) (opts : List Ast) : Prog Ast := do
  let i ← ckw .INDEX
  let ine ← ifNotExists
  let n ← ident
  let on ← ckw .ON
  let t ← qualifiedName
  let o ← usingGist
  let lp ← ctk .lParen
  let cols ← commaList createIndexCol
  let rp ← ctk .rParen
  let w ← indexWhere
  return nd% CreateIndex [c, opts, i, n, ine, on, t, o, lp, cols, rp, w]

/-- create.rs:1098-1101 the placeholder name -/
def noName : Ast := nd% QualifiedName [([] : List (Ast × Span)), Ast.ident [] ⟨0, 0⟩]

/-- create.rs:1105-1112 IF NOT EXISTS of a table -/
def tableIfNotExists : Prog (Option Span) := do
  let i ← skw .IF
  optMap i fun i => do
    let s ← ckws .NOT [.EXISTS]
    return (⟨i.start, s.stop⟩ : Span)

/-- create.rs:1104-1115 the closure reading the name; captured variables: if_not_exists, identifier -/
def tableName : Prog (Bool × Option Span × Ast) := do
  let r ← .tryP tableIfNotExists
  match r with
  | none => return (false, none, noName)
  | some ine => do
    let q ← .tryP qualifiedName
    match q with
    | none => return (false, ine, noName)
    | some q => return (true, ine, q)

/-- create.rs:1119-1135 the definitions -/
def createDefinitions : Prog (List Ast) := do
  let t ← curT
  if t = .rParen then return []
  else
    .loop (fun acc => do
      let r ← recovered "')' or ','" isRParenComma createDefinition
      let t ← curT
      if t = .rParen then return .done (acc ++ r.toList)
      else do
        let _ ← ctk .comma
        return .cont (acc ++ r.toList)) []

/-- create.rs:1147-1209 `KEYWORD [=] value` -/
def optionValue (k : Keyword) (value : Prog Ast) : Prog Ast := do
  let _ ← ckw k
  let _ ← stk .eq
  value

/-- create.rs:1145-1219 one table option; fields: identifier, value; `none`: the delimiter or the
end of the input -/
def tableOption : Prog (Option Ast) := do
  let (t, sp) ← cur
  if t.isKw .ENGINE then do
    let v ← optionValue .ENGINE ident
    return some (nd% TableOption_Engine [sp, v])
  else if t.isKw .DEFAULT then do
    let _ ← ckw .DEFAULT
    let t ← curT
    if t.isKw .CHARSET then do
      let v ← optionValue .CHARSET ident
      return some (nd% TableOption_DefaultCharSet [sp, v])
    else if t.isKw .COLLATE then do
      let v ← optionValue .COLLATE ident
      return some (nd% TableOption_DefaultCollate [sp, v])
    else expectedFailure "'CHARSET' or 'COLLATE'"
  else if t.isKw .CHARSET then do
    let v ← optionValue .CHARSET ident
    return some (nd% TableOption_CharSet [sp, v])
  else if t.isKw .COLLATE then do
    let v ← optionValue .COLLATE ident
    return some (nd% TableOption_Collate [sp, v])
  else if t.isKw .ROW_FORMAT then do
    let v ← optionValue .ROW_FORMAT ident
    return some (nd% TableOption_RowFormat [sp, v])
  else if t.isKw .COMMENT then do
    let v ← optionValue .COMMENT string
    return some (nd% TableOption_Comment [sp, v])
  else if t.isKw .STRICT then do
    let _ ← ckw .STRICT
    return some (nd% TableOption_Strict [sp])
  else do
    let d ← Prog.op .delim
    if t = d ∨ t = .eof then return none
    else expectedFailure "table option or delimiter"

/-- `loop { match item { Some(v) => out.push(v), None => break } }` in a closure under `recovered`:
create.rs:1144-1221, 1260-1320 -/
def accMany (item : Prog (Option Ast)) : Prog (Bool × List Ast) :=
  accLoop (fun acc => do
    let o ← item
    return (match o with
      | some a => .cont (acc ++ [a])
      | none => .done acc)) []

/-- create.rs:1091-1234 `parse_create_table`; fields: create_span, create_options, table_span,
identifier, if_not_exists, create_definitions, options -/
def createTable (c : Span) (opts : List Ast) : Prog Ast := do
  let t ← ckw .TABLE
  let (ine, name) ← recoveredAcc "'('" (fun t => decide (t = .lParen)) tableName
  let _ ← ctk .lParen
  let defs ← createDefinitions
  let _ ← ctk .rParen
  let d ← Prog.op .delim
  let os ← recoveredAcc "delimiter" (fun t => decide (t = .eof) || decide (t = d)) (accMany tableOption)
  return nd% CreateTable [c, opts, t, name, ine, defs, os]

/-- create.rs:1274-1285 -/
def algorithmTable : List (Keyword × Kind) := [(Keyword.UNDEFINED, Kind.CreateAlgorithm_Undefined),
  (Keyword.MERGE, Kind.CreateAlgorithm_Merge), (Keyword.TEMPTABLE, Kind.CreateAlgorithm_TempTable)]

/-- create.rs:1261-1317 one option after CREATE; Algorithm: span, algorithm; Definer: definer_span,
user, host -/
def createOption : Prog (Option Ast) := do
  let t ← curT
  if t.isKw .OR then do
    let s ← ckws .OR [.REPLACE]
    return some (nd% CreateOption_OrReplace [s])
  else if t.isKw .TEMPORARY then do
    let s ← ckw .TEMPORARY
    return some (nd% CreateOption_Temporary [s])
  else if t.isKw .UNIQUE then do
    let s ← ckw .UNIQUE
    return some (nd% CreateOption_Unique [s])
  else if t.isKw .ALGORITHM then do
    let s ← ckw .ALGORITHM
    let _ ← ctk .eq
    let a ← kwNode algorithmTable
    let a ← orExpected a "'UNDEFINED', 'MERGE' or 'TEMPTABLE'"
    return some (nd% CreateOption_Algorithm [s, a])
  else if t.isKw .DEFINER then do
    let s ← ckw .DEFINER
    let _ ← ctk .eq
    let u ← ident
    let _ ← ctk .at
    let h ← ident
    return some (nd% CreateOption_Definer [s, u, h])
  else if t.isKw .SQL then do
    let s ← ckws .SQL [.SECURITY]
    let t ← curT
    if t.isKw .DEFINER then do
      let d ← ckw .DEFINER
      return some (nd% CreateOption_SqlSecurityDefiner [s, d])
    else if t.isKw .USER then do
      let d ← ckw .USER
      return some (nd% CreateOption_SqlSecurityUser [s, d])
    else expectedFailure "'DEFINER', 'USER'"
  else return none

/-- create.rs:1245-1258 -/
def isCreatable (t : Token) : Bool :=
  t.isKw .TABLE || t.isKw .VIEW || t.isKw .TRIGGER || t.isKw .FUNCTION || t.isKw .INDEX || t.isKw .TYPE

/-- A statement that always has a span, as a statement. -/
def toStmt (p : Prog Ast) : Prog SAst := do
  let a ← p
  return ⟨a⟩

/-- create.rs:1236-1337 `parse_create` -/
def parseCreate : Prog SAst := do
  let c ← ckw .CREATE
  let opts ← recoveredAcc "'TABLE' | 'VIEW' | 'TRIGGER' | 'FUNCTION' | 'INDEX' | 'TYPE'" isCreatable
    (accMany createOption)
  let t ← curT
  if t.isKw .INDEX then toStmt (createIndex c opts)
  else if t.isKw .TABLE then toStmt (createTable c opts)
  else if t.isKw .VIEW then toStmt (createView c opts)
  else if t.isKw .FUNCTION then createFunction c opts
  else if t.isKw .TRIGGER then createTrigger c opts
  else if t.isKw .TYPE then toStmt (createType c opts)
  else expectedFailure "'TABLE' | 'VIEW' | 'TRIGGER' | 'FUNCTION' | 'INDEX' | 'TYPE'"

end SqlParse
