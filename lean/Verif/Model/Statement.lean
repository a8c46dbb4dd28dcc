import Verif.Model.Create
/-!
Model of /repo/src/statement.rs and with_query.rs.
-/
namespace SqlParse

/-- statement.rs:52-65 `parse_set`; fields: set_span, values -/
def parseSet : Prog Ast := do
  let s ← ckw .SET
  let l ← commaList assignment
  return nd% Set [s, l]

/-- statement.rs:72 `while parser.skip_token(Token::SemiColon).is_some() {}` -/
def skipSemis : Prog Unit :=
  .loop (fun _ => do
    let m ← skips .semiColon
    return (if m then .cont () else .done ())) ()

/-- statement.rs:473-480, 759-765 `Statement::reads_from_stdin` -/
def SAst.readsStdin (o : SAst) : Bool := decide (o.ast.kind? = some .Copy)

/-- statement.rs:67-92 `parse_statement_list_inner`: whether it succeeded, and the list `out`.  Stdin
fields: text, span.  (The final `consume_token(SemiColon)` cannot fail: the token was just tested.) -/
def stmtListInner : Prog (Bool × List SAst) :=
  .loop (σ := List SAst) (fun acc => do
    skipSemis
    let r ← .tryP (.call .statement)
    match r with
    | none => return .done (false, acc)
    | some none => return .done (true, acc)
    | some (some v) => do
      let t ← curT
      if t ≠ .semiColon then return .done (true, acc ++ [v])
      else if v.readsStdin then do
        let (d, sp) ← .op .stdin
        return .cont (acc ++ [v, snd% Statement_Stdin [d, sp]])
      else do
        let _ ← consume
        return .cont (acc ++ [v])) []

/-- statement.rs:94-102 `parse_statement_list` -/
def stmtList : Prog (Bool × List SAst) := do
  let d ← Prog.op .delim
  Prog.op (.setDelim .semiColon)
  let r ← stmtListInner
  Prog.op (.setDelim d)
  return r

/-- statement.rs:203-204, 598-599 `let mut v = Vec::new(); parse_statement_list(parser, &mut v)?` -/
def stmtListReq : Prog (List SAst) := do
  let r ← stmtList
  if r.1 then return r.2 else .throw

/-- statement.rs:137-142 the handlers after EXCEPTION (not kept) -/
def exceptionWhens : Prog Unit :=
  .loop (fun _ => do
    let w ← skw .WHEN
    match w with
    | some _ => do
      let _ ← ident
      let _ ← ckw .THEN
      let _ ← .call (.expression true)
      let _ ← ctk .semiColon
      return .cont ()
    | none => return .done ()) ()

/-- statement.rs:128-133 -/
def isBlockEnd (t : Token) : Bool := t.isKw .END || t.isKw .EXCEPTION

/-- statement.rs:123-146 `parse_block` -/
def parseBlock : Prog (List SAst) := do
  let _ ← ckw .BEGIN
  let l ← recoveredAcc "'END' | 'EXCEPTION'" isBlockEnd stmtList
  let ex ← skw .EXCEPTION
  Prog.when ex.isSome exceptionWhens
  let _ ← ckw .END
  return l

/-- statement.rs:523-529 `parse_do` -/
def parseDo : Prog SAst := do
  let _ ← ckw .DO
  let _ ← ctk .doubleDollar
  let b ← parseBlock
  let _ ← ctk .doubleDollar
  return snd% Statement_Do [b]

/-- statement.rs:201-211, 212-221 one branch of IF; IfCondition fields: elseif_span, search_condition,
then_span, then -/
def ifCondition (e : Option Span) : Prog SAst := do
  let c ← expr
  let t ← ckw .THEN
  let l ← stmtListReq
  return snd% IfCondition [e, c, t, l]

/-- `[ELSE statements]`: statement.rs:223-227, 610-614 -/
def elseStmts : Prog (Option (Span × List SAst)) := do
  let s ← skw .ELSE
  optMap s fun s => do
    let l ← stmtListReq
    return (s, l)

/-- statement.rs:200-229 the closure of IF; captured variables: conditions, else_ -/
def ifBody : Prog (Bool × List SAst × Option (Span × List SAst)) := do
  let r ← accLoop (σ := List SAst × Option Span) (fun x => do
    let c ← ifCondition x.2
    let e ← skw .ELSEIF
    return (match e with
      | some s => .cont (x.1 ++ [c], some s)
      | none => .done (x.1 ++ [c], none))) ([], none)
  if r.1 then do
    let e ← .tryP elseStmts
    return (match e with
      | some o => (true, r.2.1, o)
      | none => (false, r.2.1, none))
  else return (false, r.2.1, none)

/-- statement.rs:193-238 `parse_if`; fields: if_span, conditions, else_, endif_span -/
def parseIf : Prog SAst := do
  let i ← ckw .IF
  let (cs, els) ← recoveredAcc "'END'" (fun t => t.isKw .END) ifBody
  let e ← ckws .END [.IF]
  return snd% If [i, cs, els, e]

/-- statement.rs:254-258 `parse_return`; fields: return_span, expr -/
def parseReturn : Prog Ast := do
  let r ← ckw .RETURN
  let e ← expr
  return nd% Return [r, e]

/-- statement.rs:326-364 -/
def signalTable : List (Keyword × Kind) := [
  (Keyword.CLASS_ORIGIN, Kind.SignalConditionInformationName_ClassOrigin),
  (Keyword.SUBCLASS_ORIGIN, Kind.SignalConditionInformationName_SubclassOrigin),
  (Keyword.MESSAGE_TEXT, Kind.SignalConditionInformationName_MessageText),
  (Keyword.MYSQL_ERRNO, Kind.SignalConditionInformationName_MysqlErrno),
  (Keyword.CONSTRAINT_CATALOG, Kind.SignalConditionInformationName_ConstraintCatalog),
  (Keyword.CONSTRAINT_SCHEMA, Kind.SignalConditionInformationName_ConstraintSchema),
  (Keyword.CONSTRAINT_NAME, Kind.SignalConditionInformationName_ConstraintName),
  (Keyword.CATALOG_NAME, Kind.SignalConditionInformationName_CatalogName),
  (Keyword.SCHEMA_NAME, Kind.SignalConditionInformationName_SchemaName),
  (Keyword.TABLE_NAME, Kind.SignalConditionInformationName_TableName),
  (Keyword.COLUMN_NAME, Kind.SignalConditionInformationName_ColumnName),
  (Keyword.CURSOR_NAME, Kind.SignalConditionInformationName_CursorName)]

/-- statement.rs:326-367 one `name = expr` of SIGNAL: name, eq_span, value -/
def signalSet : Prog (Ast × Span × Ast) := do
  let n ← consNode signalTable
  let n ← orExpected n "Condition information item name"
  let e ← ctk .eq
  let v ← expr
  return (n, e, v)

/-- statement.rs:317-381 `parse_signal`; fields: signal_span, sqlstate_span, value_span, sql_state,
set_span, sets -/
def parseSignal : Prog Ast := do
  let s ← ckw .SIGNAL
  let ss ← ckw .SQLSTATE
  let v ← skw .VALUE
  let e ← expr
  let set ← skw .SET
  let sets ← (match set with
    | some _ => commaList signalSet
    | none => .ret [])
  return nd% Signal [s, ss, v, e, set, sets]

/-- statement.rs:595-605 one WHEN; WhenStatement fields: when_span, when, then_span, then -/
def whenStatement : Prog SAst := do
  let w ← ckw .WHEN
  let c ← expr
  let t ← ckw .THEN
  let l ← stmtListReq
  return snd% WhenStatement [w, c, t, l]

/-- statement.rs:593-616 the closure of CASE; captured variables: whens, else_ -/
def caseStatementBody : Prog (Bool × List SAst × Option (Span × List SAst)) := do
  let r ← accLoop (fun acc => do
    let w ← whenStatement
    let t ← curT
    return (if t.isKw .WHEN then .cont (acc ++ [w]) else .done (acc ++ [w]))) []
  if r.1 then do
    let e ← .tryP elseStmts
    return (match e with
      | some o => (true, r.2, o)
      | none => (false, r.2, none))
  else return (false, r.2, none)

/-- statement.rs:578-626 `parse_case_statement`; fields: case_span, value, whens, else_, end_span -/
def parseCase : Prog SAst := do
  let c ← ckw .CASE
  let t ← curT
  let value ← optIf (!t.isKw .WHEN) expr
  let (whens, els) ← recoveredAcc "'END'" (fun t => t.isKw .END) caseStatementBody
  let e ← ckw .END
  return snd% CaseStatement [c, value, whens, els, e]

/-- statement.rs:634-650 the column list of COPY -/
def copyColumns : Prog (List Ast) := do
  let t ← curT
  if t = .rParen then return [] else hintIndexList

/-- statement.rs:628-662 `parse_copy_statement`; fields: copy_span, table, columns, from_span, stdin_span -/
def parseCopy : Prog Ast := do
  let c ← ckw .COPY
  let t ← ident
  let _ ← ctk .lParen
  let cols ← copyColumns
  let _ ← ctk .rParen
  let f ← ckw .FROM
  let s ← ckw .STDIN
  return nd% Copy [c, t, cols, f, s]

/-- statement.rs:664-679 `parse_compound_query_bottom` -/
def compoundBottom : Prog Ast := do
  let t ← curT
  if t = .lParen then do
    let lp ← ctk .lParen
    let s ← recovered "')'" isRParen (.call .compoundQuery)
    let _ ← ctk .rParen
    return (match s with
      | some s => s
      | none => nd% Statement_Invalid [lp])
  else if t.isKw .SELECT then parseSelect
  else expectedFailure "'SELECET' or '('"

/-- statement.rs:777-783 -/
def unionType : Prog OAst := do
  let t ← curT
  if t.isKw .ALL then do
    let s ← ckw .ALL
    return ond% UnionType_All [s]
  else if t.isKw .DISTINCT then do
    let s ← ckw .DISTINCT
    return ond% UnionType_Distinct [s]
  else return ond% UnionType_Default []

/-- statement.rs:776-789 one UNION part; UnionWith fields: union_span, union_type, union_statement -/
def unionPart : Prog Ast := do
  let u ← ckw .UNION
  let ty ← unionType
  let s ← compoundBottom
  return nd% UnionWith [u, ty, s]

/-- statement.rs:767-838 `parse_compound_query`; Union fields: left, with, order_by, limit -/
def compoundQuery : Prog Ast := do
  let q ← compoundBottom
  let t ← curT
  if !t.isKw .UNION then return q
  else do
    let w ← sepLoop (do let t ← curT; return t.isKw .UNION) unionPart
    let o ← orderBy
    let l ← limitClause
    return nd% Union [q, w, o, l]

/-- with_query.rs:96-102, 126-132 the statement kinds allowed in WITH -/
def withAllowed (o : SAst) : Bool :=
  decide (o.ast.kind? = some .Select) || decide (o.ast.kind? = some .InsertReplace) ||
  decide (o.ast.kind? = some .Update) || decide (o.ast.kind? = some .Delete)

/-- with_query.rs:96-107, 126-137; `m` is the message -/
def withCheck (m : String) (v : SAst) : Prog Unit :=
  Prog.when (!withAllowed v) (do
    let sp ← spanOf v
    err m sp)

/-- with_query.rs:78-118 one block; WithBlock fields: identifier, as_span, lparen_span, statement,
rparen_span -/
def withBlock : Prog SAst := do
  let i ← ident
  let a ← ckw .AS
  let lp ← ctk .lParen
  let st ← recovered "')'" isRParen (do
    let o ← .call .statement
    match o with
    | some v => return some v
    | none => do
      expectedError "Statement"
      return none)
  let rp ← ctk .rParen
  match st.join with
  | some v => do
    withCheck "Only SELECT, INSERT, UPDATE or DELETE allowed within WITH query" v
    return snd% WithBlock [i, a, lp, v, rp]
  | none => return snd% WithBlock [i, a, lp, (snd% Statement_Begin [lp] : SAst), rp]

/-- with_query.rs:72-151 `parse_with_query`; fields: with_span, with_blocks, statement -/
def parseWith : Prog SAst := do
  let w ← ckw .WITH
  let bs ← commaList withBlock
  let o ← .call .statement
  match o with
  | some v => do
    withCheck "Only SELECT, INSERT, UPDATE or DELETE allowed as WITH query" v
    let pg ← isPg
    Prog.when (!pg) (do
      let sp ← spanOf (snd% WithQuery [w, bs, v])
      err "WITH statements only supported by postgresql" sp)
    return snd% WithQuery [w, bs, v]
  | none => expectedFailure "Statement"

/-- `Some(Statement::X(p?))` -/
def stmt (p : Prog Ast) : Prog (Option SAst) := do
  let a ← p
  return some ⟨a⟩

/-- `Some(p?)` -/
def ostmt (p : Prog SAst) : Prog (Option SAst) := do
  let a ← p
  return some a

/-- statement.rs:496-500, 104-106 BEGIN -/
def beginStmt : Prog (Option SAst) := do
  let p ← Prog.op .permit
  if p then do
    let b ← parseBlock
    return some (snd% Statement_Block [b])
  else do
    let s ← ckw .BEGIN
    return some (snd% Statement_Begin [s])

/-- statement.rs:485-520 the `match` of `parse_statement` on the current token `t`; `p` is
`permit_compound_statements` -/
def stmtDispatch (t : Token) (p : Bool) : Prog (Option SAst) := do
  if t.isKw .CREATE then ostmt parseCreate
  else if t.isKw .DROP then stmt parseDrop
  else if t.isKw .SELECT || decide (t = .lParen) then stmt (.call .compoundQuery)
  else if t.isKw .DELETE then stmt parseDelete
  else if t.isKw .INSERT || t.isKw .REPLACE then stmt parseInsertReplace
  else if t.isKw .UPDATE then stmt parseUpdate
  else if t.isKw .SET then stmt parseSet
  else if t.isKw .SIGNAL then stmt parseSignal
  else if t.isKw .BEGIN then beginStmt
  else if t.isKw .END && !p then do
    let s ← ckw .END
    return some (snd% Statement_End [s])
  else if t.isKw .START then do
    let s ← ckws .START [.TRANSACTION]
    return some (snd% Statement_StartTransaction [s])
  else if t.isKw .COMMIT then do
    let s ← ckw .COMMIT
    return some (snd% Statement_Commit [s])
  else if t.isKw .IF then ostmt parseIf
  else if t.isKw .RETURN then stmt parseReturn
  else if t.isKw .ALTER then stmt parseAlter
  else if t.isKw .CASE then ostmt parseCase
  else if t.isKw .COPY then stmt parseCopy
  else if t.isKw .DO then ostmt parseDo
  else if t.isKw .TRUNCATE then stmt parseTruncate
  else if t.isKw .RENAME then stmt parseRename
  else if t.isKw .WITH then ostmt parseWith
  else return none

/-- statement.rs:482-521 `parse_statement` -/
def statementBody : Prog (Option SAst) := do
  let t ← curT
  let p ← Prog.op .permit
  stmtDispatch t p

/-- The body of each recursive function. -/
def body : {α : Type} → Fn α → Prog α
  | _, .expression inner => parseExpression parseSelect (parseDataType false) inner
  | _, .compoundQuery => compoundQuery
  | _, .statement => statementBody

/-- The recursive parsing functions, `n` is the fuel: the depth of calls and the rounds of each
loop are less than `n`. -/
def runFn : Nat → ∀ α, Fn α → St → Out α
  | 0, _, _, _ => .oof
  | n + 1, _, f, s => runWith (runFn n) n (body f) s

/-- Execute a program with fuel `n`. -/
def Prog.run {α : Type} (n : Nat) (p : Prog α) (s : St) : Out α := runWith (runFn n) n p s

end SqlParse
