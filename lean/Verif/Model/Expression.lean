import Verif.Parser
import Verif.Gen.Functions
/-!
Model of /repo/src/expression.rs.

`parse_data_type` and `parse_select` are used by `parse_expression`; they come later (they use
expressions themselves), so they are parameters here.
-/
namespace SqlParse

/-- expression.rs:951-979 `impl Priority for BinaryOperator` -/
def BinOp.priority : BinOp → Nat
  | .or => 140 | .xor => 150 | .and => 160
  | .eq => 110 | .nullSafeEq => 110 | .gtEq => 110 | .gt => 110 | .ltEq => 110 | .lt => 110
  | .neq => 110 | .like => 110 | .notLike => 110
  | .shiftLeft => 80 | .shiftRight => 80 | .bitAnd => 90 | .bitOr => 100 | .bitXor => 50
  | .add => 70 | .subtract => 70 | .divide => 60 | .div => 60 | .mod => 60 | .mult => 60

/-- expression.rs:981-991 `impl Priority for UnaryOperator` -/
def UnOp.priority : UnOp → Nat
  | .binary => 20 | .collate => 20 | .logicalNot => 30 | .minus => 40 | .not => 130

/-- expression.rs:945 `IN_PRIORITY` -/
def inPriority : Nat := 110

/-- expression.rs:993-998 `enum ReduceMember` -/
inductive RM where
  | expr (e : Ast)
  | bin (op : BinOp) (sp : Span)
  | un (op : UnOp) (sp : Span)

/-- Expression::Unary; fields: op, op_span, operand -/
def mkUnary (op : UnOp) (sp : Span) (e : Ast) : Ast := nd% Unary [op, sp, e]
/-- Expression::Binary; fields: op, op_span, lhs, rhs -/
def mkBinary (op : BinOp) (sp : Span) (l r : Ast) : Ast := nd% Binary [op, sp, l, r]

/-- expression.rs:1012-1047 the loop of `Reducer::reduce` (head of the list = top of the stack) and
the final push -/
def reduceLoop (p : Nat) (e : Ast) : List RM → Except String (List RM)
  | [] => .ok [.expr e]
  | .expr _ :: _ => .error "ICE Reduce stack error 1"
  | .un op sp :: r =>
    if op.priority > p then .ok (.expr e :: .un op sp :: r) else reduceLoop p (mkUnary op sp e) r
  | .bin op sp :: r =>
    if op.priority > p then .ok (.expr e :: .bin op sp :: r)
    else
      match r with
      | .expr l :: r' => reduceLoop p (mkBinary op sp l e) r'
      | _ => .error "ICE Reduce stack error 2"

/-- expression.rs:1005-1048 `Reducer::reduce` -/
def reduce (p : Nat) : List RM → Except String (List RM)
  | .expr e :: r => reduceLoop p e r
  | _ => .error "Expected expression before here"

/-- `matches!(r.stack.last(), Some(ReduceMember::Expression(_)))` -/
def topExpr : List RM → Bool
  | .expr _ :: _ => true
  | _ => false

/-- expression.rs:1050-1054 `shift_binop` -/
def shiftBinop (sp : Span) (op : BinOp) (st : List RM) : Except String (List RM) :=
  match reduce op.priority st with
  | .ok st' => .ok (.bin op sp :: st')
  | .error m => .error m

/-- expression.rs:1056-1062 `shift_unary` -/
def shiftUnary (sp : Span) (op : UnOp) (st : List RM) : Except String (List RM) :=
  if topExpr st then .error "Unary operator cannot come before expression" else .ok (.un op sp :: st)

/-- expression.rs:1064-1071 `shift_expr` -/
def shiftExpr (e : Ast) (st : List RM) : Except String (List RM) :=
  if topExpr st then .error "Expression should not follow expression" else .ok (.expr e :: st)

/-- expression.rs:1610-1612 `if let Err(e) = e { parser.err_here(e)?; }`, then the next round -/
def shifted (r : Except String (List RM)) : Prog (Step (List RM) (List RM)) :=
  match r with
  | .ok st => return .cont st
  | .error m => errHere m

/-- `r.shift_binop(parser.consume(), op)` -/
def doBin (op : BinOp) (st : List RM) : Prog (Step (List RM) (List RM)) := do
  let sp ← consume
  shifted (shiftBinop sp op st)

/-- `r.shift_unary(parser.consume(), op)` -/
def doUn (op : UnOp) (st : List RM) : Prog (Step (List RM) (List RM)) := do
  let sp ← consume
  shifted (shiftUnary sp op st)

/-- `r.shift_expr(e)` -/
def doExpr (st : List RM) (p : Prog Ast) : Prog (Step (List RM) (List RM)) := do
  let e ← p
  shifted (shiftExpr e st)

/-- `parse_expression(parser, false)` -/
def expr : Prog Ast := .call (.expression false)

/-- expression.rs:1625-1635 `parse_expression_outer`; `sel` is `parse_select` -/
def exprOuterWith (sel : Prog Ast) : Prog Ast := do
  let t ← curT
  if t.isKw .SELECT then do
    let s ← sel
    return nd% Subquery [s]
  else expr

/-- expression.rs:1637-1647 `parse_expression_paren` -/
def exprParen : Prog Ast := do
  let t ← curT
  if t.isKw .SELECT then do
    let s ← .call .compoundQuery
    return nd% Subquery [s]
  else expr

/-- `matches!(t, Token::RParen)` -/
def isRParen (t : Token) : Bool := decide (t = .rParen)
/-- `matches!(t, Token::RParen | Token::Comma)` -/
def isRParenComma (t : Token) : Bool := decide (t = .rParen) || decide (t = .comma)

/-- `OrderFlag`: expression.rs:919-923, select.rs:773-777 -/
def orderFlag : Prog OAst := do
  let t ← curT
  if t.isKw .ASC then do
    let s ← consume
    return ond% OrderFlag_Asc [s]
  else if t.isKw .DESC then do
    let s ← consume
    return ond% OrderFlag_Desc [s]
  else return ond% OrderFlag_None []

/-- one element of an ORDER BY list -/
def orderItem : Prog (Ast × OAst) := do
  let e ← expr
  let f ← orderFlag
  return (e, f)

/-- expression.rs:678-893 `let func = match &t { .. }` -/
def functionOf (t : Token) (span : Span) : Prog OAst :=
  match t with
  | .ident v k =>
    match tableFind k functionTable with
    | some f => return ⟨.node f []⟩
    | none =>
      if k.reserved then do
        err "Unknown function" span
        return ond% Function_Unknown []
      else return ond% Function_Other [v]
  | _ => do
    err "Unknown function" span
    return ond% Function_Unknown []

/-- expression.rs:672-942 `parse_function`; Function fields: function, args, span; WindowFunction
fields: function, args, function_span, over_span, window_spec; WindowSpec fields: order_by -/
def parseFunction (sel : Prog Ast) (t : Token) (span : Span) : Prog Ast := do
  let _ ← ctk .lParen
  let func ← functionOf t span
  let t' ← curT
  let args ← (if t' = .rParen then .ret [] else recList "')' or ','" isRParenComma (exprOuterWith sel))
  let _ ← ctk .rParen
  let over ← skw .OVER
  match over with
  | some overSpan => do
    let _ ← ctk .lParen
    let orderSpan ← ckws .ORDER [.BY]
    let order ← commaList orderItem
    let _ ← ctk .rParen
    return nd% WindowFunction [func, args, span, overSpan, nd% WindowSpec [(orderSpan, order)]]
  | none => return nd% Function [func, args, span]

/-- expression.rs:374-398 `parse_time_unit(&parser.token)`, or the error "Expected time unit", and
then `(u, parser.consume())` -/
def timeUnit : Prog (OAst × Span) := do
  let t ← curT
  match tableFind t.kw timeUnitTable with
  | some u => do
    let s ← consume
    return (⟨.node u []⟩, s)
  | none => errHere "Expected time unit"

/-- `(` , a list of `parse_expression_paren`, `)`: expression.rs:1133-1148, 1213-1228 -/
def inList : Prog (List Ast) := do
  let _ ← ctk .lParen
  let rhs ← recList "')' or ','" isRParenComma exprParen
  let _ ← ctk .rParen
  return rhs

/-- expression.rs:1125-1131, 1157-1163, 1202-1208 `r.reduce(IN_PRIORITY)`, then pop the expression; `m` is the
message if there is none -/
def popLhs (m : String) (st : List RM) : Prog (Ast × List RM) :=
  match reduce inPriority st with
  | .ok (.expr e :: r) => return (e, r)
  | .ok _ => errHere m
  | .error e => errHere e

/-- expression.rs:1124-1155 IN; fields: lhs, rhs, in_span, not_in -/
def exprIn (st : List RM) : Prog (Step (List RM) (List RM)) := do
  let (lhs, r) ← popLhs "Expected expression before here 3" st
  let op ← ckw .IN
  let rhs ← inList
  shifted (shiftExpr (nd% In [lhs, rhs, op, false]) r)

/-- expression.rs:1165-1191 the word after IS; Is kinds -/
def isWord' (op : Span) : Prog (OAst × Span) := do
  let t ← curT
  if t.isKw .NOT then do
    let _ ← consume
    let t ← curT
    if t.isKw .TRUE then do
      let s ← consume
      return (ond% Is_NotTrue [], joinSpan s op)
    else if t.isKw .FALSE then do
      let s ← consume
      return (ond% Is_NotFalse [], joinSpan s op)
    else if t.isKw .NULL then do
      let s ← consume
      return (ond% Is_NotNull [], joinSpan s op)
    else if t.isKw .UNKNOWN then do
      let s ← consume
      return (ond% Is_NotUnknown [], joinSpan s op)
    else expectedFailure "'TRUE', 'FALSE', 'UNKNOWN' or 'NULL'"
  else if t.isKw .TRUE then do
    let s ← consume
    return (ond% Is_True [], joinSpan s op)
  else if t.isKw .FALSE then do
    let s ← consume
    return (ond% Is_False [], joinSpan s op)
  else if t.isKw .NULL then do
    let s ← consume
    return (ond% Is_Null [], joinSpan s op)
  else if t.isKw .UNKNOWN then do
    let s ← consume
    return (ond% Is_Unknown [], joinSpan s op)
  else expectedFailure "'NOT', 'TRUE', 'FALSE', 'UNKNOWN' or 'NULL'"

/-- expression.rs:1156-1193 IS; Expression::Is fields: operand, is, span -/
def exprIs (st : List RM) : Prog (Step (List RM) (List RM)) := do
  let (lhs, r) ← popLhs "Expected expression before here 4" st
  let op ← ckw .IS
  let (is, op') ← isWord' op
  shifted (shiftExpr (nd% Is [lhs, is, op']) r)

/-- expression.rs:1199-1242 NOT after an expression: NOT IN, NOT LIKE -/
def exprNotIn (st : List RM) : Prog (Step (List RM) (List RM)) := do
  let (lhs, r) ← popLhs "Expected expression before here 2" st
  let op ← ckw .NOT
  let t ← curT
  if t.isKw .IN then do
    let s ← ckw .IN
    let rhs ← inList
    shifted (shiftExpr (nd% In [lhs, rhs, joinSpan s op, true]) r)
  else if t.isKw .LIKE then do
    let s ← consume
    shifted (shiftBinop (joinSpan s op) .notLike (.expr lhs :: r))
  else expectedFailure "'IN' or 'LIKE'"

/-- expression.rs:1252 `v.split([':', '!', ',', '.', '-', ' '])` -/
def isIntervalSep (c : Char) : Bool :=
  c == ':' || c == '!' || c == ',' || c == '.' || c == '-' || c == ' '

/-- expression.rs:1252 `str::split` by a character predicate -/
def splitBy (p : Char → Bool) : List Char → List (List Char)
  | [] => [[]]
  | c :: cs =>
    if p c then [] :: splitBy p cs
    else
      match splitBy p cs with
      | w :: ws => (c :: w) :: ws
      | [] => [[c]]

/-- expression.rs:1253 `part.parse::<i64>()` for a part without '-': an optional '+', then digits, in range. -/
def parseI64 (w : List Char) : Option Nat :=
  let ds := match w with
    | '+' :: r => r
    | _ => w
  if ds.isEmpty || !ds.all isDig || decide (i64Max < decVal ds) then none else some (decVal ds)

/-- expression.rs:1252-1258 the parts of an interval string -/
def intervalParts (sp : Span) (acc : List Nat) : List (List Char) → Prog (List Nat)
  | [] => .ret acc
  | w :: ws =>
    match parseI64 w with
    | some n => intervalParts sp (acc ++ [n]) ws
    | none => do
      err "Expected . separated integers in a string" sp
      intervalParts sp acc ws

/-- expression.rs:1248-1266 the interval: its numbers and span -/
def intervalValue : Prog (List Nat × Span) := do
  let t ← curT
  if t.isStr then do
    let v ← strPair
    let r ← intervalParts v.2 [] (splitBy isIntervalSep v.1)
    return (r, v.2)
  else do
    match t with
    | .integer _ => do
      let v ← int i64Max
      return ([v.1], v.2)
    | _ => errHere "Expected integer or string"

/-- expression.rs:1246-1277 INTERVAL; fields: interval_span, time_interval, time_unit -/
def exprInterval : Prog Ast := do
  let s ← consume
  let ti ← intervalValue
  let tu ← timeUnit
  return nd% Interval [s, ti, tu]

/-- expression.rs:1282-1290 and 1308-1316: TIMESTAMPADD and TIMESTAMPDIFF: unit and two expressions -/
def timestampArgs (sel : Prog Ast) : Prog ((OAst × Span) × Ast × Ast) := do
  let u ← timeUnit
  let _ ← ctk .comma
  let e1 ← exprOuterWith sel
  let _ ← ctk .comma
  let e2 ← exprOuterWith sel
  return (u, e1, e2)

/-- expression.rs:1278-1303; fields: timestamp_add_span, unit, interval, datetime -/
def exprTimestampAdd (sel : Prog Ast) : Prog Ast := do
  let s ← consume
  let _ ← ctk .lParen
  let parts ← recovered "')'" isRParen (timestampArgs sel)
  let _ ← ctk .rParen
  return (match parts with
    | some (u, e1, e2) => nd% TimestampAdd [s, u, e1, e2]
    | none => nd% Invalid [s])

/-- expression.rs:1304-1329; fields: timestamp_diff_span, unit, e1, e2 -/
def exprTimestampDiff (sel : Prog Ast) : Prog Ast := do
  let s ← consume
  let _ ← ctk .lParen
  let parts ← recovered "')'" isRParen (timestampArgs sel)
  let _ ← ctk .rParen
  return (match parts with
    | some (u, e1, e2) => nd% TimestampDiff [s, u, e1, e2]
    | none => nd% Invalid [s])

/-- expression.rs:1372-1375 the inside of CAST( ) -/
def castArgs (sel dataType : Prog Ast) : Prog (Ast × Span × Ast) := do
  let e ← exprOuterWith sel
  let a ← ckw .AS
  let t ← dataType
  return (e, a, t)

/-- expression.rs:1368-1388 CAST; fields: cast_span, expr, as_span, type_ -/
def exprCast (sel dataType : Prog Ast) : Prog Ast := do
  let s ← ckw .CAST
  let _ ← ctk .lParen
  let cast ← recovered "')'" isRParen (castArgs sel dataType)
  let _ ← ctk .rParen
  return (match cast with
    | some (e, a, t) => nd% Cast [s, e, a, t]
    | none => nd% Invalid [s])

/-- expression.rs:1389-1407 COUNT; fields: count_span, distinct_span, expr -/
def exprCount (sel : Prog Ast) : Prog Ast := do
  let s ← ckw .COUNT
  let _ ← ctk .lParen
  let d ← skw .DISTINCT
  let e ← recovered "')'" isRParen (exprOuterWith sel)
  let _ ← ctk .rParen
  return (match e with
    | some e => nd% Count [s, d, e]
    | none => nd% Invalid [s])

/-- expression.rs:1408-1433 GROUP_CONCAT; fields: group_concat_span, distinct_span, expr -/
def exprGroupConcat (sel : Prog Ast) : Prog Ast := do
  let s ← ckw .GROUP_CONCAT
  let _ ← ctk .lParen
  let d ← skw .DISTINCT
  let e ← recovered "')'" isRParen (exprOuterWith sel)
  let _ ← ctk .rParen
  return (match e with
    | some e => nd% GroupConcat [s, d, e]
    | none => nd% Invalid [s])

/-- expression.rs:1438-1444 the inside of EXTRACT( ) -/
def extractArgs (sel : Prog Ast) : Prog ((OAst × Span) × Span × Ast) := do
  let u ← timeUnit
  let f ← ckw .FROM
  let d ← exprOuterWith sel
  return (u, f, d)

/-- expression.rs:1434-1457 EXTRACT; fields: extract_span, time_unit, from_span, date -/
def exprExtract (sel : Prog Ast) : Prog Ast := do
  let s ← ckw .EXTRACT
  let _ ← ctk .lParen
  let parts ← recovered "')'" isRParen (extractArgs sel)
  let _ ← ctk .rParen
  return (match parts with
    | some (u, f, d) => nd% Extract [s, u, f, d]
    | none => nd% Invalid [s])

/-- expression.rs:1458-1463 LEFT( ..): the current token is LEFT, the next is `(` -/
def exprLeft (sel : Prog Ast) : Prog Ast := do
  let (i, s) ← cur
  next
  parseFunction sel i s

/-- expression.rs:1471-1484 words that are functions without parentheses -/
def nullaryTable : List (Keyword × Kind) := [
  (Keyword.CURRENT_TIMESTAMP, Kind.Function_CurrentTimestamp),
  (Keyword.LOCALTIME, Kind.Function_Now), (Keyword.LOCALTIMESTAMP, Kind.Function_Now),
  (Keyword.UTC_TIMESTAMP, Kind.Function_UtcTimeStamp), (Keyword.UTC_DATE, Kind.Function_UtcDate),
  (Keyword.UTC_TIME, Kind.Function_UtcTime), (Keyword.CURRENT_DATE, Kind.Function_CurDate),
  (Keyword.CURRENT_TIME, Kind.Function_CurTime)]

/-- expression.rs:1491-1502 the parts of a dotted name after the first -/
def identParts (first : Ast) : Prog (List Ast) :=
  .loop (σ := List Ast) (fun parts => do
    let dot ← skips .period
    if dot then do
      let t ← curT
      match t with
      | .mul => do
        let s ← ctk .mul
        return .cont (parts ++ [nd% IdentifierPart_Star [s]])
      | .ident _ _ => do
        let i ← ident
        return .cont (parts ++ [i])
      | _ => expectedFailure "Identifier or '*'"
    else return .done parts) [first]

/-- expression.rs:1464-1506 a word: function call, function without parentheses or name;
Expression::Identifier fields: parts -/
def exprWord (sel : Prog Ast) : Prog Ast := do
  let (i, s) ← cur
  next
  let t ← curT
  if t = .lParen then parseFunction sel i s
  else
    match tableFind i.kw nullaryTable with
    | some f => return nd% Function [OAst.mk (.node f []), ([] : List Ast), s]
    | none => do
      let first ← tokenToIdent i s
      let parts ← identParts first
      return nd% Identifier [parts]

/-- expression.rs:1507-1524 an argument marker, `?` or `%s`; Arg fields: number, span -/
def exprArg : Prog Ast := do
  let (i, s) ← .op .takeArg
  return nd% Arg [i, s]

/-- expression.rs:1354-1361 `_LIST_`; `consume_keyword` may warn; ListHack fields: number, span -/
def exprListHack : Prog Ast := do
  let (t, sp) ← cur
  (match t with
   | .ident v k => Prog.when (k = .«_LIST_») (capsWarn v sp)
   | _ => .ret ())
  let (i, s) ← .op .takeArg
  return nd% ListHack [i, s]

/-- expression.rs:1528 `arg - 1` on usize; the lexer only yields 0 when `$N` wrapped around -/
def dollarIndex (n : Nat) : Nat := if n = 0 then usizeMod - 1 else n - 1

/-- expression.rs:1525-1529 `$n`; Arg fields: number, span -/
def exprDollar (n : Nat) : Prog Ast := do
  let s ← consume
  return nd% Arg [dollarIndex n, s]

/-- expression.rs:1530-1535 a parenthesised expression -/
def exprParens : Prog Ast := do
  let _ ← ctk .lParen
  let e ← exprParen
  let _ ← ctk .rParen
  return e

/-- expression.rs:1536-1542 EXISTS( ); fields: statement -/
def exprExists : Prog Ast := do
  let _ ← ckw .EXISTS
  let _ ← ctk .lParen
  let q ← .call .compoundQuery
  let _ ← ctk .rParen
  return nd% Exists [q]

/-- expression.rs:1557-1566 one WHEN .. THEN ..; When fields: when_span, when, then_span, then -/
def caseWhen : Prog Ast := do
  let w ← ckw .WHEN
  let c ← expr
  let t ← ckw .THEN
  let v ← expr
  return nd% When [w, c, t, v]

/-- expression.rs:1555-1575 the closure of CASE: captured variables are the WHENs and the ELSE -/
def caseBody : Prog (Bool × List Ast × Option (Span × Ast)) := do
  let r ← accLoop (fun acc => do
    let w ← caseWhen
    let t ← curT
    return (if t.isKw .WHEN then .cont (acc ++ [w]) else .done (acc ++ [w]))) []
  if r.1 then do
    let e ← .tryP (do
      let s ← skw .ELSE
      optMap s fun s => do
        let v ← expr
        return (s, v))
    return (match e with
      | some o => (true, r.2, o)
      | none => (false, r.2, none))
  else return (false, r.2, none)

/-- expression.rs:1543-1585 CASE; fields: case_span, value, whens, else_, end_span -/
def exprCase : Prog Ast := do
  let s ← ckw .CASE
  let t ← curT
  let value ← optIf (!t.isKw .WHEN) expr
  let (whens, els) ← recoveredAcc "'END'" (fun t => t.isKw .END) caseBody
  let e ← ckw .END
  return nd% Case [s, value, whens, els, e]

/-- expression.rs:1586-1607 @@GLOBAL / @@SESSION; fields: global, session, dot, variable, variable_span -/
def exprVariable : Prog Ast := do
  let g ← stk .atAtGlobal
  let s ← optIf g.isNone (ctk .atAtSession)
  let dot ← ctk .period
  let t ← curT
  match t with
  | .ident v k => do
    let sp ← consume
    return nd% Variable [g, s, some dot,
      (if k = .TIME_ZONE then ond% Variable_TimeZone [] else ond% Variable_Other [v] : OAst), sp]
  | _ => expectedFailure "Identifier"

/-- expression.rs:1080-1612 one round of the loop of `parse_expression`: the `match` arms in order. -/
def exprStep (sel dataType : Prog Ast) (inner : Bool) (st : List RM) :
    Prog (Step (List RM) (List RM)) := do
  let t ← curT
  if (t.isKw .OR || decide (t = .doublePipe)) && !inner then doBin .or st
  else if t.isKw .XOR && !inner then doBin .xor st
  else if (t.isKw .AND || decide (t = .doubleAmpersand)) && !inner then doBin .and st
  else if decide (t = .eq) && !inner then doBin .eq st
  else if decide (t = .spaceship) && !inner then doBin .nullSafeEq st
  else if decide (t = .gtEq) && !inner then doBin .gtEq st
  else if decide (t = .gt) && !inner then doBin .gt st
  else if decide (t = .ltEq) && !inner then doBin .ltEq st
  else if decide (t = .lt) && !inner then doBin .lt st
  else if decide (t = .neq) && !inner then doBin .neq st
  else if decide (t = .shiftLeft) && !inner then doBin .shiftLeft st
  else if decide (t = .shiftRight) && !inner then doBin .shiftRight st
  else if decide (t = .ampersand) then doBin .bitAnd st
  else if decide (t = .pipe) && !inner then doBin .bitOr st
  else if t.isKw .BINARY && !inner then doUn .binary st
  else if t.isKw .COLLATE && !inner then doUn .collate st
  else if decide (t = .exclamationMark) && !inner then doUn .logicalNot st
  else if decide (t = .minus) && !topExpr st then doUn .minus st
  else if decide (t = .minus) && (!inner && topExpr st) then doBin .subtract st
  else if t.isKw .IN && !inner then exprIn st
  else if t.isKw .IS && !inner then exprIs st
  else if t.isKw .NOT && !topExpr st then doUn .not st
  else if t.isKw .NOT && (!inner && topExpr st) then exprNotIn st
  else if t.isKw .LIKE && !inner then doBin .like st
  else if t.isKw .INTERVAL then doExpr st exprInterval
  else if t.isKw .TIMESTAMPADD then doExpr st (exprTimestampAdd sel)
  else if t.isKw .TIMESTAMPDIFF then doExpr st (exprTimestampDiff sel)
  else if decide (t = .plus) && !inner then doBin .add st
  else if decide (t = .div) && !inner then doBin .divide st
  else if decide (t = .mul) && !topExpr st then
    doExpr st (do
      let s ← ctk .mul
      return nd% Identifier [[nd% IdentifierPart_Star [s]]])
  else if decide (t = .mul) && (!inner && topExpr st) then doBin .mult st
  else if t.isKw .TRUE then
    doExpr st (do
      let s ← ckw .TRUE
      return nd% Bool [true, s])
  else if t.isKw .FALSE then
    doExpr st (do
      let s ← ckw .FALSE
      return nd% Bool [false, s])
  else if t.isKw .NULL then
    doExpr st (do
      let s ← ckw .NULL
      return nd% Null [s])
  else do
    let lh ← Prog.op .listHack
    if t.isKw .«_LIST_» && lh then doExpr st exprListHack
    else if t.isStr then doExpr st string
    else
      match t with
      | .integer _ =>
        doExpr st (do
          let r ← int u64Max
          return nd% Integer [r])
      | .float _ =>
        doExpr st (do
          let r ← float
          return nd% Float [r])
      | .dollarArg n => do
        let m ← Prog.op .arguments
        if m = .dollar then
          doExpr st (exprDollar n)
        else return .done st
      | .questionMark => do
        let m ← Prog.op .arguments
        if m = .questionMark then doExpr st exprArg else return .done st
      | .percentS => do
        let m ← Prog.op .arguments
        if m = .percent then doExpr st exprArg else return .done st
      | .lParen => doExpr st exprParens
      | .atAtGlobal => doExpr st exprVariable
      | .atAtSession => doExpr st exprVariable
      | .ident _ k =>
        if k = .CAST then doExpr st (exprCast sel dataType)
        else if k = .COUNT then doExpr st (exprCount sel)
        else if k = .GROUP_CONCAT then doExpr st (exprGroupConcat sel)
        else if k = .EXTRACT then doExpr st (exprExtract sel)
        else do
          let left ← Prog.op .leftParenAhead
          if left then doExpr st (exprLeft sel)
          else if k.exprIdent then doExpr st (exprWord sel)
          else if k = .EXISTS then doExpr st exprExists
          else if k = .CASE then doExpr st exprCase
          else return .done st
      | _ => return .done st

/-- expression.rs:1074-1623 `parse_expression` (`file!()` is taken to be the path inside the crate) -/
def parseExpression (sel dataType : Prog Ast) (inner : Bool) : Prog Ast := do
  let st ← .loop (exprStep sel dataType inner) []
  match reduce 99999 st with
  | .ok [.expr e] => return e
  | .ok l => errHere (if l.length = 1 then "Internal compiler error at src/expression.rs:1621"
      else "Internal compiler error at src/expression.rs:1617")
  | .error _ => errHere "Expected expression"

end SqlParse
