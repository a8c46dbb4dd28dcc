import Verif.Model.DataType
/-!
Model of /repo/src/select.rs.
-/
namespace SqlParse

/-- select.rs:41-51 `parse_select_expr`; SelectExpr fields: expr, as_ -/
def selectExpr : Prog Ast := do
  let e ← expr
  let a ← skw .AS
  let as_ ← optIf a.isSome ident
  return nd% SelectExpr [e, as_]

/-- `matches!(&parser.token, Token::Ident(_, k) if !k.reserved())` -/
def Token.isPlainWord (t : Token) : Bool :=
  match t with
  | .ident _ k => !k.reserved
  | _ => false

/-- select.rs:251-258, 269-276 `[AS] alias` -/
def aliasOpt : Prog (Option Span × Option Ast) := do
  let a ← skw .AS
  let t ← curT
  let as_ ← optIf (a.isSome || t.isPlainWord) ident
  return (a, as_)

/-- select.rs:102-107, 280-285 `enum IndexHintUse` -/
def hintUseTable : List (Keyword × Kind) := [(Keyword.USE, Kind.IndexHintUse_Use),
  (Keyword.IGNORE, Kind.IndexHintUse_Ignore), (Keyword.FORCE, Kind.IndexHintUse_Force)]
/-- select.rs:118-122, 286-290 `enum IndexHintType` -/
def hintTypeTable : List (Keyword × Kind) := [(Keyword.INDEX, Kind.IndexHintType_Index),
  (Keyword.KEY, Kind.IndexHintType_Key)]

/-- select.rs:292-301 FOR JOIN / GROUP BY / ORDER BY -/
def hintFor : Prog Ast := do
  let t ← curT
  if t.isKw .JOIN then do
    let s ← consume
    return nd% IndexHintFor_Join [s]
  else if t.isKw .GROUP then do
    let s ← ckws .GROUP [.BY]
    return nd% IndexHintFor_GroupBy [s]
  else if t.isKw .ORDER then do
    let s ← ckws .ORDER [.BY]
    return nd% IndexHintFor_OrderBy [s]
  else expectedFailure "'JOIN', 'GROUP BY' or 'ORDER BY'"

/-- select.rs:307-321 the index list of a hint -/
def hintIndexList : Prog (List Ast) :=
  .loop (fun acc => do
    let r ← recovered "')' or ','" isRParenComma ident
    let t ← curT
    if t = .rParen then return .done (acc ++ r.toList)
    else do
      let _ ← ctk .comma
      return .cont (acc ++ r.toList)) []

/-- select.rs:280-330 one index hint; `none`: no more hints; IndexHint fields: use_, type_, for_,
lparen, index_list, rparen -/
def indexHint : Prog (Option Ast) := do
  let u ← consNode hintUseTable
  optMap u fun u => do
    let ty ← consNode hintTypeTable
    let ty ← orExpected ty "'INDEX' or 'KEY'"
    let f ← skw .FOR
    let f ← optMap f fun f => do
      let v ← hintFor
      return (f, v)
    let lp ← ctk .lParen
    let l ← hintIndexList
    let rp ← ctk .rParen
    return nd% IndexHint [u, ty, f, lp, l, rp]

/-- select.rs:333-338 index hints outside MariaDB -/
def checkHints (hints : List Ast) : Prog Unit := do
  let m ← isMaria
  Prog.when (!hints.isEmpty && !m) (do
    let sp ← spanOf hints
    err "Index hints only supported by MariaDb" sp)

/-- select.rs:238-349 `parse_table_reference_inner`; TableReference::Query fields: query, as_span,
as_; TableReference::Table fields: identifier, as_span, as_, index_hints -/
def tableReferenceInner : Prog Ast := do
  let t ← curT
  if t.isKw .SELECT || decide (t = .lParen) then do
    let q ← .call .compoundQuery
    let (asSpan, as_) ← aliasOpt
    return nd% TableReference_Query [q, asSpan, as_]
  else
    match t with
    | .ident _ _ => do
      let i ← qualifiedName
      let (asSpan, as_) ← aliasOpt
      let hints ← manyOpt indexHint
      checkHints hints
      return nd% TableReference_Table [i, asSpan, as_, hints]
    | _ => expectedFailure "subquery or identifier"

/-- select.rs:373-383, 384-395, 403-415, 416-429: LEFT/RIGHT [OUTER] JOIN; the span -/
def sideJoin (k : Keyword) : Prog Span := do
  let l ← ckw k
  let o ← skw .OUTER
  match o with
  | some o => do
    let j ← ckw .JOIN
    return joinSpan (joinSpan l o) j
  | none => do
    let j ← ckw .JOIN
    return joinSpan l j

/-- select.rs:356-437 the join keyword(s); `none`: leave the loop -/
def joinType : Prog (Option Ast) := do
  let t ← curT
  if t.isKw .INNER then do
    let a ← ckw .INNER
    let b ← ckw .JOIN
    return some (nd% JoinType_Inner [joinSpan a b])
  else if t.isKw .CROSS then do
    let a ← ckw .CROSS
    let b ← ckw .JOIN
    return some (nd% JoinType_Cross [joinSpan a b])
  else if t.isKw .JOIN then do
    let a ← ckw .JOIN
    return some (nd% JoinType_Normal [a])
  else if t.isKw .STRAIGHT_JOIN then do
    let a ← ckw .STRAIGHT_JOIN
    return some (nd% JoinType_Straight [a])
  else if t.isKw .LEFT then do
    let s ← sideJoin .LEFT
    return some (nd% JoinType_Left [s])
  else if t.isKw .RIGHT then do
    let s ← sideJoin .RIGHT
    return some (nd% JoinType_Right [s])
  else if t.isKw .NATURAL then do
    let n ← ckw .NATURAL
    let t ← curT
    if t.isKw .INNER then do
      let s ← ckws .INNER [.JOIN]
      return some (nd% JoinType_NaturalInner [joinSpan n s])
    else if t.isKw .LEFT then do
      let s ← sideJoin .LEFT
      return some (nd% JoinType_NaturalLeft [s])
    else if t.isKw .RIGHT then do
      let s ← sideJoin .RIGHT
      return some (nd% JoinType_NaturalRight [s])
    else if t.isKw .JOIN then do
      let s ← ckw .JOIN
      return some (nd% JoinType_Natural [joinSpan n s])
    else expectedFailure "'INNER', 'LEFT', 'RIGHT' or 'JOIN'"
  else return none

/-- select.rs:441-459 ON / USING; JoinSpecification::On fields: expr, on_span; Using: columns, span -/
def joinSpecification : Prog (Option Ast) := do
  let t ← curT
  if t.isKw .ON then do
    let s ← ckw .ON
    let e ← expr
    return some (nd% JoinSpecification_On [e, s])
  else if t.isKw .USING then do
    let s ← ckw .USING
    let l ← commaList ident
    return some (nd% JoinSpecification_Using [l, s])
  else return none

/-- select.rs:351-469 `parse_table_reference`; TableReference::Join fields: join, left, right,
specification -/
def tableReference : Prog Ast := do
  let a ← tableReferenceInner
  .loop (fun ans => do
    let j ← joinType
    match j with
    | some j => do
      let r ← tableReferenceInner
      let sp ← joinSpecification
      return .cont (nd% TableReference_Join [j, ans, r, sp])
    | none => return .done ans) a

/-- select.rs:662-696 the flags -/
def selectFlagTable : List (Keyword × Kind) := [
  (Keyword.ALL, Kind.SelectFlag_All),
  (Keyword.DISTINCT, Kind.SelectFlag_Distinct),
  (Keyword.DISTINCTROW, Kind.SelectFlag_DistinctRow),
  (Keyword.HIGH_PRIORITY, Kind.SelectFlag_HighPriority),
  (Keyword.STRAIGHT_JOIN, Kind.SelectFlag_StraightJoin),
  (Keyword.SQL_SMALL_RESULT, Kind.SelectFlag_SqlSmallResult),
  (Keyword.SQL_BIG_RESULT, Kind.SelectFlag_SqlBigResult),
  (Keyword.SQL_BUFFER_RESULT, Kind.SelectFlag_SqlBufferResult),
  (Keyword.SQL_NO_CACHE, Kind.SelectFlag_SqlNoCache),
  (Keyword.SQL_CALC_FOUND_ROWS, Kind.SelectFlag_SqlCalcFoundRows)]

/-- select.rs:736-740, 757-761 `if let Some(span) = parser.skip_keyword(k) { Some((parse_expression(parser, false)?, span)) }` -/
def kwExpr (k : Keyword) : Prog (Option (Ast × Span)) := do
  let s ← skw k
  optMap s fun s => do
    let e ← expr
    return (e, s)

/-- `GROUP BY` list: select.rs:742-755 -/
def groupBy : Prog (Option (Span × List Ast)) := do
  let g ← skw .GROUP
  optMap g fun g => do
    let b ← ckw .BY
    let l ← commaList expr
    return (joinSpan b g, l)

/-- `ORDER BY` list: select.rs:768-786 -/
def orderBy : Prog (Option (Span × List (Ast × OAst))) := do
  let o ← skw .ORDER
  optMap o fun o => do
    let b ← ckw .BY
    let l ← commaList orderItem
    return (joinSpan b o, l)

/-- `LIMIT [offset ,] n` / `LIMIT n OFFSET offset`: select.rs:788-803 -/
def limitClause : Prog (Option (Span × Option Ast × Ast)) := do
  let s ← skw .LIMIT
  optMap s fun s => do
    let n ← .call (.expression true)
    let t ← curT
    if t = .comma then do
      let _ ← consume
      let m ← .call (.expression true)
      return (s, some n, m)
    else if t.isKw .OFFSET then do
      let _ ← consume
      let m ← .call (.expression true)
      return (s, some m, n)
    else return (s, none, n)

/-- select.rs:806-830 the lock strength -/
def lockStrength : Prog Ast := do
  let t ← curT
  let pg ← isPg
  if t.isKw .UPDATE then do
    let s ← ckw .UPDATE
    return nd% LockStrength_Update [s]
  else if t.isKw .SHARE then do
    let s ← ckw .SHARE
    return nd% LockStrength_Share [s]
  else if t.isKw .NO then do
    let s ← ckws .NO [.KEY, .UPDATE]
    Prog.when (!pg) (err "Only support by PostgreSQL" s)
    return nd% LockStrength_NoKeyUpdate [s]
  else if t.isKw .KEY then do
    let s ← ckws .KEY [.SHARE]
    Prog.when (!pg) (err "Only support by PostgreSQL" s)
    return nd% LockStrength_KeyShare [s]
  else expectedFailure "UPDATE, SHARE, NO KEY UPDATE or KEY SHARE here"

/-- select.rs:845-853 NOWAIT / SKIP LOCKED -/
def lockWait : Prog OAst := do
  let t ← curT
  if t.isKw .NOWAIT then do
    let s ← ckw .NOWAIT
    return ond% LockWait_NoWait [s]
  else if t.isKw .SKIP then do
    let s ← ckws .SKIP [.LOCKED]
    return ond% LockWait_SkipLocket [s]
  else return ond% LockWait_Default []

/-- `OF table, ..`: select.rs:832-843 -/
def lockOf : Prog (Option (Span × List Ast)) := do
  let o ← skw .OF
  optMap o fun o => do
    let l ← commaList ident
    return (o, l)

/-- select.rs:805-862 FOR UPDATE ..; Locking fields: for_span, strength, of, wait -/
def locking : Prog (Option Ast) := do
  let f ← skw .FOR
  optMap f fun f => do
    let st ← lockStrength
    let o ← lockOf
    let w ← lockWait
    return nd% Locking [f, st, o, w]

/-- select.rs:657-889 `parse_select`; Select fields: select_span, flags, select_exprs, from_span,
table_references, where_, group_by, having, window_span, order_by, limit, locking -/
def parseSelect : Prog Ast := do
  let s ← ckw .SELECT
  let flags ← manyOpt (kwNode selectFlagTable)
  let exprs ← commaList selectExpr
  let f ← skw .FROM
  match f with
  | none =>
    return nd% Select [s, flags, exprs, (none : Option Span), (none : Option Ast), (none : Option Ast),
      (none : Option Ast), (none : Option Ast), (none : Option Ast), (none : Option Ast),
      (none : Option Ast), (none : Option Ast)]
  | some f => do
    let tables ← commaList tableReference
    let where_ ← kwExpr .WHERE
    let group ← groupBy
    let having ← kwExpr .HAVING
    let window ← skw .WINDOW
    let order ← orderBy
    let limit ← limitClause
    let lock ← locking
    return nd% Select [s, flags, exprs, some f, some tables, where_, group, having, window, order,
      limit, lock]

/-- expression.rs:1625-1635 `parse_expression_outer` -/
def exprOuter : Prog Ast := exprOuterWith parseSelect

end SqlParse
