import Verif.Model.Expression
/-!
Model of /repo/src/data_type.rs.
-/
namespace SqlParse

/-- data_type.rs:186-194 `parse_width`: on recovery the value is the default `(0, 0..0)` -/
def parseWidth : Prog (Option (Nat × Span)) := do
  let t ← curT
  if t = .lParen then do
    let _ ← ctk .lParen
    let v ← recovered ")" isRParen (int u64Max)
    let _ ← ctk .rParen
    return some (v.getD (0, ⟨0, 0⟩))
  else return none

/-- data_type.rs:196-201 `parse_width_req` -/
def parseWidthReq : Prog (Nat × Span) := do
  let t ← curT
  if t = .lParen then do
    let w ← parseWidth
    match w with
    | some w => return w
    | none => .panic "width"
  else expectedFailure "'('"

/-- data_type.rs:206-218 the loop of `parse_enum_set_values`: the strings read so far are kept when
a later round fails.  (A string pushed in the failing round itself is kept too, so the push is
separated from the check of the token after it.) -/
def enumSetLoop : Prog (Bool × List Ast) :=
  .loop (σ := List Ast) (fun acc => do
    let s ← .tryP string
    match s with
    | some s => do
      let r ← .tryP (do
        let t ← curT
        if t = .comma then do
          let _ ← ctk .comma
          return true
        else if t = .rParen then return false
        else expectedFailure "',' or ')'")
      return (match r with
        | some true => .cont (acc ++ [s])
        | some false => .done (true, acc ++ [s])
        | none => .done (false, acc ++ [s]))
    | none => return .done (false, acc)) []

/-- data_type.rs:203-221 `parse_enum_set_values` -/
def enumSetValues : Prog (List Ast) := do
  let _ ← ctk .lParen
  let v ← recoveredAcc ")" isRParen enumSetLoop
  let _ ← ctk .rParen
  return v

/-- data_type.rs:227-390 the `match` on the type name: span of the name and `Type` variant (with its
payload as fields) -/
def typeOf : Prog (Span × OAst) := do
  let t ← curT
  if t.isKw .BOOLEAN then do
    let i ← ckw .BOOLEAN
    return (i, ond% Type_Boolean [])
  else if t.isKw .TINYINT then do
    let i ← ckw .TINYINT
    let w ← parseWidth
    return (i, ond% Type_TinyInt [w])
  else if t.isKw .SMALLINT then do
    let i ← ckw .SMALLINT
    let w ← parseWidth
    return (i, ond% Type_SmallInt [w])
  else if t.isKw .INTEGER then do
    let i ← ckw .INTEGER
    let w ← parseWidth
    return (i, ond% Type_Integer [w])
  else if t.isKw .INT then do
    let i ← ckw .INT
    let w ← parseWidth
    return (i, ond% Type_Int [w])
  else if t.isKw .BIGINT then do
    let i ← ckw .BIGINT
    let w ← parseWidth
    return (i, ond% Type_BigInt [w])
  else if t.isKw .INET4 then do
    let i ← ckw .INET4
    return (i, ond% Type_Inet4 [])
  else if t.isKw .INET6 then do
    let i ← ckw .INET6
    return (i, ond% Type_Inet6 [])
  else if t.isKw .TINYTEXT then do
    let i ← ckw .TINYTEXT
    let w ← parseWidth
    return (i, ond% Type_TinyText [w])
  else if t.isKw .CHAR then do
    let i ← ckw .CHAR
    let w ← parseWidth
    return (i, ond% Type_Char [w])
  else if t.isKw .TEXT then do
    let i ← ckw .TEXT
    let w ← parseWidth
    return (i, ond% Type_Text [w])
  else if t.isKw .MEDIUMTEXT then do
    let i ← ckw .MEDIUMTEXT
    let w ← parseWidth
    return (i, ond% Type_MediumText [w])
  else if t.isKw .LONGTEXT then do
    let i ← ckw .LONGTEXT
    let w ← parseWidth
    return (i, ond% Type_LongText [w])
  else if t.isKw .VARCHAR then do
    let i ← ckw .VARCHAR
    let w ← parseWidth
    return (i, ond% Type_VarChar [w])
  else if t.isKw .TINYBLOB then do
    let i ← ckw .TINYBLOB
    let w ← parseWidth
    return (i, ond% Type_TinyBlob [w])
  else if t.isKw .BLOB then do
    let i ← ckw .BLOB
    let w ← parseWidth
    return (i, ond% Type_Blob [w])
  else if t.isKw .MEDIUMBLOB then do
    let i ← ckw .MEDIUMBLOB
    let w ← parseWidth
    return (i, ond% Type_MediumBlob [w])
  else if t.isKw .LONGBLOB then do
    let i ← ckw .LONGBLOB
    let w ← parseWidth
    return (i, ond% Type_LongBlob [w])
  else if t.isKw .VARBINARY then do
    let i ← ckw .VARBINARY
    let w ← parseWidthReq
    return (i, ond% Type_VarBinary [w])
  else if t.isKw .BINARY then do
    let i ← ckw .BINARY
    let w ← parseWidth
    return (i, ond% Type_Binary [w])
  else if t.isKw .FLOAT8 then do
    let i ← ckw .FLOAT8
    return (i, ond% Type_Float8 [])
  else if t.isKw .REAL then do
    let i ← ckw .REAL
    let lite ← isSqlite
    return (i, if lite then ond% Type_Double [(none : Option Span)] else ond% Type_Float [(none : Option Span)])
  else if t.isKw .FLOAT then do
    let i ← ckw .FLOAT
    return (i, ond% Type_Float [(none : Option Span)])
  else if t.isKw .DOUBLE then do
    let pg ← isPg
    let i ← (if pg then ckws .DOUBLE [.PRECISION] else ckw .DOUBLE)
    return (i, ond% Type_Double [(none : Option Span)])
  else if t.isKw .NUMERIC then do
    let numeric ← ckw .NUMERIC
    let left ← ctk .lParen
    let v1 ← int u64Max
    let comma ← ctk .comma
    let v2 ← int u64Max
    let right ← ctk .rParen
    return (numeric, ond% Type_Numeric [v1.1, v2.1,
      joinSpan (joinSpan (joinSpan (joinSpan left v1.2) comma) v2.2) right])
  else if t.isKw .DATETIME then do
    let i ← ckw .DATETIME
    let w ← parseWidth
    return (i, ond% Type_DateTime [w])
  else if t.isKw .TIME then do
    let i ← ckw .TIME
    let w ← parseWidth
    return (i, ond% Type_Time [w])
  else if t.isKw .TIMESTAMPTZ then do
    let i ← ckw .TIMESTAMPTZ
    return (i, ond% Type_Timestamptz [])
  else if t.isKw .TIMESTAMP then do
    let i ← ckw .TIMESTAMP
    let width ← parseWidth
    let w ← skw .WITH
    let wtz ← optMap w fun w => do
      let s ← ckws .TIME [.ZONE]
      return joinSpan w s
    return (i, ond% Type_Timestamp [ond% Timestamp [width, wtz]])
  else if t.isKw .DATE then do
    let i ← ckw .DATE
    return (i, ond% Type_Date [])
  else if t.isKw .ENUM then do
    let i ← ckw .ENUM
    let v ← enumSetValues
    return (i, ond% Type_Enum [v])
  else if t.isKw .SET then do
    let i ← ckw .SET
    let v ← enumSetValues
    return (i, ond% Type_Set [v])
  else if t.isKw .JSON then do
    let i ← ckw .JSON
    return (i, ond% Type_Json [])
  else if t.isKw .BYTEA then do
    let i ← ckw .BYTEA
    return (i, ond% Type_Bytea [])
  else if t.isKw .BIT then do
    let i ← ckw .BIT
    let w ← parseWidthReq
    return (i, ond% Type_Bit [w.1, w.2])
  else
    match t with
    | .ident _ _ => do
      let pg ← isPg
      if pg then do
        let name ← consume
        return (name, ond% Type_Named [name])
      else expectedFailure "type"
    | _ => expectedFailure "type"

/-- data_type.rs:409-414 NOT NULL: `start..end` -/
def notNull : Prog Span := do
  let a ← ckw .NOT
  let b ← ckw .NULL
  return ⟨a.start, b.stop⟩

/-- data_type.rs:472-477, 485-490 `( expr )`, an Invalid expression when that fails -/
def parenExprOrInvalid : Prog Ast := do
  let s1 ← ctk .lParen
  let e ← recovered ")" isRParen expr
  let s2 ← ctk .rParen
  return (match e with
    | some e => e
    | none => nd% Invalid [joinSpan s1 s2])

/-- data_type.rs:393-494 one property; `none`: leave the loop -/
def typeProperty (noAs : Bool) : Prog (Option Ast) := do
  let t ← curT
  if t.isKw .SIGNED then do
    let s ← ckw .SIGNED
    return some (nd% DataTypeProperty_Signed [s])
  else if t.isKw .AUTO_INCREMENT then do
    let s ← ckw .AUTO_INCREMENT
    return some (nd% DataTypeProperty_AutoIncrement [s])
  else if t.isKw .UNSIGNED then do
    let s ← ckw .UNSIGNED
    return some (nd% DataTypeProperty_Unsigned [s])
  else if t.isKw .ZEROFILL then do
    let s ← ckw .ZEROFILL
    return some (nd% DataTypeProperty_Zerofill [s])
  else if t.isKw .NULL then do
    let s ← ckw .NULL
    return some (nd% DataTypeProperty_Null [s])
  else if t.isKw .NOT then do
    let s ← notNull
    return some (nd% DataTypeProperty_NotNull [s])
  else if t.isKw .CHARACTER then do
    let _ ← ckws .CHARACTER [.SET]
    let i ← ident
    return some (nd% DataTypeProperty_Charset [i])
  else if t.isKw .COLLATE then do
    let _ ← ckw .COLLATE
    let i ← ident
    return some (nd% DataTypeProperty_Charset [i])
  else if t.isKw .COMMENT then do
    let _ ← ckw .COMMENT
    let s ← string
    return some (nd% DataTypeProperty_Comment [s])
  else if t.isKw .DEFAULT then do
    let _ ← ckw .DEFAULT
    let e ← .call (.expression true)
    return some (nd% DataTypeProperty_Default [e])
  else if t.isKw .VIRTUAL then do
    let s ← ckw .VIRTUAL
    return some (nd% DataTypeProperty_Virtual [s])
  else if t.isKw .PERSISTENT then do
    let s ← ckw .PERSISTENT
    return some (nd% DataTypeProperty_Persistent [s])
  else if t.isKw .STORED then do
    let s ← ckw .STORED
    return some (nd% DataTypeProperty_Stored [s])
  else if t.isKw .UNIQUE then do
    let span ← ckw .UNIQUE
    let s2 ← skw .KEY
    return some (match s2 with
      | some s2 => nd% DataTypeProperty_UniqueKey [joinSpan s2 span]
      | none => nd% DataTypeProperty_Unique [span])
  else if t.isKw .GENERATED then do
    let pg ← isPg
    let s ← (if pg then ckws .GENERATED [.ALWAYS, .AS, .IDENTITY] else ckws .GENERATED [.ALWAYS])
    return some (nd% DataTypeProperty_GeneratedAlways [s])
  else if t.isKw .AS && !noAs then do
    let span ← ckw .AS
    let e ← parenExprOrInvalid
    return some (nd% DataTypeProperty_As [span, e])
  else if t.isKw .PRIMARY then do
    let s ← ckws .PRIMARY [.KEY]
    return some (nd% DataTypeProperty_PrimaryKey [s])
  else if t.isKw .CHECK then do
    let span ← ckw .CHECK
    let e ← parenExprOrInvalid
    return some (nd% DataTypeProperty_Check [span, e])
  else return none

/-- data_type.rs:223-503 `parse_data_type`; DataType fields: identifier, type_, properties -/
def parseDataType (noAs : Bool) : Prog Ast := do
  let (i, ty) ← typeOf
  let props ← manyOpt (typeProperty noAs)
  return nd% DataType [i, ty, props]

end SqlParse
