import Verif.Spec.Phrase
/-!
Specification of the accepted language, part 2: expressions, data types and queries.
(From the model only the keyword tables are used.)
-/
namespace SqlParse

/-- Words that are operators. -/
def opWords : List Keyword := [.OR, .XOR, .AND, .BINARY, .COLLATE, .IN, .IS, .NOT, .LIKE]

/-- Words with which an expression can begin but which are not names of columns or functions. -/
def exprWords : List Keyword := [.INTERVAL, .TIMESTAMPADD, .TIMESTAMPDIFF, .TRUE, .FALSE, .NULL, .CAST, .COUNT,
  .GROUP_CONCAT, .EXTRACT, .EXISTS, .CASE]

/-- Symbols that are operators, other than `&`. -/
def opSyms : List Token := [.doublePipe, .doubleAmpersand, .eq, .spaceship, .gtEq, .gt, .ltEq, .lt, .neq, .shiftLeft,
  .shiftRight, .pipe, .exclamationMark, .minus, .plus, .div, .mul]

/-- Symbols that are never part of an expression. -/
def stopSyms : List Token := [.at, .backslash, .caret, .colon, .comma, .doubleColon, .doubleExclamationMark, .doubleDollar,
  .invalid, .lBrace, .lBracket, .mod, .period, .rArrow, .rBrace, .rBracket, .rParen, .semiColon, .sharp, .tilde, .eof]

/-- An expression ends before these tokens.  (`inner`: the restricted expressions of LIMIT and DEFAULT, which have only
the operators `-`, `NOT` as prefix and `&`.) -/
def Stops (e : Env) (inner : Bool) : List Tk → Prop
  | [] => False
  | (t, _) :: r =>
    match t with
    | .ident _ k => k.exprIdent = false ∧ k ∉ exprWords ∧ (k ∈ opWords → inner = true) ∧ (k = .LEFT → Next (· ≠ .lParen) r)
    | .dollarArg _ => e.opts.arguments ≠ .dollar
    | .questionMark => e.opts.arguments ≠ .questionMark
    | .percentS => e.opts.arguments ≠ .percent
    | t => t ∈ stopSyms ∨ (inner = true ∧ t ∈ opSyms)

/-- The words of IS and IS NOT. -/
def isTable : List (Keyword × Kind) := [(.TRUE, .Is_True), (.FALSE, .Is_False), (.NULL, .Is_Null), (.UNKNOWN, .Is_Unknown)]
def isNotTable : List (Keyword × Kind) :=
  [(.TRUE, .Is_NotTrue), (.FALSE, .Is_NotFalse), (.NULL, .Is_NotNull), (.UNKNOWN, .Is_NotUnknown)]

/-- The time units. -/
inductive TimeUnit : List Tk → OAst × Span → List Tk → Prop where
  | mk {t : Token} {sp : Span} {u : Kind} {r : List Tk} (h : timeUnitWords.lookup t.kw = some u) :
      TimeUnit ((t, sp) :: r) (⟨.node u []⟩, sp) r

/-- A word that can be the name of a function or column in an expression. -/
def nameWord (o : Opts) (v : List Char) (k : Keyword) : Prop :=
  k.exprIdent = true ∧ k ∉ opWords ∧ k ∉ exprWords ∧ marker o (.ident v k) = false

/-- The function a word names: a function with a name of its own, or (for words that are not reserved) any other function. -/
def FunctionName (v : List Char) (k : Keyword) (f : OAst) : Prop :=
  match functionWords.lookup k with
  | some K => f = ⟨.node K []⟩
  | none => k.reserved = false ∧ f = ond% Function_Other [v]

/-- The parts of a dotted name after the first: `. name` or `. *`. -/
inductive Parts (e : Env) : List Tk → List Ast → List Tk → Prop where
  | nil {r : List Tk} (h : Next (· ≠ .period) r) : Parts e r [] r
  | star {d s : Span} {r r' : List Tk} {l : List Ast} (h : Parts e r l r') :
      Parts e ((.period, d) :: (.mul, s) :: r) (nd% IdentifierPart_Star [s] :: l) r'
  | name {d : Span} {v : List Char} {k : Keyword} {s : Span} {r r1 r' : List Tk} {i : Ast} {l : List Ast}
      (hi : Idn e ((.ident v k, s) :: r) i r1) (h : Parts e r1 l r') :
      Parts e ((.period, d) :: (.ident v k, s) :: r) (i :: l) r'

/-- `[AS] alias` -/
inductive Alias (e : Env) : List Tk → Option Span × Option Ast → List Tk → Prop where
  | none {r : List Tk} (h1 : NotKw .AS r) (h2 : Next (fun t => plainWord t = false) r) : Alias e r (none, none) r
  | as {t : Token} {sp : Span} {ts r : List Tk} {i : Ast} (h : t.isKw .AS = true) (hi : Idn e ts i r) :
      Alias e ((t, sp) :: ts) (some sp, some i) r
  | plain {v : List Char} {k : Keyword} {sp : Span} {r r' : List Tk} {i : Ast} (hk : k ≠ .AS)
      (hi : Idn e ((.ident v k, sp) :: r) i r') : Alias e ((.ident v k, sp) :: r) (none, some i) r'

/-- What an index hint is for. -/
inductive HintFor : List Tk → Ast → List Tk → Prop where
  | join {t : Token} {sp : Span} {r : List Tk} (h : t.isKw .JOIN = true) : HintFor ((t, sp) :: r) (nd% IndexHintFor_Join [sp]) r
  | groupBy {ts r : List Tk} {sp : Span} (h : Kws [.GROUP, .BY] ts sp r) : HintFor ts (nd% IndexHintFor_GroupBy [sp]) r
  | orderBy {ts r : List Tk} {sp : Span} (h : Kws [.ORDER, .BY] ts sp r) : HintFor ts (nd% IndexHintFor_OrderBy [sp]) r

/-- The index hints after a table name. -/
inductive Hints (e : Env) : List Tk → List Ast → List Tk → Prop where
  | nil {r : List Tk} (h : NoKw [.USE, .IGNORE, .FORCE] r) : Hints e r [] r
  | cons {t t' : Token} {s s' lp rp : Span} {U T : Kind} {f : Option (Span × Ast)} {r r1 r2 r3 : List Tk} {l hs : List Ast}
      (hd : e.opts.dialect = .mariaDB)
      (hu : hintUseWords.lookup t.kw = some U) (ht : hintTypeWords.lookup t'.kw = some T)
      (hf : OptKw .FOR (fun sp ts a r => ∃ b, a = (sp, b) ∧ HintFor ts b r) r f ((.lParen, lp) :: r1))
      (hl : CommaL (Idn e) r1 l ((.rParen, rp) :: r2)) (hr : Hints e r2 hs r3) :
      Hints e ((t, s) :: (t', s') :: r)
        (nd% IndexHint [Ast.node U [.span s], Ast.node T [.span s'], f, lp, l, rp] :: hs) r3

/-- `LEFT [OUTER] JOIN`, `RIGHT [OUTER] JOIN` -/
inductive SideJoin (k : Keyword) : List Tk → Span → List Tk → Prop where
  | plain {ts r : List Tk} {sp : Span} (h : Kws [k, .JOIN] ts sp r) : SideJoin k ts sp r
  | outer {ts r : List Tk} {sp : Span} (h : Kws [k, .OUTER, .JOIN] ts sp r) : SideJoin k ts sp r

/-- The words of a join. -/
inductive JoinTy : List Tk → Ast → List Tk → Prop where
  | inner {ts r : List Tk} {sp : Span} (h : Kws [.INNER, .JOIN] ts sp r) : JoinTy ts (nd% JoinType_Inner [sp]) r
  | cross {ts r : List Tk} {sp : Span} (h : Kws [.CROSS, .JOIN] ts sp r) : JoinTy ts (nd% JoinType_Cross [sp]) r
  | join {ts r : List Tk} {sp : Span} (h : Kws [.JOIN] ts sp r) : JoinTy ts (nd% JoinType_Normal [sp]) r
  | straight {ts r : List Tk} {sp : Span} (h : Kws [.STRAIGHT_JOIN] ts sp r) : JoinTy ts (nd% JoinType_Straight [sp]) r
  | left {ts r : List Tk} {sp : Span} (h : SideJoin .LEFT ts sp r) : JoinTy ts (nd% JoinType_Left [sp]) r
  | right {ts r : List Tk} {sp : Span} (h : SideJoin .RIGHT ts sp r) : JoinTy ts (nd% JoinType_Right [sp]) r
  | naturalInner {ts r : List Tk} {sp : Span} (h : Kws [.NATURAL, .INNER, .JOIN] ts sp r) :
      JoinTy ts (nd% JoinType_NaturalInner [sp]) r
  /-- (the span leaves out NATURAL) -/
  | naturalLeft {t : Token} {ts r : List Tk} {n sp : Span} (hn : t.isKw .NATURAL = true) (h : SideJoin .LEFT ts sp r) :
      JoinTy ((t, n) :: ts) (nd% JoinType_NaturalLeft [sp]) r
  | naturalRight {t : Token} {ts r : List Tk} {n sp : Span} (hn : t.isKw .NATURAL = true) (h : SideJoin .RIGHT ts sp r) :
      JoinTy ((t, n) :: ts) (nd% JoinType_NaturalRight [sp]) r
  | natural {ts r : List Tk} {sp : Span} (h : Kws [.NATURAL, .JOIN] ts sp r) : JoinTy ts (nd% JoinType_Natural [sp]) r

/-- The words with which a join begins. -/
def joinWords : List Keyword := [.INNER, .CROSS, .JOIN, .STRAIGHT_JOIN, .LEFT, .RIGHT, .NATURAL]

/-- How strongly rows are locked. -/
inductive Strength (e : Env) : List Tk → Ast → List Tk → Prop where
  | update {ts r : List Tk} {sp : Span} (h : Kws [.UPDATE] ts sp r) : Strength e ts (nd% LockStrength_Update [sp]) r
  | share {ts r : List Tk} {sp : Span} (h : Kws [.SHARE] ts sp r) : Strength e ts (nd% LockStrength_Share [sp]) r
  | noKeyUpdate {ts r : List Tk} {sp : Span} (hd : e.opts.dialect = .postgreSQL) (h : Kws [.NO, .KEY, .UPDATE] ts sp r) :
      Strength e ts (nd% LockStrength_NoKeyUpdate [sp]) r
  | keyShare {ts r : List Tk} {sp : Span} (hd : e.opts.dialect = .postgreSQL) (h : Kws [.KEY, .SHARE] ts sp r) :
      Strength e ts (nd% LockStrength_KeyShare [sp]) r

/-- What happens when rows are locked by others. -/
inductive Wait : List Tk → OAst → List Tk → Prop where
  | noWait {ts r : List Tk} {sp : Span} (h : Kws [.NOWAIT] ts sp r) : Wait ts (ond% LockWait_NoWait [sp]) r
  | skip {ts r : List Tk} {sp : Span} (h : Kws [.SKIP, .LOCKED] ts sp r) : Wait ts (ond% LockWait_SkipLocket [sp]) r
  | default {r : List Tk} (h : NoKw [.NOWAIT, .SKIP] r) : Wait r (ond% LockWait_Default []) r

/-- `FOR strength [OF tables] [wait]`, after FOR -/
inductive LockSpec (e : Env) (f : Span) : List Tk → Ast → List Tk → Prop where
  | mk {ts r1 r2 r : List Tk} {s : Ast} {o : Option (Span × List Ast)} {w : OAst} (hs : Strength e ts s r1)
      (ho : OptKw .OF (fun sp ts a r => ∃ l, a = (sp, l) ∧ CommaL (Idn e) ts l r) r1 o r2) (hw : Wait r2 w r) :
      LockSpec e f ts (nd% Locking [f, s, o, w]) r

/-- `( n )` -/
inductive Width : List Tk → Nat × Span → List Tk → Prop where
  | mk {lp rp : Span} {ts r : List Tk} {n : Nat × Span} (h : Num (2 ^ 64 - 1) ts n ((.rParen, rp) :: r)) :
      Width ((.lParen, lp) :: ts) n r

/-- `[( n )]` -/
inductive OptWidth : List Tk → Option (Nat × Span) → List Tk → Prop where
  | none {r : List Tk} (h : Next (· ≠ .lParen) r) : OptWidth r none r
  | some {ts r : List Tk} {n : Nat × Span} (h : Width ts n r) : OptWidth ts (some n) r

/-- Types that are a word only. -/
def plainTypes : List (Keyword × Kind) := [(.BOOLEAN, .Type_Boolean), (.INET4, .Type_Inet4), (.INET6, .Type_Inet6),
  (.FLOAT8, .Type_Float8), (.TIMESTAMPTZ, .Type_Timestamptz), (.DATE, .Type_Date), (.JSON, .Type_Json), (.BYTEA, .Type_Bytea)]

/-- Types with an optional width. -/
def widthTypes : List (Keyword × Kind) := [(.TINYINT, .Type_TinyInt), (.SMALLINT, .Type_SmallInt), (.INTEGER, .Type_Integer),
  (.INT, .Type_Int), (.BIGINT, .Type_BigInt), (.TINYTEXT, .Type_TinyText), (.CHAR, .Type_Char), (.TEXT, .Type_Text),
  (.MEDIUMTEXT, .Type_MediumText), (.LONGTEXT, .Type_LongText), (.VARCHAR, .Type_VarChar), (.TINYBLOB, .Type_TinyBlob),
  (.BLOB, .Type_Blob), (.MEDIUMBLOB, .Type_MediumBlob), (.LONGBLOB, .Type_LongBlob), (.BINARY, .Type_Binary),
  (.DATETIME, .Type_DateTime), (.TIME, .Type_Time)]

/-- The other words that are types. -/
def otherTypes : List Keyword := [.VARBINARY, .BIT, .REAL, .FLOAT, .DOUBLE, .NUMERIC, .TIMESTAMP, .ENUM, .SET]

/-- `( 'a' , 'b' , ... )` -/
inductive StrList : List Tk → List Ast → List Tk → Prop where
  | mk {lp rp : Span} {ts r : List Tk} {l : List Ast} (h : CommaL Str ts l ((.rParen, rp) :: r)) :
      StrList ((.lParen, lp) :: ts) l r

/-- The name of a type, with its parameters. -/
inductive Ty (e : Env) : List Tk → Span × OAst → List Tk → Prop where
  | plain {t : Token} {sp : Span} {K : Kind} {r : List Tk} (h : plainTypes.lookup t.kw = some K) :
      Ty e ((t, sp) :: r) (sp, ⟨.node K []⟩) r
  | width {t : Token} {sp : Span} {K : Kind} {ts r : List Tk} {w : Option (Nat × Span)} (h : widthTypes.lookup t.kw = some K)
      (hw : OptWidth ts w r) : Ty e ((t, sp) :: ts) (sp, ⟨.node K [toF w]⟩) r
  | varbinary {t : Token} {sp : Span} {ts r : List Tk} {w : Nat × Span} (h : t.isKw .VARBINARY = true)
      (hw : Width ts w r) : Ty e ((t, sp) :: ts) (sp, ond% Type_VarBinary [w]) r
  | bit {t : Token} {sp : Span} {ts r : List Tk} {w : Nat × Span} (h : t.isKw .BIT = true)
      (hw : Width ts w r) : Ty e ((t, sp) :: ts) (sp, ond% Type_Bit [w.1, w.2]) r
  | realSqlite {t : Token} {sp : Span} {r : List Tk} (h : t.isKw .REAL = true) (hd : e.opts.dialect = .sqlite) :
      Ty e ((t, sp) :: r) (sp, ond% Type_Double [(none : Option Span)]) r
  | real {t : Token} {sp : Span} {r : List Tk} (h : t.isKw .REAL = true) (hd : e.opts.dialect ≠ .sqlite) :
      Ty e ((t, sp) :: r) (sp, ond% Type_Float [(none : Option Span)]) r
  | float {t : Token} {sp : Span} {r : List Tk} (h : t.isKw .FLOAT = true) :
      Ty e ((t, sp) :: r) (sp, ond% Type_Float [(none : Option Span)]) r
  | doublePg {ts r : List Tk} {sp : Span} (hd : e.opts.dialect = .postgreSQL) (h : Kws [.DOUBLE, .PRECISION] ts sp r) :
      Ty e ts (sp, ond% Type_Double [(none : Option Span)]) r
  | double {ts r : List Tk} {sp : Span} (hd : e.opts.dialect ≠ .postgreSQL) (h : Kws [.DOUBLE] ts sp r) :
      Ty e ts (sp, ond% Type_Double [(none : Option Span)]) r
  | numeric {t : Token} {sp lp s1 cm s2 rp : Span} {v1 v2 : List Char} {r : List Tk} (h : t.isKw .NUMERIC = true)
      (h1 : numberOf v1 ≤ (2 ^ 64 - 1)) (h2 : numberOf v2 ≤ (2 ^ 64 - 1)) :
      Ty e ((t, sp) :: (.lParen, lp) :: (.integer v1, s1) :: (.comma, cm) :: (.integer v2, s2) :: (.rParen, rp) :: r)
        (sp, ond% Type_Numeric [numberOf v1, numberOf v2, joinSpan (joinSpan (joinSpan (joinSpan lp s1) cm) s2) rp]) r
  | timestamp {t : Token} {sp : Span} {ts r1 r : List Tk} {w : Option (Nat × Span)} {z : Option Span}
      (h : t.isKw .TIMESTAMP = true) (hw : OptWidth ts w r1)
      (hz : OptKw .WITH (fun s ts a r => ∃ s', a = joinSpan s s' ∧ Kws [.TIME, .ZONE] ts s' r) r1 z r) :
      Ty e ((t, sp) :: ts) (sp, ond% Type_Timestamp [ond% Timestamp [w, z]]) r
  | enum {t : Token} {sp : Span} {ts r : List Tk} {l : List Ast} (h : t.isKw .ENUM = true) (hl : StrList ts l r) :
      Ty e ((t, sp) :: ts) (sp, ond% Type_Enum [l]) r
  | set {t : Token} {sp : Span} {ts r : List Tk} {l : List Ast} (h : t.isKw .SET = true) (hl : StrList ts l r) :
      Ty e ((t, sp) :: ts) (sp, ond% Type_Set [l]) r
  | named {v : List Char} {k : Keyword} {sp : Span} {r : List Tk} (hd : e.opts.dialect = .postgreSQL)
      (h1 : plainTypes.lookup k = none) (h2 : widthTypes.lookup k = none) (h3 : k ∉ otherTypes)
      (hm : e.noArg (.ident v k, sp)) : Ty e ((.ident v k, sp) :: r) (sp, ond% Type_Named [sp]) r

/-- Properties that are a word only. -/
def plainProps : List (Keyword × Kind) := [(.SIGNED, .DataTypeProperty_Signed), (.AUTO_INCREMENT, .DataTypeProperty_AutoIncrement),
  (.UNSIGNED, .DataTypeProperty_Unsigned), (.ZEROFILL, .DataTypeProperty_Zerofill), (.NULL, .DataTypeProperty_Null),
  (.VIRTUAL, .DataTypeProperty_Virtual), (.PERSISTENT, .DataTypeProperty_Persistent), (.STORED, .DataTypeProperty_Stored)]

/-- The other words with which a property begins. -/
def otherProps : List Keyword := [.NOT, .CHARACTER, .COLLATE, .COMMENT, .DEFAULT, .UNIQUE, .GENERATED, .PRIMARY, .CHECK]

mutual

/-- An expression: a sequence of operands and operators, grouped by precedence. -/
inductive Ex (e : Env) : Bool → List Tk → Ast → List Tk → Prop where
  | mk {inner : Bool} {ts r : List Tk} {T : PTree} (h : Its e inner false ts T.inorder r) (hw : T.WellPrec) :
      Ex e inner ts T.ast r

/-- A sequence of operands and operators; `after`: the previous item was an operand or a postfix operator. -/
inductive Its (e : Env) : (inner after : Bool) → List Tk → List Item → List Tk → Prop where
  | stop {inner : Bool} {r : List Tk} (h : Stops e inner r) : Its e inner true r [] r
  | opd {inner : Bool} {ts r1 r : List Tk} {a : Ast} {l : List Item} (h : Od e ts a r1) (hr : Its e inner true r1 l r) :
      Its e inner false ts (.opd a :: l) r
  | un {inner : Bool} {t : Token} {sp : Span} {op : UnOp} {ts r : List Tk} {l : List Item} (ho : unTok inner t = some op)
      (hr : Its e inner false ts l r) : Its e inner false ((t, sp) :: ts) (.un op sp :: l) r
  | bin {inner : Bool} {t : Token} {sp : Span} {op : BinOp} {ts r : List Tk} {l : List Item} (ho : binTok inner t = some op)
      (hr : Its e inner false ts l r) : Its e inner true ((t, sp) :: ts) (.bin op sp :: l) r
  | notLike {t t' : Token} {sp sp' : Span} {ts r : List Tk} {l : List Item} (h1 : t.isKw .NOT = true) (h2 : t'.isKw .LIKE = true)
      (hr : Its e false false ts l r) :
      Its e false true ((t, sp) :: (t', sp') :: ts) (.bin .notLike (joinSpan sp' sp) :: l) r
  | isIn {t : Token} {sp lp rp : Span} {ts r1 r : List Tk} {as : List Ast} {l : List Item} (h : t.isKw .IN = true)
      (ha : CommaL (Pa e) ts as ((.rParen, rp) :: r1)) (hr : Its e false true r1 l r) :
      Its e false true ((t, sp) :: (.lParen, lp) :: ts) (.post (.isIn as sp false) :: l) r
  | notIn {t t' : Token} {sp sp' lp rp : Span} {ts r1 r : List Tk} {as : List Ast} {l : List Item} (h1 : t.isKw .NOT = true)
      (h2 : t'.isKw .IN = true) (ha : CommaL (Pa e) ts as ((.rParen, rp) :: r1)) (hr : Its e false true r1 l r) :
      Its e false true ((t, sp) :: (t', sp') :: (.lParen, lp) :: ts) (.post (.isIn as (joinSpan sp' sp) true) :: l) r
  | is {t t' : Token} {sp sp' : Span} {K : Kind} {ts r : List Tk} {l : List Item} (h1 : t.isKw .IS = true)
      (h2 : isTable.lookup t'.kw = some K) (hr : Its e false true ts l r) :
      Its e false true ((t, sp) :: (t', sp') :: ts) (.post (.is ⟨.node K []⟩ (joinSpan sp' sp)) :: l) r
  | isNot {t n t' : Token} {sp np sp' : Span} {K : Kind} {ts r : List Tk} {l : List Item} (h1 : t.isKw .IS = true)
      (hn : n.isKw .NOT = true) (h2 : isNotTable.lookup t'.kw = some K) (hr : Its e false true ts l r) :
      Its e false true ((t, sp) :: (n, np) :: (t', sp') :: ts) (.post (.is ⟨.node K []⟩ (joinSpan sp' sp)) :: l) r

/-- An operand. -/
inductive Od (e : Env) : List Tk → Ast → List Tk → Prop where
  | true {t : Token} {sp : Span} {r : List Tk} (h : t.isKw .TRUE = true) : Od e ((t, sp) :: r) (nd% Bool [true, sp]) r
  | false {t : Token} {sp : Span} {r : List Tk} (h : t.isKw .FALSE = true) : Od e ((t, sp) :: r) (nd% Bool [false, sp]) r
  | null {t : Token} {sp : Span} {r : List Tk} (h : t.isKw .NULL = true) : Od e ((t, sp) :: r) (nd% Null [sp]) r
  | star {sp : Span} {r : List Tk} : Od e ((.mul, sp) :: r) (nd% Identifier [[nd% IdentifierPart_Star [sp]]]) r
  | integer {ts r : List Tk} {n : Nat × Span} (h : Num (2 ^ 64 - 1) ts n r) : Od e ts (nd% Integer [n]) r
  | float {v : List Char} {sp : Span} {r : List Tk} : Od e ((.float v, sp) :: r) (nd% Float [(v, sp)]) r
  | str {ts r : List Tk} {a : Ast} (h : Str ts a r) : Od e ts a r
  /-- `?` or `%s` -/
  | arg {t : Token} {sp : Span} {r : List Tk} (hm : argTk e.opts e.args (t, sp) = true) (hl : t.isKw .«_LIST_» = false) :
      Od e ((t, sp) :: r) (nd% Arg [e.num sp, sp]) r
  | list {t : Token} {sp : Span} {r : List Tk} (hm : argTk e.opts e.args (t, sp) = true) (hl : t.isKw .«_LIST_» = true) :
      Od e ((t, sp) :: r) (nd% ListHack [e.num sp, sp]) r
  /-- `$n`; the number of the token is 0 when `n` is a multiple of the number of values of usize -/
  | dollar {n : Nat} {sp : Span} {r : List Tk} (h : e.opts.arguments = .dollar) :
      Od e ((.dollarArg n, sp) :: r) (nd% Arg [if n = 0 then usizeMod - 1 else n - 1, sp]) r
  | paren {lp rp : Span} {ts r : List Tk} {a : Ast} (h : Pa e ts a ((.rParen, rp) :: r)) : Od e ((.lParen, lp) :: ts) a r
  /-- `@@GLOBAL.name`, `@@SESSION.name` -/
  | globalVar {g d s : Span} {v : List Char} {k : Keyword} {r : List Tk} (hm : e.noArg (.ident v k, s)) :
      Od e ((.atAtGlobal, g) :: (.period, d) :: (.ident v k, s) :: r)
        (nd% Variable [some g, (none : Option Span), some d,
          (if k = .TIME_ZONE then ond% Variable_TimeZone [] else ond% Variable_Other [v] : OAst), s]) r
  | sessionVar {g d s : Span} {v : List Char} {k : Keyword} {r : List Tk} (hm : e.noArg (.ident v k, s)) :
      Od e ((.atAtSession, g) :: (.period, d) :: (.ident v k, s) :: r)
        (nd% Variable [(none : Option Span), some g, some d,
          (if k = .TIME_ZONE then ond% Variable_TimeZone [] else ond% Variable_Other [v] : OAst), s]) r
  /-- `INTERVAL 'n' unit`, `INTERVAL n unit` -/
  | intervalStr {t : Token} {sp sp' : Span} {ts r1 r : List Tk} {v : List Char} {l : List Nat} {u : OAst × Span}
      (h : t.isKw .INTERVAL = true) (hs : Strs ts (v, sp') r1) (hv : IntervalText v l) (hu : TimeUnit r1 u r) :
      Od e ((t, sp) :: ts) (nd% Interval [sp, (l, sp'), u]) r
  | intervalInt {t : Token} {sp sp' : Span} {ts r1 r : List Tk} {n : Nat} {u : OAst × Span} (h : t.isKw .INTERVAL = true)
      (hn : Num (2 ^ 63 - 1) ts (n, sp') r1) (hu : TimeUnit r1 u r) : Od e ((t, sp) :: ts) (nd% Interval [sp, ([n], sp'), u]) r
  | timestampAdd {t : Token} {sp lp c1 c2 rp : Span} {ts r1 r2 r : List Tk} {u : OAst × Span} {a b : Ast}
      (h : t.isKw .TIMESTAMPADD = true) (hu : TimeUnit ts u ((.comma, c1) :: r1)) (ha : Ou e r1 a ((.comma, c2) :: r2))
      (hb : Ou e r2 b ((.rParen, rp) :: r)) : Od e ((t, sp) :: (.lParen, lp) :: ts) (nd% TimestampAdd [sp, u, a, b]) r
  | timestampDiff {t : Token} {sp lp c1 c2 rp : Span} {ts r1 r2 r : List Tk} {u : OAst × Span} {a b : Ast}
      (h : t.isKw .TIMESTAMPDIFF = true) (hu : TimeUnit ts u ((.comma, c1) :: r1)) (ha : Ou e r1 a ((.comma, c2) :: r2))
      (hb : Ou e r2 b ((.rParen, rp) :: r)) : Od e ((t, sp) :: (.lParen, lp) :: ts) (nd% TimestampDiff [sp, u, a, b]) r
  | cast {t t' : Token} {sp lp as rp : Span} {ts r1 r : List Tk} {a d : Ast} (h : t.isKw .CAST = true)
      (ha : Ou e ts a ((t', as) :: r1)) (h' : t'.isKw .AS = true) (hd : DT e false r1 d ((.rParen, rp) :: r)) :
      Od e ((t, sp) :: (.lParen, lp) :: ts) (nd% Cast [sp, a, as, d]) r
  | count {t : Token} {sp lp rp : Span} {ts r1 r : List Tk} {d : Option Span} {a : Ast} (h : t.isKw .COUNT = true)
      (hd : OptK .DISTINCT ts d r1) (ha : Ou e r1 a ((.rParen, rp) :: r)) :
      Od e ((t, sp) :: (.lParen, lp) :: ts) (nd% Count [sp, d, a]) r
  | groupConcat {t : Token} {sp lp rp : Span} {ts r1 r : List Tk} {d : Option Span} {a : Ast} (h : t.isKw .GROUP_CONCAT = true)
      (hd : OptK .DISTINCT ts d r1) (ha : Ou e r1 a ((.rParen, rp) :: r)) :
      Od e ((t, sp) :: (.lParen, lp) :: ts) (nd% GroupConcat [sp, d, a]) r
  | extract {t t' : Token} {sp lp f rp : Span} {ts r1 r : List Tk} {u : OAst × Span} {a : Ast} (h : t.isKw .EXTRACT = true)
      (hu : TimeUnit ts u ((t', f) :: r1)) (h' : t'.isKw .FROM = true) (ha : Ou e r1 a ((.rParen, rp) :: r)) :
      Od e ((t, sp) :: (.lParen, lp) :: ts) (nd% Extract [sp, u, f, a]) r
  /-- a function call; LEFT is a function when `(` follows -/
  | func {v : List Char} {k : Keyword} {sp lp : Span} {f : OAst} {ts r1 r : List Tk} {as : List Ast}
      (hn : nameWord e.opts v k ∨ k = .LEFT) (hf : FunctionName v k f) (ha : Args e ts as r1) (ho : NotKw .OVER r1) (hr : r1 = r) :
      Od e ((.ident v k, sp) :: (.lParen, lp) :: ts) (nd% Function [f, as, sp]) r
  /-- a window function -/
  | window {v : List Char} {k : Keyword} {sp lp os lp' o rp : Span} {t : Token} {f : OAst} {ts r1 r2 r : List Tk} {as : List Ast}
      {l : List (Ast × OAst)} (hn : nameWord e.opts v k ∨ k = .LEFT) (hf : FunctionName v k f)
      (ha : Args e ts as ((t, os) :: (.lParen, lp') :: r1)) (ht : t.isKw .OVER = true)
      (ho : Kws [.ORDER, .BY] r1 o r2) (hl : CommaL (Ord e) r2 l ((.rParen, rp) :: r)) :
      Od e ((.ident v k, sp) :: (.lParen, lp) :: ts) (nd% WindowFunction [f, as, sp, os, nd% WindowSpec [(o, l)]]) r
  /-- a function without parentheses -/
  | nullary {t : Token} {sp : Span} {K : Kind} {r : List Tk} (h : nullaryWords.lookup t.kw = some K) (hr : Next (· ≠ .lParen) r) :
      Od e ((t, sp) :: r) (nd% Function [OAst.mk (.node K []), ([] : List Ast), sp]) r
  /-- a column: `a`, `a.b`, `a.*` -/
  | name {v : List Char} {k : Keyword} {sp : Span} {ts r : List Tk} {l : List Ast} (hn : nameWord e.opts v k)
      (hk : k.reserved = false) (hr : Next (· ≠ .lParen) ts) (hp : Parts e ts l r) :
      Od e ((.ident v k, sp) :: ts) (nd% Identifier [Ast.ident v sp :: l]) r
  | exist {t : Token} {sp lp rp : Span} {ts r : List Tk} {q : Ast} (h : t.isKw .EXISTS = true)
      (hq : Comp e ts q ((.rParen, rp) :: r)) : Od e ((t, sp) :: (.lParen, lp) :: ts) (nd% Exists [q]) r
  /-- `CASE [value] WHEN .. THEN .. [ELSE ..] END` -/
  | caseWhen {t t' : Token} {sp ep : Span} {ts r1 r : List Tk} {ws : List Ast} {el : Option (Span × Ast)}
      (h : t.isKw .CASE = true) (hn : Next (fun t => t.isKw .WHEN = true) ts) (hw : Whens e ts ws r1)
      (hl : OptKw .ELSE (Els e) r1 el ((t', ep) :: r)) (he : t'.isKw .END = true) :
      Od e ((t, sp) :: ts) (nd% Case [sp, (none : Option Ast), ws, el, ep]) r
  | caseOf {t t' : Token} {sp ep : Span} {ts r0 r1 r : List Tk} {v : Ast} {ws : List Ast} {el : Option (Span × Ast)}
      (h : t.isKw .CASE = true) (hn : NotKw .WHEN ts) (hv : Ex e false ts v r0) (hw : Whens e r0 ws r1)
      (hl : OptKw .ELSE (Els e) r1 el ((t', ep) :: r)) (he : t'.isKw .END = true) :
      Od e ((t, sp) :: ts) (nd% Case [sp, some v, ws, el, ep]) r

/-- The arguments of a function, and `)`. -/
inductive Args (e : Env) : List Tk → List Ast → List Tk → Prop where
  | nil {rp : Span} {r : List Tk} : Args e ((.rParen, rp) :: r) [] r
  | some {ts r : List Tk} {rp : Span} {l : List Ast} (hn : Next (· ≠ .rParen) ts) (h : CommaL (Ou e) ts l ((.rParen, rp) :: r)) :
      Args e ts l r

/-- `WHEN a THEN b` -/
inductive Whens (e : Env) : List Tk → List Ast → List Tk → Prop where
  | one {t t' : Token} {w th : Span} {ts r1 r : List Tk} {a b : Ast} (h : t.isKw .WHEN = true)
      (ha : Ex e false ts a ((t', th) :: r1)) (h' : t'.isKw .THEN = true) (hb : Ex e false r1 b r) (hn : NotKw .WHEN r) :
      Whens e ((t, w) :: ts) [nd% When [w, a, th, b]] r
  | cons {t t' : Token} {w th : Span} {ts r1 r2 r : List Tk} {a b : Ast} {l : List Ast} (h : t.isKw .WHEN = true)
      (ha : Ex e false ts a ((t', th) :: r1)) (h' : t'.isKw .THEN = true) (hb : Ex e false r1 b r2) (hl : Whens e r2 l r) :
      Whens e ((t, w) :: ts) (nd% When [w, a, th, b] :: l) r

/-- After ELSE. -/
inductive Els (e : Env) : Span → List Tk → Span × Ast → List Tk → Prop where
  | mk {sp : Span} {ts r : List Tk} {a : Ast} (h : Ex e false ts a r) : Els e sp ts (sp, a) r

/-- An expression or SELECT: arguments of functions. -/
inductive Ou (e : Env) : List Tk → Ast → List Tk → Prop where
  | expr {ts r : List Tk} {a : Ast} (hn : NotKw .SELECT ts) (h : Ex e false ts a r) : Ou e ts a r
  | select {ts r : List Tk} {a : Ast} (h : Sel e ts a r) : Ou e ts (nd% Subquery [a]) r

/-- An expression or query, in parentheses. -/
inductive Pa (e : Env) : List Tk → Ast → List Tk → Prop where
  | expr {ts r : List Tk} {a : Ast} (hn : NotKw .SELECT ts) (h : Ex e false ts a r) : Pa e ts a r
  | query {ts r : List Tk} {a : Ast} (hn : Next (fun t => t.isKw .SELECT = true) ts) (h : Comp e ts a r) :
      Pa e ts (nd% Subquery [a]) r

/-- `expr [ASC | DESC]` -/
inductive Ord (e : Env) : List Tk → Ast × OAst → List Tk → Prop where
  | asc {ts r : List Tk} {a : Ast} {t : Token} {sp : Span} (h : Ex e false ts a ((t, sp) :: r)) (ht : t.isKw .ASC = true) :
      Ord e ts (a, ond% OrderFlag_Asc [sp]) r
  | desc {ts r : List Tk} {a : Ast} {t : Token} {sp : Span} (h : Ex e false ts a ((t, sp) :: r)) (ht : t.isKw .DESC = true) :
      Ord e ts (a, ond% OrderFlag_Desc [sp]) r
  | none {ts r : List Tk} {a : Ast} (h : Ex e false ts a r) (hr : NoKw [.ASC, .DESC] r) : Ord e ts (a, ond% OrderFlag_None []) r

/-- A data type: a type and its properties; `noAs`: AS does not begin a property. -/
inductive DT (e : Env) : Bool → List Tk → Ast → List Tk → Prop where
  | mk {noAs : Bool} {ts r1 r : List Tk} {ty : Span × OAst} {l : List Ast} (ht : Ty e ts ty r1) (hp : Props e noAs r1 l r) :
      DT e noAs ts (nd% DataType [ty.1, ty.2, l]) r

/-- The properties of a data type. -/
inductive Props (e : Env) : Bool → List Tk → List Ast → List Tk → Prop where
  | nil {noAs : Bool} {r : List Tk} (h1 : Next (fun t => plainProps.lookup t.kw = none) r) (h2 : NoKw otherProps r)
      (h3 : noAs = true ∨ NotKw .AS r) : Props e noAs r [] r
  | plain {noAs : Bool} {t : Token} {sp : Span} {K : Kind} {ts r : List Tk} {l : List Ast} (h : plainProps.lookup t.kw = some K)
      (hr : Props e noAs ts l r) : Props e noAs ((t, sp) :: ts) (.node K [.span sp] :: l) r
  | notNull {noAs : Bool} {t t' : Token} {s s' : Span} {ts r : List Tk} {l : List Ast} (h : t.isKw .NOT = true)
      (h' : t'.isKw .NULL = true) (hr : Props e noAs ts l r) :
      Props e noAs ((t, s) :: (t', s') :: ts) (nd% DataTypeProperty_NotNull [(⟨s.start, s'.stop⟩ : Span)] :: l) r
  | charset {noAs : Bool} {ts r1 r2 r : List Tk} {s : Span} {i : Ast} {l : List Ast} (h : Kws [.CHARACTER, .SET] ts s r1)
      (hi : Idn e r1 i r2) (hr : Props e noAs r2 l r) : Props e noAs ts (nd% DataTypeProperty_Charset [i] :: l) r
  /-- (COLLATE gives a Charset property) -/
  | collate {noAs : Bool} {t : Token} {ts r1 r : List Tk} {s : Span} {i : Ast} {l : List Ast} (h : t.isKw .COLLATE = true)
      (hi : Idn e ts i r1) (hr : Props e noAs r1 l r) : Props e noAs ((t, s) :: ts) (nd% DataTypeProperty_Charset [i] :: l) r
  | comment {noAs : Bool} {t : Token} {ts r1 r : List Tk} {s : Span} {i : Ast} {l : List Ast} (h : t.isKw .COMMENT = true)
      (hi : Str ts i r1) (hr : Props e noAs r1 l r) : Props e noAs ((t, s) :: ts) (nd% DataTypeProperty_Comment [i] :: l) r
  | default {noAs : Bool} {t : Token} {ts r1 r : List Tk} {s : Span} {a : Ast} {l : List Ast} (h : t.isKw .DEFAULT = true)
      (ha : Ex e true ts a r1) (hr : Props e noAs r1 l r) : Props e noAs ((t, s) :: ts) (nd% DataTypeProperty_Default [a] :: l) r
  | uniqueKey {noAs : Bool} {t t' : Token} {s s' : Span} {ts r : List Tk} {l : List Ast} (h : t.isKw .UNIQUE = true)
      (h' : t'.isKw .KEY = true) (hr : Props e noAs ts l r) :
      Props e noAs ((t, s) :: (t', s') :: ts) (nd% DataTypeProperty_UniqueKey [joinSpan s' s] :: l) r
  | unique {noAs : Bool} {t : Token} {s : Span} {ts r : List Tk} {l : List Ast} (h : t.isKw .UNIQUE = true)
      (hn : NotKw .KEY ts) (hr : Props e noAs ts l r) : Props e noAs ((t, s) :: ts) (nd% DataTypeProperty_Unique [s] :: l) r
  | generatedPg {noAs : Bool} {ts r1 r : List Tk} {s : Span} {l : List Ast} (hd : e.opts.dialect = .postgreSQL)
      (h : Kws [.GENERATED, .ALWAYS, .AS, .IDENTITY] ts s r1) (hr : Props e noAs r1 l r) :
      Props e noAs ts (nd% DataTypeProperty_GeneratedAlways [s] :: l) r
  | generated {noAs : Bool} {ts r1 r : List Tk} {s : Span} {l : List Ast} (hd : e.opts.dialect ≠ .postgreSQL)
      (h : Kws [.GENERATED, .ALWAYS] ts s r1) (hr : Props e noAs r1 l r) :
      Props e noAs ts (nd% DataTypeProperty_GeneratedAlways [s] :: l) r
  | as {t : Token} {s lp rp : Span} {ts r1 r : List Tk} {a : Ast} {l : List Ast} (h : t.isKw .AS = true)
      (ha : Ex e false ts a ((.rParen, rp) :: r1)) (hr : Props e false r1 l r) :
      Props e false ((t, s) :: (.lParen, lp) :: ts) (nd% DataTypeProperty_As [s, a] :: l) r
  | primaryKey {noAs : Bool} {ts r1 r : List Tk} {s : Span} {l : List Ast} (h : Kws [.PRIMARY, .KEY] ts s r1)
      (hr : Props e noAs r1 l r) : Props e noAs ts (nd% DataTypeProperty_PrimaryKey [s] :: l) r
  | check {noAs : Bool} {t : Token} {s lp rp : Span} {ts r1 r : List Tk} {a : Ast} {l : List Ast} (h : t.isKw .CHECK = true)
      (ha : Ex e false ts a ((.rParen, rp) :: r1)) (hr : Props e noAs r1 l r) :
      Props e noAs ((t, s) :: (.lParen, lp) :: ts) (nd% DataTypeProperty_Check [s, a] :: l) r

/-- `expr [AS name]` -/
inductive SelE (e : Env) : List Tk → Ast → List Tk → Prop where
  | plain {ts r : List Tk} {a : Ast} (h : Ex e false ts a r) (hr : NotKw .AS r) : SelE e ts (nd% SelectExpr [a, (none : Option Ast)]) r
  | as {ts r1 r : List Tk} {a i : Ast} {t : Token} {sp : Span} (h : Ex e false ts a ((t, sp) :: r1)) (ht : t.isKw .AS = true)
      (hi : Idn e r1 i r) : SelE e ts (nd% SelectExpr [a, some i]) r

/-- A table or subquery with its alias. -/
inductive TRi (e : Env) : List Tk → Ast → List Tk → Prop where
  | query {ts r1 r : List Tk} {q : Ast} {al : Option Span × Option Ast}
      (hn : Next (fun t => t.isKw .SELECT = true ∨ t = .lParen) ts) (h : Comp e ts q r1) (ha : Alias e r1 al r) :
      TRi e ts (nd% TableReference_Query [q, al.1, al.2]) r
  | table {ts r1 r2 r : List Tk} {v : List Char} {k : Keyword} {sp : Span} {q : Ast} {al : Option Span × Option Ast} {hs : List Ast}
      (h : QName e ((.ident v k, sp) :: ts) q r1) (ha : Alias e r1 al r2) (hh : Hints e r2 hs r) :
      TRi e ((.ident v k, sp) :: ts) (nd% TableReference_Table [q, al.1, al.2, hs]) r

/-- The condition of a join. -/
inductive JSpec (e : Env) : List Tk → Option Ast → List Tk → Prop where
  | none {r : List Tk} (h : NoKw [.ON, .USING] r) : JSpec e r none r
  | on {t : Token} {sp : Span} {ts r : List Tk} {a : Ast} (h : t.isKw .ON = true) (ha : Ex e false ts a r) :
      JSpec e ((t, sp) :: ts) (some (nd% JoinSpecification_On [a, sp])) r
  | using {t : Token} {sp : Span} {ts r : List Tk} {l : List Ast} (h : t.isKw .USING = true) (hl : CommaL (Idn e) ts l r) :
      JSpec e ((t, sp) :: ts) (some (nd% JoinSpecification_Using [l, sp])) r

/-- The joins after a first table `a`. -/
inductive Joins (e : Env) : Ast → List Tk → Ast → List Tk → Prop where
  | nil {a : Ast} {r : List Tk} (h : NoKw joinWords r) : Joins e a r a r
  | cons {a j x b : Ast} {s : Option Ast} {ts r1 r2 r3 r : List Tk} (hj : JoinTy ts j r1) (hx : TRi e r1 x r2) (hs : JSpec e r2 s r3)
      (hr : Joins e (nd% TableReference_Join [j, a, x, s]) r3 b r) : Joins e a ts b r

/-- A table reference. -/
inductive TR (e : Env) : List Tk → Ast → List Tk → Prop where
  | mk {ts r1 r : List Tk} {a b : Ast} (h : TRi e ts a r1) (hj : Joins e a r1 b r) : TR e ts b r

/-- An expression after a keyword. -/
inductive ExK (e : Env) : Span → List Tk → Ast × Span → List Tk → Prop where
  | mk {sp : Span} {ts r : List Tk} {a : Ast} (h : Ex e false ts a r) : ExK e sp ts (a, sp) r

/-- After GROUP. -/
inductive GroupBy (e : Env) : Span → List Tk → Span × List Ast → List Tk → Prop where
  | mk {g b : Span} {t : Token} {ts r : List Tk} {l : List Ast} (h : t.isKw .BY = true) (hl : CommaL (Ex e false) ts l r) :
      GroupBy e g ((t, b) :: ts) (joinSpan b g, l) r

/-- After ORDER. -/
inductive OrderBy (e : Env) : Span → List Tk → Span × List (Ast × OAst) → List Tk → Prop where
  | mk {g b : Span} {t : Token} {ts r : List Tk} {l : List (Ast × OAst)} (h : t.isKw .BY = true) (hl : CommaL (Ord e) ts l r) :
      OrderBy e g ((t, b) :: ts) (joinSpan b g, l) r

/-- After LIMIT: the offset and the number of rows. -/
inductive Lim (e : Env) : Span → List Tk → Span × Option Ast × Ast → List Tk → Prop where
  | plain {s : Span} {ts r : List Tk} {n : Ast} (h : Ex e true ts n r) (hr : Next (fun t => t ≠ .comma ∧ t.isKw .OFFSET = false) r) :
      Lim e s ts (s, none, n) r
  | comma {s c : Span} {ts r1 r : List Tk} {o n : Ast} (ho : Ex e true ts o ((.comma, c) :: r1)) (hn : Ex e true r1 n r) :
      Lim e s ts (s, some o, n) r
  | offset {s c : Span} {t : Token} {ts r1 r : List Tk} {o n : Ast} (hn : Ex e true ts n ((t, c) :: r1)) (ht : t.isKw .OFFSET = true)
      (ho : Ex e true r1 o r) : Lim e s ts (s, some o, n) r

/-- SELECT -/
inductive Sel (e : Env) : List Tk → Ast → List Tk → Prop where
  | noFrom {t : Token} {s : Span} {ts r1 r : List Tk} {fl xs : List Ast} (h : t.isKw .SELECT = true) (hf : Flags selectFlagWords ts fl r1)
      (hx : CommaL (SelE e) r1 xs r) (hn : NotKw .FROM r) :
      Sel e ((t, s) :: ts) (nd% Select [s, fl, xs, (none : Option Span), (none : Option Ast), (none : Option Ast),
        (none : Option Ast), (none : Option Ast), (none : Option Ast), (none : Option Ast), (none : Option Ast), (none : Option Ast)]) r
  | «from» {t t' : Token} {s f : Span} {ts r1 r2 r3 r4 r5 r6 r7 r8 r9 r : List Tk} {fl xs tr : List Ast} {w hv : Option (Ast × Span)}
      {g : Option (Span × List Ast)} {wi : Option Span} {o : Option (Span × List (Ast × OAst))} {li : Option (Span × Option Ast × Ast)}
      {lo : Option Ast} (h : t.isKw .SELECT = true) (hf : Flags selectFlagWords ts fl r1) (hx : CommaL (SelE e) r1 xs ((t', f) :: r2))
      (h' : t'.isKw .FROM = true) (ht : CommaL (TR e) r2 tr r3) (hw : OptKw .WHERE (ExK e) r3 w r4)
      (hg : OptKw .GROUP (GroupBy e) r4 g r5) (hh : OptKw .HAVING (ExK e) r5 hv r6) (hwi : OptK .WINDOW r6 wi r7)
      (ho : OptKw .ORDER (OrderBy e) r7 o r8) (hl : OptKw .LIMIT (Lim e) r8 li r9) (hlo : OptKw .FOR (LockSpec e) r9 lo r) :
      Sel e ((t, s) :: ts) (nd% Select [s, fl, xs, some f, some tr, w, g, hv, wi, o, li, lo]) r

/-- SELECT, or a query in parentheses. -/
inductive QPart (e : Env) : List Tk → Ast → List Tk → Prop where
  | select {ts r : List Tk} {a : Ast} (h : Sel e ts a r) : QPart e ts a r
  | paren {lp rp : Span} {ts r : List Tk} {a : Ast} (h : Comp e ts a ((.rParen, rp) :: r)) : QPart e ((.lParen, lp) :: ts) a r

/-- ALL, DISTINCT or nothing, after UNION. -/
inductive UnionPart (e : Env) : List Tk → Ast → List Tk → Prop where
  | all {t t' : Token} {u s : Span} {ts r : List Tk} {q : Ast} (h : t.isKw .UNION = true) (h' : t'.isKw .ALL = true) (hq : QPart e ts q r) :
      UnionPart e ((t, u) :: (t', s) :: ts) (nd% UnionWith [u, ond% UnionType_All [s], q]) r
  | distinct {t t' : Token} {u s : Span} {ts r : List Tk} {q : Ast} (h : t.isKw .UNION = true) (h' : t'.isKw .DISTINCT = true)
      (hq : QPart e ts q r) : UnionPart e ((t, u) :: (t', s) :: ts) (nd% UnionWith [u, ond% UnionType_Distinct [s], q]) r
  | default {t : Token} {u : Span} {ts r : List Tk} {q : Ast} (h : t.isKw .UNION = true) (hn : NoKw [.ALL, .DISTINCT] ts)
      (hq : QPart e ts q r) : UnionPart e ((t, u) :: ts) (nd% UnionWith [u, ond% UnionType_Default [], q]) r

/-- `UNION .. UNION .. ` -/
inductive Unions (e : Env) : List Tk → List Ast → List Tk → Prop where
  | one {ts r : List Tk} {a : Ast} (h : UnionPart e ts a r) (hr : NotKw .UNION r) : Unions e ts [a] r
  | cons {ts r1 r : List Tk} {a : Ast} {l : List Ast} (h : UnionPart e ts a r1) (hl : Unions e r1 l r) : Unions e ts (a :: l) r

/-- A query: one SELECT, or a UNION. -/
inductive Comp (e : Env) : List Tk → Ast → List Tk → Prop where
  | one {ts r : List Tk} {a : Ast} (h : QPart e ts a r) (hr : NotKw .UNION r) : Comp e ts a r
  | union {ts r1 r2 r3 r : List Tk} {a : Ast} {l : List Ast} {o : Option (Span × List (Ast × OAst))} {li : Option (Span × Option Ast × Ast)}
      (h : QPart e ts a r1) (hu : Unions e r1 l r2) (ho : OptKw .ORDER (OrderBy e) r2 o r3) (hl : OptKw .LIMIT (Lim e) r3 li r) :
      Comp e ts (nd% Union [a, l, o, li]) r
end

end SqlParse
