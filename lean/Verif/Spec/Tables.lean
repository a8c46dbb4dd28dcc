import Verif.Spec.Queries
/-!
Vocabulary for the property that CREATE TABLE statements are read back as they were written: tables without positions (`TableDef`), the
tokens a table can be declared with (`SpellsTableDef`), and which ASTs stand for a declaration (`MeansTableDef`).
-/
namespace SqlParse

/-! ### Tables -/

/-- The type of a column. -/
inductive ColType where
  /-- a type that is a word only -/
  | plain (K : Kind)
  /-- a type with an optional width -/
  | width (K : Kind) (w : Option Nat)
  | varbinary (n : Nat)
  | bit (n : Nat)
  | float
  | double
  | numeric (n m : Nat)
  | timestamp (w : Option Nat) (zone : Bool)
  | enum (l : List (List Char))
  | set (l : List (List Char))

/-- A property of a column. -/
inductive ColProp where
  /-- a word only -/
  | plain (K : Kind)
  | notNull
  /-- a character set (the AST does not tell it from a collation) -/
  | charset (v : List Char)
  | comment (v : List Char)
  | default (x : Expr)
  | uniqueKey
  | unique
  | generated
  /-- computed from other columns -/
  | as (x : Expr)
  | primaryKey
  | check (x : Expr)

/-- A column. -/
structure ColDef where
  name : List Char
  type : ColType
  props : List ColProp

/-- An option of a table. -/
inductive TblOption where
  | engine (v : List Char)
  | charset (v : List Char)
  | collate (v : List Char)
  | rowFormat (v : List Char)
  | comment (v : List Char)
  | strict
  | defaultCharset (v : List Char)
  | defaultCollate (v : List Char)

/-- A table that is created. -/
structure TableDef where
  /-- OR REPLACE, TEMPORARY -/
  create : List Kind
  ifNotExists : Bool
  /-- the names before the last one -/
  path : List (List Char)
  name : List Char
  cols : List ColDef
  opts : List TblOption

/-! ### Tokens -/

/-- `[( n )]` -/
inductive SpellsWidth : Option Nat → List Token → Prop where
  | none : SpellsWidth none []
  | some {w : List Char} (h : numberOf w < 2 ^ 64) : SpellsWidth (some (numberOf w)) [.lParen, .integer w, .rParen]

/-- A type. -/
inductive SpellsType (o : Opts) : ColType → List Token → Prop where
  | plain {t : Token} {K : Kind} (h : plainTypes.lookup t.kw = some K) : SpellsType o (.plain K) [t]
  | width {t : Token} {K : Kind} {w : Option Nat} {ts : List Token} (h : widthTypes.lookup t.kw = some K) (hw : SpellsWidth w ts) :
      SpellsType o (.width K w) (t :: ts)
  | varbinary {t : Token} {n : Nat} {ts : List Token} (h : t.isKw .VARBINARY = true) (hw : SpellsWidth (some n) ts) :
      SpellsType o (.varbinary n) (t :: ts)
  | bit {t : Token} {n : Nat} {ts : List Token} (h : t.isKw .BIT = true) (hw : SpellsWidth (some n) ts) : SpellsType o (.bit n) (t :: ts)
  | float {t : Token} (h : t.isKw .FLOAT = true) : SpellsType o .float [t]
  | realFloat {t : Token} (h : t.isKw .REAL = true) (hd : o.dialect ≠ .sqlite) : SpellsType o .float [t]
  | real {t : Token} (h : t.isKw .REAL = true) (hd : o.dialect = .sqlite) : SpellsType o .double [t]
  | double {t : Token} (h : t.isKw .DOUBLE = true) (hd : o.dialect ≠ .postgreSQL) : SpellsType o .double [t]
  | doublePrecision {t t' : Token} (h : t.isKw .DOUBLE = true) (h' : t'.isKw .PRECISION = true) (hd : o.dialect = .postgreSQL) :
      SpellsType o .double [t, t']
  | numeric {t : Token} {v w : List Char} (h : t.isKw .NUMERIC = true) (hv : numberOf v < 2 ^ 64) (hw : numberOf w < 2 ^ 64) :
      SpellsType o (.numeric (numberOf v) (numberOf w)) [t, .lParen, .integer v, .comma, .integer w, .rParen]
  | timestamp {t : Token} {w : Option Nat} {ts : List Token} (h : t.isKw .TIMESTAMP = true) (hw : SpellsWidth w ts) :
      SpellsType o (.timestamp w false) (t :: ts)
  | timestampZone {t t1 t2 t3 : Token} {w : Option Nat} {ts : List Token} (h : t.isKw .TIMESTAMP = true) (hw : SpellsWidth w ts)
      (h1 : t1.isKw .WITH = true) (h2 : t2.isKw .TIME = true) (h3 : t3.isKw .ZONE = true) :
      SpellsType o (.timestamp w true) (t :: (ts ++ [t1, t2, t3]))
  | enum {t : Token} {l : List (List Char)} {ts : List Token} (h : t.isKw .ENUM = true) (hl : Commas (fun v => Spells o (.str v)) l ts) :
      SpellsType o (.enum l) (t :: .lParen :: (ts ++ [.rParen]))
  | set {t : Token} {l : List (List Char)} {ts : List Token} (h : t.isKw .SET = true) (hl : Commas (fun v => Spells o (.str v)) l ts) :
      SpellsType o (.set l) (t :: .lParen :: (ts ++ [.rParen]))

/-- The value of DEFAULT: a literal, a function without arguments, or an expression in parentheses. -/
inductive SpellsDefault (o : Opts) : Expr → List Token → Prop where
  | int {n : Nat} {ts : List Token} (h : Spells o (.int n) ts) : SpellsDefault o (.int n) ts
  | dec {w : List Char} {ts : List Token} (h : Spells o (.dec w) ts) : SpellsDefault o (.dec w) ts
  | str {v : List Char} {ts : List Token} (h : Spells o (.str v) ts) : SpellsDefault o (.str v) ts
  | bool {b : Bool} {ts : List Token} (h : Spells o (.bool b) ts) : SpellsDefault o (.bool b) ts
  | null {ts : List Token} (h : Spells o .null ts) : SpellsDefault o .null ts
  | call0 {f : Ast} {ts : List Token} (h : Spells o (.call0 f) ts) : SpellsDefault o (.call0 f) ts
  | paren {x : Expr} {ts : List Token} (h : Spells o (.paren x) ts) : SpellsDefault o (.paren x) ts

/-- A property. -/
inductive SpellsProp (o : Opts) : ColProp → List Token → Prop where
  | plain {t : Token} {K : Kind} (h : plainProps.lookup t.kw = some K) : SpellsProp o (.plain K) [t]
  | notNull {t t' : Token} (h : t.isKw .NOT = true) (h' : t'.isKw .NULL = true) : SpellsProp o .notNull [t, t']
  | charset {t t' n : Token} {v : List Char} (h : t.isKw .CHARACTER = true) (h' : t'.isKw .SET = true) (hn : SpellsName o v n) :
      SpellsProp o (.charset v) [t, t', n]
  | collate {t n : Token} {v : List Char} (h : t.isKw .COLLATE = true) (hn : SpellsName o v n) : SpellsProp o (.charset v) [t, n]
  | comment {t : Token} {v : List Char} {ts : List Token} (h : t.isKw .COMMENT = true) (hs : Spells o (.str v) ts) :
      SpellsProp o (.comment v) (t :: ts)
  | default {t : Token} {x : Expr} {ts : List Token} (h : t.isKw .DEFAULT = true) (hx : SpellsDefault o x ts) :
      SpellsProp o (.default x) (t :: ts)
  | uniqueKey {t t' : Token} (h : t.isKw .UNIQUE = true) (h' : t'.isKw .KEY = true) : SpellsProp o .uniqueKey [t, t']
  | unique {t : Token} (h : t.isKw .UNIQUE = true) : SpellsProp o .unique [t]
  | generated {t t' : Token} (h : t.isKw .GENERATED = true) (h' : t'.isKw .ALWAYS = true) (hd : o.dialect ≠ .postgreSQL) :
      SpellsProp o .generated [t, t']
  | identity {t t' a i : Token} (h : t.isKw .GENERATED = true) (h' : t'.isKw .ALWAYS = true) (ha : a.isKw .AS = true) (hi : i.isKw .IDENTITY = true)
      (hd : o.dialect = .postgreSQL) : SpellsProp o .generated [t, t', a, i]
  | as {t : Token} {x : Expr} {ts : List Token} (h : t.isKw .AS = true) (hx : Spells o x ts) :
      SpellsProp o (.as x) (t :: .lParen :: (ts ++ [.rParen]))
  | primaryKey {t t' : Token} (h : t.isKw .PRIMARY = true) (h' : t'.isKw .KEY = true) : SpellsProp o .primaryKey [t, t']
  | check {t : Token} {x : Expr} {ts : List Token} (h : t.isKw .CHECK = true) (hx : Spells o x ts) :
      SpellsProp o (.check x) (t :: .lParen :: (ts ++ [.rParen]))

/-- The properties that can come after DEFAULT: the words of the others would be taken for a part of the value. -/
def ColProp.afterDefault : ColProp → Prop
  | .plain K => K = .DataTypeProperty_Unsigned ∨ K = .DataTypeProperty_Zerofill
  | .generated => False
  | _ => True

/-- The property is DEFAULT. -/
def ColProp.isDefault : ColProp → Bool
  | .default _ => true
  | _ => false

/-- Properties.  (`d`: they come after DEFAULT.) -/
inductive SpellsProps (o : Opts) : (d : Bool) → List ColProp → List Token → Prop where
  | nil {d : Bool} : SpellsProps o d [] []
  | cons {d : Bool} {p : ColProp} {ps : List ColProp} {ts us : List Token} (h : SpellsProp o p ts) (hd : d = true → p.afterDefault)
      (hs : SpellsProps o p.isDefault ps us) : SpellsProps o d (p :: ps) (ts ++ us)

/-- A column.  (Its name must be a word, or in back quotes.) -/
inductive SpellsCol (o : Opts) : ColDef → List Token → Prop where
  | mk {v w : List Char} {k : Keyword} {ty : ColType} {ps : List ColProp} {ts us : List Token} (hn : SpellsName o v (.ident w k))
      (ht : SpellsType o ty ts) (hp : SpellsProps o false ps us) : SpellsCol o ⟨v, ty, ps⟩ (.ident w k :: (ts ++ us))

/-- `( columns )` -/
inductive SpellsCols (o : Opts) : List ColDef → List Token → Prop where
  | none : SpellsCols o [] [.lParen, .rParen]
  | some {l : List ColDef} {ts : List Token} (h : Commas (SpellsCol o) l ts) : SpellsCols o l (.lParen :: (ts ++ [.rParen]))

/-- A keyword, `=` if one likes, and a value. -/
inductive SpellsValue (k : Keyword) (R : List Token → Prop) : List Token → Prop where
  | eq {t : Token} {ts : List Token} (h : t.isKw k = true) (hR : R ts) : SpellsValue k R (t :: .eq :: ts)
  | plain {t : Token} {ts : List Token} (h : t.isKw k = true) (hR : R ts) : SpellsValue k R (t :: ts)

/-- A name. -/
inductive SpellsOne (o : Opts) (v : List Char) : List Token → Prop where
  | mk {t : Token} (h : SpellsName o v t) : SpellsOne o v [t]

/-- An option of a table. -/
inductive SpellsOption (o : Opts) : TblOption → List Token → Prop where
  | engine {v : List Char} {ts : List Token} (h : SpellsValue .ENGINE (SpellsOne o v) ts) : SpellsOption o (.engine v) ts
  | charset {v : List Char} {ts : List Token} (h : SpellsValue .CHARSET (SpellsOne o v) ts) : SpellsOption o (.charset v) ts
  | collate {v : List Char} {ts : List Token} (h : SpellsValue .COLLATE (SpellsOne o v) ts) : SpellsOption o (.collate v) ts
  | rowFormat {v : List Char} {ts : List Token} (h : SpellsValue .ROW_FORMAT (SpellsOne o v) ts) : SpellsOption o (.rowFormat v) ts
  | comment {v : List Char} {ts : List Token} (h : SpellsValue .COMMENT (Spells o (.str v)) ts) : SpellsOption o (.comment v) ts
  | strict {t : Token} (h : t.isKw .STRICT = true) : SpellsOption o .strict [t]
  | defaultCharset {t : Token} {v : List Char} {ts : List Token} (ht : t.isKw .DEFAULT = true) (h : SpellsValue .CHARSET (SpellsOne o v) ts) :
      SpellsOption o (.defaultCharset v) (t :: ts)
  | defaultCollate {t : Token} {v : List Char} {ts : List Token} (ht : t.isKw .DEFAULT = true) (h : SpellsValue .COLLATE (SpellsOne o v) ts) :
      SpellsOption o (.defaultCollate v) (t :: ts)

/-- Things one after the other. -/
inductive Row {α : Type} (R : α → List Token → Prop) : List α → List Token → Prop where
  | nil : Row R [] []
  | cons {x : α} {l : List α} {ts us : List Token} (h : R x ts) (hl : Row R l us) : Row R (x :: l) (ts ++ us)

/-- The words between CREATE and TABLE. -/
def createPhrases : List (List Keyword × Kind) := [([.OR, .REPLACE], .CreateOption_OrReplace), ([.TEMPORARY], .CreateOption_Temporary)]

/-- OR REPLACE, TEMPORARY -/
inductive SpellsCreate : Kind → List Token → Prop where
  | mk {ks : List Keyword} {K : Kind} {ts : List Token} (h : (ks, K) ∈ createPhrases) (hw : IsKws ks ts) : SpellsCreate K ts

/-- `[IF NOT EXISTS]` -/
inductive SpellsIfNot : Bool → List Token → Prop where
  | no : SpellsIfNot false []
  | yes {ts : List Token} (h : IsKws [.IF, .NOT, .EXISTS] ts) : SpellsIfNot true ts

/-- The tokens declare the table. -/
inductive SpellsTableDef (o : Opts) : TableDef → List Token → Prop where
  | mk {cr : List Kind} {i : Bool} {p : List (List Char)} {n : List Char} {cols : List ColDef} {l : List TblOption} {c t : Token}
      {xs is ns cs os : List Token} (hc : c.isKw .CREATE = true) (hx : Row SpellsCreate cr xs) (ht : t.isKw .TABLE = true)
      (hi : SpellsIfNot i is) (hn : SpellsDotted o p n ns) (hcs : SpellsCols o cols cs) (ho : Row (SpellsOption o) l os) :
      SpellsTableDef o ⟨cr, i, p, n, cols, l⟩ (c :: (xs ++ t :: (is ++ (ns ++ (cs ++ os)))))

/-! ### Expressions of a table -/

/-- The property with `f` of its expression. -/
def ColProp.mapE (f : Expr → Expr) : ColProp → ColProp
  | .default x => .default (f x)
  | .as x => .as (f x)
  | .check x => .check (f x)
  | p => p

/-- The expression of the property. -/
def ColProp.expr : ColProp → Option Expr
  | .default x | .as x | .check x => some x
  | _ => none

/-- The table with `f` of its expressions. -/
def TableDef.mapE (f : Expr → Expr) (d : TableDef) : TableDef :=
  { d with cols := d.cols.map fun c => { c with props := c.props.map (·.mapE f) } }

/-! ### ASTs -/

/-- A number and its span. -/
inductive MeansNat : Nat → Ast → Prop where
  | mk {n : Nat} {sp : Span} : MeansNat n (.node .Tuple [.nat n, .span sp])

/-- A string. -/
inductive MeansStr : List Char → Ast → Prop where
  | mk {v : List Char} {sp : Span} : MeansStr v (.sstring v sp)

/-- An optional span. -/
inductive MeansFlag : Bool → Ast → Prop where
  | no : MeansFlag false .none
  | yes {sp : Span} : MeansFlag true (.some (.span sp))

/-- A type. -/
inductive MeansType : ColType → Ast → Prop where
  | plain {K : Kind} (h : K ∈ plainTypes.map (·.2)) : MeansType (.plain K) (.node K [])
  | width {K : Kind} {w : Option Nat} {a : Ast} (hK : K ∈ widthTypes.map (·.2)) (h : Maybe MeansNat w a) : MeansType (.width K w) (.node K [a])
  | varbinary {n : Nat} {a : Ast} (h : MeansNat n a) : MeansType (.varbinary n) (.node .Type_VarBinary [a])
  | bit {n : Nat} {sp : Span} : MeansType (.bit n) (.node .Type_Bit [.nat n, .span sp])
  | float : MeansType .float (.node .Type_Float [.none])
  | double : MeansType .double (.node .Type_Double [.none])
  | numeric {n m : Nat} {sp : Span} : MeansType (.numeric n m) (.node .Type_Numeric [.nat n, .nat m, .span sp])
  | timestamp {w : Option Nat} {z : Bool} {a b : Ast} (h : Maybe MeansNat w a) (hz : MeansFlag z b) :
      MeansType (.timestamp w z) (.node .Type_Timestamp [.node .Timestamp [a, b]])
  | enum {l : List (List Char)} {a : Ast} (h : ListOf MeansStr l a) : MeansType (.enum l) (.node .Type_Enum [a])
  | set {l : List (List Char)} {a : Ast} (h : ListOf MeansStr l a) : MeansType (.set l) (.node .Type_Set [a])

/-- A property. -/
inductive MeansProp : ColProp → Ast → Prop where
  | plain {K : Kind} {sp : Span} (h : K ∈ plainProps.map (·.2)) : MeansProp (.plain K) (.node K [.span sp])
  | notNull {sp : Span} : MeansProp .notNull (.node .DataTypeProperty_NotNull [.span sp])
  | charset {v : List Char} {a : Ast} (h : MeansName v a) : MeansProp (.charset v) (.node .DataTypeProperty_Charset [a])
  | comment {v : List Char} {a : Ast} (h : MeansStr v a) : MeansProp (.comment v) (.node .DataTypeProperty_Comment [a])
  | default {x : Expr} {a : Ast} (h : Means x a) : MeansProp (.default x) (.node .DataTypeProperty_Default [a])
  | uniqueKey {sp : Span} : MeansProp .uniqueKey (.node .DataTypeProperty_UniqueKey [.span sp])
  | unique {sp : Span} : MeansProp .unique (.node .DataTypeProperty_Unique [.span sp])
  | generated {sp : Span} : MeansProp .generated (.node .DataTypeProperty_GeneratedAlways [.span sp])
  | as {x : Expr} {sp : Span} {a : Ast} (h : Means x a) : MeansProp (.as x) (.node .DataTypeProperty_As [.span sp, a])
  | primaryKey {sp : Span} : MeansProp .primaryKey (.node .DataTypeProperty_PrimaryKey [.span sp])
  | check {x : Expr} {sp : Span} {a : Ast} (h : Means x a) : MeansProp (.check x) (.node .DataTypeProperty_Check [.span sp, a])

/-- A column. -/
inductive MeansCol : ColDef → Ast → Prop where
  | mk {v : List Char} {ty : ColType} {ps : List ColProp} {sp : Span} {n a l : Ast} (hn : MeansName v n) (ht : MeansType ty a)
      (hp : ListOf MeansProp ps l) :
      MeansCol ⟨v, ty, ps⟩ (.node .CreateDefinition_ColumnDefinition [n, .node .DataType [.span sp, a, l]])

/-- An option of a table. -/
inductive MeansOption : TblOption → Ast → Prop where
  | engine {v : List Char} {sp : Span} {a : Ast} (h : MeansName v a) : MeansOption (.engine v) (.node .TableOption_Engine [.span sp, a])
  | charset {v : List Char} {sp : Span} {a : Ast} (h : MeansName v a) : MeansOption (.charset v) (.node .TableOption_CharSet [.span sp, a])
  | collate {v : List Char} {sp : Span} {a : Ast} (h : MeansName v a) : MeansOption (.collate v) (.node .TableOption_Collate [.span sp, a])
  | rowFormat {v : List Char} {sp : Span} {a : Ast} (h : MeansName v a) : MeansOption (.rowFormat v) (.node .TableOption_RowFormat [.span sp, a])
  | comment {v : List Char} {sp : Span} {a : Ast} (h : MeansStr v a) : MeansOption (.comment v) (.node .TableOption_Comment [.span sp, a])
  | strict {sp : Span} : MeansOption .strict (.node .TableOption_Strict [.span sp])
  | defaultCharset {v : List Char} {sp : Span} {a : Ast} (h : MeansName v a) :
      MeansOption (.defaultCharset v) (.node .TableOption_DefaultCharSet [.span sp, a])
  | defaultCollate {v : List Char} {sp : Span} {a : Ast} (h : MeansName v a) :
      MeansOption (.defaultCollate v) (.node .TableOption_DefaultCollate [.span sp, a])

/-- The AST is the declaration of the table, whatever the spans in it are. -/
inductive MeansTableDef : TableDef → Ast → Prop where
  | mk {cr : List Kind} {i : Bool} {p : List (List Char)} {n : List Char} {cols : List ColDef} {l : List TblOption} {c t : Span}
      {cr' p' n' i' cols' l' : Ast} (hc : ListOf MeansWord cr cr') (hp : ListOf (WithSpan MeansName) p p') (hn : MeansName n n')
      (hi : MeansFlag i i') (hcs : ListOf MeansCol cols cols') (hl : ListOf MeansOption l l') :
      MeansTableDef ⟨cr, i, p, n, cols, l⟩ (.node .CreateTable [.span c, cr', .span t, .node .QualifiedName [p', n'], i', cols', l'])

/-! ### Which tables can be declared -/

/-- The type can be written: numbers are less than 2^64, there is no backslash in strings, and ENUM and SET have a value. -/
def ColType.Sayable : ColType → Prop
  | .plain K => K ∈ plainTypes.map (·.2)
  | .width K w => K ∈ widthTypes.map (·.2) ∧ ∀ n ∈ w, n < 2 ^ 64
  | .varbinary n | .bit n => n < 2 ^ 64
  | .float | .double => True
  | .numeric n m => n < 2 ^ 64 ∧ m < 2 ^ 64
  | .timestamp w _ => ∀ n ∈ w, n < 2 ^ 64
  | .enum l | .set l => l ≠ [] ∧ ∀ v ∈ l, '\\' ∉ v

/-- The property can be written. -/
def ColProp.Sayable (o : Opts) : ColProp → Prop
  | .plain K => K ∈ plainProps.map (·.2)
  | .charset v => SayablePart o v
  | .comment v => '\\' ∉ v
  | .default x | .as x | .check x => x.Sayable o
  | _ => True

/-- The option can be written. -/
def TblOption.Sayable (o : Opts) : TblOption → Prop
  | .engine v | .charset v | .collate v | .rowFormat v | .defaultCharset v | .defaultCollate v => SayablePart o v
  | .comment v => '\\' ∉ v
  | .strict => True

/-- The table can be declared: its names, types, expressions and options can be written, and no property that can not stand there comes
after a DEFAULT. -/
structure TableDef.Sayable (o : Opts) (d : TableDef) : Prop where
  create : ∀ k ∈ d.create, k ∈ createPhrases.map (·.2)
  names : (∀ v ∈ d.path, SayablePart o v) ∧ SayablePart o d.name
  cols : ∀ c ∈ d.cols, SayablePart o c.name ∧ c.type.Sayable ∧ (∀ p ∈ c.props, p.Sayable o) ∧
    ∀ a p q b, c.props = a ++ p :: q :: b → p.isDefault = true → q.afterDefault
  opts : ∀ x ∈ d.opts, x.Sayable o

end SqlParse
