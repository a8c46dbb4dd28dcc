import Verif.Spec.Grammar
import Verif.Spec.Written
/-!
Vocabulary for the property that expressions are read back as they were written: expression trees (`Expr`), the tokens a tree can be
spelled with (`Spells`), when these tokens group as the tree does (`Expr.Grouped`), and which ASTs stand for a tree (`Means`).
-/
namespace SqlParse

mutual

/-- An expression, without positions. -/
inductive Expr where
  | int (n : Nat)
  /-- a decimal number: its text -/
  | dec (w : List Char)
  | str (v : List Char)
  | bool (b : Bool)
  | null
  /-- a column: its first name, and the names after it; `none` is `*` -/
  | column (v : List Char) (parts : List (Option (List Char)))
  | un (op : UnOp) (x : Expr)
  | bin (op : BinOp) (x y : Expr)
  /-- `x IS [NOT] NULL` and the like: the kind of the test -/
  | is (k : Kind) (x : Expr)
  /-- `x [NOT] IN (l)` -/
  | isIn (neg : Bool) (x : Expr) (l : Exprs)
  /-- a function without arguments -/
  | call0 (f : Ast)
  /-- a function with arguments -/
  | call (f : Ast) (l : Exprs)
  | count (distinct : Bool) (x : Expr)
  /-- `CASE WHEN a THEN b .. END` -/
  | caseWhen (a b : Expr) (cs : Cases)
  /-- `CASE v WHEN a THEN b .. END` -/
  | caseOf (v a b : Expr) (cs : Cases)
  /-- `(x)` -/
  | paren (x : Expr)

/-- One or more expressions. -/
inductive Exprs where
  | one (x : Expr)
  | cons (x : Expr) (l : Exprs)

/-- The rest of a CASE. -/
inductive Cases where
  | done
  | els (x : Expr)
  | when (a b : Expr) (cs : Cases)

end

/-! ### Tokens -/

/-- The names after the first one of a column. -/
inductive SpellsParts (o : Opts) : List (Option (List Char)) → List Token → Prop where
  | nil : SpellsParts o [] []
  | star {ps : List (Option (List Char))} {ts : List Token} (h : SpellsParts o ps ts) : SpellsParts o (none :: ps) (.period :: .mul :: ts)
  | name {v : List Char} {k : Keyword} {ps : List (Option (List Char))} {ts : List Token} (hk : k.reserved = false)
      (hq : k = .QUOTED_IDENTIFIER → o.dialect ≠ .postgreSQL) (hm : marker o (.ident v k) = false) (h : SpellsParts o ps ts) :
      SpellsParts o (some v :: ps) (.period :: .ident v k :: ts)

mutual

/-- The tokens `ts` spell the expression. -/
inductive Spells (o : Opts) : Expr → List Token → Prop where
  | int {w : List Char} (h : numberOf w < 2 ^ 64) : Spells o (.int (numberOf w)) [.integer w]
  | dec {w : List Char} : Spells o (.dec w) [.float w]
  | str {t : Token} {v : List Char} (h : stringText t = some v) : Spells o (.str v) [t]
  /-- adjacent strings are one string -/
  | strs {t : Token} {v v' : List Char} {ts : List Token} (h : stringText t = some v) (hs : Spells o (.str v') ts) :
      Spells o (.str (v ++ v')) (t :: ts)
  | true {t : Token} (h : t.isKw .TRUE = true) : Spells o (.bool true) [t]
  | false {t : Token} (h : t.isKw .FALSE = true) : Spells o (.bool false) [t]
  | null {t : Token} (h : t.isKw .NULL = true) : Spells o .null [t]
  | column {v : List Char} {k : Keyword} {ps : List (Option (List Char))} {ts : List Token} (hn : nameWord o v k)
      (hk : k.reserved = false) (hp : SpellsParts o ps ts) : Spells o (.column v ps) (.ident v k :: ts)
  | un {t : Token} {op : UnOp} {x : Expr} {ts : List Token} (ho : unTok false t = some op) (h : Spells o x ts) :
      Spells o (.un op x) (t :: ts)
  | bin {t : Token} {op : BinOp} {x y : Expr} {ts us : List Token} (ho : binTok false t = some op) (h1 : Spells o x ts)
      (h2 : Spells o y us) : Spells o (.bin op x y) (ts ++ t :: us)
  | notLike {t t' : Token} {x y : Expr} {ts us : List Token} (h : t.isKw .NOT = true) (h' : t'.isKw .LIKE = true)
      (h1 : Spells o x ts) (h2 : Spells o y us) : Spells o (.bin .notLike x y) (ts ++ t :: t' :: us)
  | is {t t' : Token} {K : Kind} {x : Expr} {ts : List Token} (h : t.isKw .IS = true) (hK : isTable.lookup t'.kw = some K)
      (h1 : Spells o x ts) : Spells o (.is K x) (ts ++ [t, t'])
  | isNot {t n t' : Token} {K : Kind} {x : Expr} {ts : List Token} (h : t.isKw .IS = true) (hn : n.isKw .NOT = true)
      (hK : isNotTable.lookup t'.kw = some K) (h1 : Spells o x ts) : Spells o (.is K x) (ts ++ [t, n, t'])
  | isIn {t : Token} {x : Expr} {l : Exprs} {ts us : List Token} (h : t.isKw .IN = true) (h1 : Spells o x ts)
      (h2 : SpellsL o l us) : Spells o (.isIn false x l) (ts ++ t :: .lParen :: (us ++ [.rParen]))
  | notIn {t t' : Token} {x : Expr} {l : Exprs} {ts us : List Token} (h : t.isKw .NOT = true) (h' : t'.isKw .IN = true)
      (h1 : Spells o x ts) (h2 : SpellsL o l us) : Spells o (.isIn true x l) (ts ++ t :: t' :: .lParen :: (us ++ [.rParen]))
  | call0 {v : List Char} {k : Keyword} {f : Ast} (hn : nameWord o v k ∨ k = .LEFT) (hf : FunctionName v k ⟨f⟩) :
      Spells o (.call0 f) [.ident v k, .lParen, .rParen]
  /-- a function without parentheses -/
  | nullary {t : Token} {K : Kind} (h : nullaryWords.lookup t.kw = some K) : Spells o (.call0 (.node K [])) [t]
  | call {v : List Char} {k : Keyword} {f : Ast} {l : Exprs} {us : List Token} (hn : nameWord o v k ∨ k = .LEFT)
      (hf : FunctionName v k ⟨f⟩) (h : SpellsL o l us) : Spells o (.call f l) (.ident v k :: .lParen :: (us ++ [.rParen]))
  | count {t : Token} {x : Expr} {us : List Token} (h : t.isKw .COUNT = true) (h1 : Spells o x us) :
      Spells o (.count false x) (t :: .lParen :: (us ++ [.rParen]))
  | countDistinct {t d : Token} {x : Expr} {us : List Token} (h : t.isKw .COUNT = true) (hd : d.isKw .DISTINCT = true)
      (h1 : Spells o x us) : Spells o (.count true x) (t :: .lParen :: d :: (us ++ [.rParen]))
  | caseWhen {c w th en : Token} {a b : Expr} {cs : Cases} {ts us vs : List Token} (hc : c.isKw .CASE = true) (hw : w.isKw .WHEN = true)
      (ht : th.isKw .THEN = true) (he : en.isKw .END = true) (h1 : Spells o a ts) (h2 : Spells o b us) (h3 : SpellsC o cs vs) :
      Spells o (.caseWhen a b cs) (c :: w :: (ts ++ th :: (us ++ (vs ++ [en]))))
  | caseOf {c w th en : Token} {v a b : Expr} {cs : Cases} {xs ts us vs : List Token} (hc : c.isKw .CASE = true) (hw : w.isKw .WHEN = true)
      (ht : th.isKw .THEN = true) (he : en.isKw .END = true) (h0 : Spells o v xs) (h1 : Spells o a ts) (h2 : Spells o b us)
      (h3 : SpellsC o cs vs) : Spells o (.caseOf v a b cs) (c :: (xs ++ w :: (ts ++ th :: (us ++ (vs ++ [en])))))
  | paren {x : Expr} {ts : List Token} (h : Spells o x ts) : Spells o (.paren x) (.lParen :: (ts ++ [.rParen]))

/-- Expressions with commas between them. -/
inductive SpellsL (o : Opts) : Exprs → List Token → Prop where
  | one {x : Expr} {ts : List Token} (h : Spells o x ts) : SpellsL o (.one x) ts
  | cons {x : Expr} {l : Exprs} {ts us : List Token} (h : Spells o x ts) (hl : SpellsL o l us) :
      SpellsL o (.cons x l) (ts ++ .comma :: us)

/-- The rest of a CASE, without END. -/
inductive SpellsC (o : Opts) : Cases → List Token → Prop where
  | done : SpellsC o .done []
  | els {t : Token} {x : Expr} {ts : List Token} (ht : t.isKw .ELSE = true) (h : Spells o x ts) : SpellsC o (.els x) (t :: ts)
  | when {w th : Token} {a b : Expr} {cs : Cases} {ts us vs : List Token} (hw : w.isKw .WHEN = true) (ht : th.isKw .THEN = true)
      (h1 : Spells o a ts) (h2 : Spells o b us) (h3 : SpellsC o cs vs) : SpellsC o (.when a b cs) (w :: (ts ++ th :: (us ++ vs)))

end

/-! ### Grouping -/

/-- Operators exposed on the left edge: they could take what comes before the expression as (part of) their left operand. -/
def Expr.leftEdge : Expr → List Opr
  | .bin op x _ => .bin op :: x.leftEdge
  | .is _ x => .post :: x.leftEdge
  | .isIn _ x _ => .post :: x.leftEdge
  | _ => []

/-- Operators exposed on the right edge: they could take what comes after the expression as (part of) their right operand. -/
def Expr.rightEdge : Expr → List Opr
  | .bin op _ y => .bin op :: y.rightEdge
  | .un op x => .un op :: x.rightEdge
  | _ => []

mutual

/-- Parentheses are not missing anywhere: an operator's right operand exposes, on its left edge, only operators that bind tighter; its
left operand exposes, on its right edge, only operators that bind tighter or equally tight (`levels` in Spec/PrecTree). -/
def Expr.Grouped : Expr → Prop
  | .int _ | .dec _ | .str _ | .bool _ | .null | .column _ _ | .call0 _ => True
  | .un op x => x.Grouped ∧ ∀ o ∈ x.leftEdge, o.level < (Opr.un op).level
  | .bin op x y => x.Grouped ∧ y.Grouped ∧ (∀ o ∈ x.rightEdge, o.level ≤ (Opr.bin op).level) ∧
      ∀ o ∈ y.leftEdge, o.level < (Opr.bin op).level
  | .is _ x => x.Grouped ∧ ∀ o ∈ x.rightEdge, o.level ≤ Opr.post.level
  | .isIn _ x l => x.Grouped ∧ (∀ o ∈ x.rightEdge, o.level ≤ Opr.post.level) ∧ l.Grouped
  | .call _ l => l.Grouped
  | .count _ x => x.Grouped
  | .caseWhen a b cs => a.Grouped ∧ b.Grouped ∧ cs.Grouped
  | .caseOf v a b cs => v.Grouped ∧ a.Grouped ∧ b.Grouped ∧ cs.Grouped
  | .paren x => x.Grouped

def Exprs.Grouped : Exprs → Prop
  | .one x => x.Grouped
  | .cons x l => x.Grouped ∧ l.Grouped

def Cases.Grouped : Cases → Prop
  | .done => True
  | .els x => x.Grouped
  | .when a b cs => a.Grouped ∧ b.Grouped ∧ cs.Grouped

end

/-! ### ASTs -/

/-- The parts of a column after the first one. -/
inductive MeansParts : List (Option (List Char)) → List Ast → Prop where
  | nil : MeansParts [] []
  | star {sp : Span} {ps : List (Option (List Char))} {l : List Ast} (h : MeansParts ps l) :
      MeansParts (none :: ps) (.node .IdentifierPart_Star [.span sp] :: l)
  | name {v : List Char} {sp : Span} {ps : List (Option (List Char))} {l : List Ast} (h : MeansParts ps l) :
      MeansParts (some v :: ps) (.ident v sp :: l)

mutual

/-- The AST is the expression, whatever the spans in it are.  (Parentheses leave no trace.) -/
inductive Means : Expr → Ast → Prop where
  | int {n : Nat} {sp : Span} : Means (.int n) (.node .Integer [.node .Tuple [.nat n, .span sp]])
  | dec {w : List Char} {sp : Span} : Means (.dec w) (.node .Float [.node .Tuple [.str w, .span sp]])
  | str {v : List Char} {sp : Span} : Means (.str v) (.sstring v sp)
  | bool {b : Bool} {sp : Span} : Means (.bool b) (.node .Bool [.bool b, .span sp])
  | null {sp : Span} : Means .null (.node .Null [.span sp])
  | column {v : List Char} {sp : Span} {ps : List (Option (List Char))} {l : List Ast} (h : MeansParts ps l) :
      Means (.column v ps) (.node .Identifier [.list (.ident v sp :: l)])
  | un {op : UnOp} {sp : Span} {x : Expr} {a : Ast} (h : Means x a) : Means (.un op x) (.node .Unary [.unop op, .span sp, a])
  | bin {op : BinOp} {sp : Span} {x y : Expr} {a b : Ast} (h1 : Means x a) (h2 : Means y b) :
      Means (.bin op x y) (.node .Binary [.binop op, .span sp, a, b])
  | is {k : Kind} {sp : Span} {x : Expr} {a : Ast} (h : Means x a) : Means (.is k x) (.node .Is [a, .node k [], .span sp])
  | isIn {neg : Bool} {sp : Span} {x : Expr} {a : Ast} {l : Exprs} {as : List Ast} (h : Means x a) (hl : MeansL l as) :
      Means (.isIn neg x l) (.node .In [a, .list as, .span sp, .bool neg])
  | call0 {f : Ast} {sp : Span} : Means (.call0 f) (.node .Function [f, .list [], .span sp])
  | call {f : Ast} {sp : Span} {l : Exprs} {as : List Ast} (h : MeansL l as) : Means (.call f l) (.node .Function [f, .list as, .span sp])
  | count {sp : Span} {x : Expr} {a : Ast} (h : Means x a) : Means (.count false x) (.node .Count [.span sp, .none, a])
  | countDistinct {sp d : Span} {x : Expr} {a : Ast} (h : Means x a) : Means (.count true x) (.node .Count [.span sp, .some (.span d), a])
  | caseWhen {c w th en : Span} {a b : Expr} {a' b' el : Ast} {cs : Cases} {ws : List Ast} (h1 : Means a a')
      (h2 : Means b b') (h3 : MeansC cs ws el) :
      Means (.caseWhen a b cs) (.node .Case [.span c, .none, .list (.node .When [.span w, a', .span th, b'] :: ws), el, .span en])
  | caseOf {c w th en : Span} {v a b : Expr} {v' a' b' el : Ast} {cs : Cases} {ws : List Ast} (h0 : Means v v')
      (h1 : Means a a') (h2 : Means b b') (h3 : MeansC cs ws el) :
      Means (.caseOf v a b cs) (.node .Case [.span c, .some v', .list (.node .When [.span w, a', .span th, b'] :: ws), el, .span en])
  | paren {x : Expr} {a : Ast} (h : Means x a) : Means (.paren x) a

inductive MeansL : Exprs → List Ast → Prop where
  | one {x : Expr} {a : Ast} (h : Means x a) : MeansL (.one x) [a]
  | cons {x : Expr} {a : Ast} {l : Exprs} {as : List Ast} (h : Means x a) (hl : MeansL l as) : MeansL (.cons x l) (a :: as)

/-- The rest of a CASE: the further WHENs, and ELSE. -/
inductive MeansC : Cases → List Ast → Ast → Prop where
  | done : MeansC .done [] .none
  | els {sp : Span} {x : Expr} {a : Ast} (h : Means x a) : MeansC (.els x) [] (.some (.node .Tuple [.span sp, a]))
  | when {w th : Span} {a b : Expr} {a' b' el : Ast} {cs : Cases} {ws : List Ast} (h1 : Means a a')
      (h2 : Means b b') (h3 : MeansC cs ws el) : MeansC (.when a b cs) (.node .When [.span w, a', .span th, b'] :: ws) el

end

/-- The only expression of `SELECT expression`. -/
def selectedExpr : SAst → Option Ast
  | ⟨.node .Select (.span _ :: .list [] :: .list [.node .SelectExpr [a, .none]] :: _)⟩ => some a
  | _ => none

/-! ### Parentheses -/

mutual

/-- Without the parentheses. -/
def Expr.bare : Expr → Expr
  | .un op x => .un op x.bare
  | .bin op x y => .bin op x.bare y.bare
  | .is k x => .is k x.bare
  | .isIn n x l => .isIn n x.bare l.bare
  | .call f l => .call f l.bare
  | .count d x => .count d x.bare
  | .caseWhen a b cs => .caseWhen a.bare b.bare cs.bare
  | .caseOf v a b cs => .caseOf v.bare a.bare b.bare cs.bare
  | .paren x => x.bare
  | x => x

def Exprs.bare : Exprs → Exprs
  | .one x => .one x.bare
  | .cons x l => .cons x.bare l.bare

def Cases.bare : Cases → Cases
  | .done => .done
  | .els x => .els x.bare
  | .when a b cs => .when a.bare b.bare cs.bare

end

mutual

/-- With parentheses around all operands. -/
def Expr.full : Expr → Expr
  | .un op x => .un op (.paren x.full)
  | .bin op x y => .bin op (.paren x.full) (.paren y.full)
  | .is k x => .is k (.paren x.full)
  | .isIn n x l => .isIn n (.paren x.full) l.full
  | .call f l => .call f l.full
  | .count d x => .count d x.full
  | .caseWhen a b cs => .caseWhen a.full b.full cs.full
  | .caseOf v a b cs => .caseOf v.full a.full b.full cs.full
  | .paren x => .paren x.full
  | x => x

def Exprs.full : Exprs → Exprs
  | .one x => .one x.full
  | .cons x l => .cons x.full l.full

def Cases.full : Cases → Cases
  | .done => .done
  | .els x => .els x.full
  | .when a b cs => .when a.full b.full cs.full

end

/-! ### Which expressions can be written -/

/-- A word: letters, digits and `_`, not beginning with a digit. -/
def IsAWord (v : List Char) : Prop := v ≠ [] ∧ (∀ c ∈ v, isWord c = true) ∧ ∀ c ∈ v.head?, isDig c = false

/-- The name of a column can be written: as a word, or in back quotes (not in PostgreSQL). -/
def SayableName (o : Opts) (v : List Char) : Prop :=
  (IsAWord v ∧ (Keyword.ofStr (upper v)).reserved = false ∧ nameWord o v (Keyword.ofStr (upper v))) ∨
  (o.dialect ≠ .postgreSQL ∧ ∀ c ∈ v, isWord c = true ∨ c = '-')

/-- The same for the names after the first one. -/
def SayablePart (o : Opts) (v : List Char) : Prop :=
  (IsAWord v ∧ (Keyword.ofStr (upper v)).reserved = false ∧ marker o (.ident v (Keyword.ofStr (upper v))) = false) ∨
  (o.dialect ≠ .postgreSQL ∧ ∀ c ∈ v, isWord c = true ∨ c = '-')

/-- There is a word for the function. -/
def SayableFunction (o : Opts) (f : Ast) : Prop :=
  ∃ v, IsAWord v ∧ (nameWord o v (Keyword.ofStr (upper v)) ∨ Keyword.ofStr (upper v) = .LEFT) ∧ FunctionName v (Keyword.ofStr (upper v)) ⟨f⟩

/-- The text of a decimal number: digits with a point. -/
def IsDecimal (w : List Char) : Prop :=
  ∃ a b, w = a ++ '.' :: b ∧ (∀ c ∈ a, isDig c = true) ∧ (∀ c ∈ b, isDig c = true) ∧ (a ≠ [] ∨ b ≠ [])

mutual

/-- The expression can be written: integers are less than 2^64, there is no backslash in strings, there are words for names and
functions; and the operators are not `^`, DIV and MOD, for which the parser knows no token. -/
def Expr.Sayable (o : Opts) : Expr → Prop
  | .int n => n < 2 ^ 64
  | .dec w => IsDecimal w
  | .str v => '\\' ∉ v
  | .bool _ | .null => True
  | .column v ps => SayableName o v ∧ ∀ p ∈ ps, ∀ v, p = some v → SayablePart o v
  | .un _ x => x.Sayable o
  | .bin op x y => op ∉ [BinOp.bitXor, .div, .mod] ∧ x.Sayable o ∧ y.Sayable o
  | .is k x => k ∈ (isTable ++ isNotTable).map (·.2) ∧ x.Sayable o
  | .isIn _ x l => x.Sayable o ∧ l.Sayable o
  | .call0 f => SayableFunction o f
  | .call f l => SayableFunction o f ∧ l.Sayable o
  | .count _ x => x.Sayable o
  | .caseWhen a b cs => a.Sayable o ∧ b.Sayable o ∧ cs.Sayable o
  | .caseOf v a b cs => v.Sayable o ∧ a.Sayable o ∧ b.Sayable o ∧ cs.Sayable o
  | .paren x => x.Sayable o

def Exprs.Sayable (o : Opts) : Exprs → Prop
  | .one x => x.Sayable o
  | .cons x l => x.Sayable o ∧ l.Sayable o

def Cases.Sayable (o : Opts) : Cases → Prop
  | .done => True
  | .els x => x.Sayable o
  | .when a b cs => a.Sayable o ∧ b.Sayable o ∧ cs.Sayable o

end

end SqlParse
