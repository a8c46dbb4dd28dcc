import Verif.Spec.Trees
/-!
Vocabulary for the property that queries are read back as they were written: queries without positions (`Query`), over the expression
trees of Spec/Trees, the tokens a query can be spelled with (`SpellsQuery`), and which ASTs stand for a query (`MeansQuery`).
-/
namespace SqlParse

/-! ### Queries -/

/-- A table `schema.name [AS alias]`. -/
structure Table where
  /-- the names before the last one -/
  path : List (List Char)
  name : List Char
  alias : Option (List Char)

/-- A table joined to those before it. -/
structure Join where
  /-- the kind of join -/
  kind : Kind
  table : Table
  /-- the condition after ON -/
  cond : Option Expr

/-- A table and the tables joined to it. -/
structure Tables where
  first : Table
  joins : List Join

/-- How rows are ordered. -/
inductive RowOrder where
  | asc | desc | none
  deriving DecidableEq

/-- FROM, and what comes after it. -/
structure From where
  tables : List Tables
  cond : Option Expr
  group : Option (List Expr)
  having : Option Expr
  order : Option (List (Expr × RowOrder))
  /-- the offset, and the number of rows -/
  limit : Option (Option Nat × Nat)

/-- A query. -/
structure Query where
  /-- DISTINCT and the like -/
  flags : List Kind
  /-- the columns, with their names after AS -/
  cols : List (Expr × Option (List Char))
  from_ : Option From

/-! ### Tokens -/

/-- One or more things, with commas between them. -/
inductive Commas {α : Type} (R : α → List Token → Prop) : List α → List Token → Prop where
  | one {x : α} {ts : List Token} (h : R x ts) : Commas R [x] ts
  | cons {x : α} {l : List α} {ts us : List Token} (h : R x ts) (hl : Commas R l us) : Commas R (x :: l) (ts ++ .comma :: us)

/-- The token is the name. -/
inductive SpellsName (o : Opts) : List Char → Token → Prop where
  | word {v : List Char} {k : Keyword} (hk : k.reserved = false) (hq : k = .QUOTED_IDENTIFIER → o.dialect ≠ .postgreSQL)
      (hm : marker o (.ident v k) = false) : SpellsName o v (.ident v k)
  | quoted {v : List Char} (hd : o.dialect = .postgreSQL) : SpellsName o v (.doubleQuotedString v)

/-- The words are these keywords. -/
inductive IsKws : List Keyword → List Token → Prop where
  | nil : IsKws [] []
  | cons {k : Keyword} {t : Token} {ks : List Keyword} {ts : List Token} (h : t.isKw k = true) (hs : IsKws ks ts) :
      IsKws (k :: ks) (t :: ts)

/-- The words of the joins. -/
def joinPhrases : List (List Keyword × Kind) := [
  ([.INNER, .JOIN], .JoinType_Inner), ([.CROSS, .JOIN], .JoinType_Cross), ([.JOIN], .JoinType_Normal),
  ([.STRAIGHT_JOIN], .JoinType_Straight), ([.LEFT, .JOIN], .JoinType_Left), ([.LEFT, .OUTER, .JOIN], .JoinType_Left),
  ([.RIGHT, .JOIN], .JoinType_Right), ([.RIGHT, .OUTER, .JOIN], .JoinType_Right), ([.NATURAL, .INNER, .JOIN], .JoinType_NaturalInner),
  ([.NATURAL, .LEFT, .JOIN], .JoinType_NaturalLeft), ([.NATURAL, .LEFT, .OUTER, .JOIN], .JoinType_NaturalLeft),
  ([.NATURAL, .RIGHT, .JOIN], .JoinType_NaturalRight), ([.NATURAL, .RIGHT, .OUTER, .JOIN], .JoinType_NaturalRight),
  ([.NATURAL, .JOIN], .JoinType_Natural)]

/-- The alias of a table. -/
inductive SpellsAlias (o : Opts) : Option (List Char) → List Token → Prop where
  | none : SpellsAlias o none []
  | as {t t' : Token} {v : List Char} (h : t.isKw .AS = true) (hn : SpellsName o v t') : SpellsAlias o (some v) [t, t']
  | plain {w v : List Char} {k : Keyword} (hn : SpellsName o v (.ident w k)) : SpellsAlias o (some v) [.ident w k]

/-- A dotted name and the tokens after it. -/
inductive SpellsDotted (o : Opts) : List (List Char) → List Char → List Token → Prop where
  | last {v : List Char} {t : Token} (h : SpellsName o v t) : SpellsDotted o [] v [t]
  | dot {v n : List Char} {p : List (List Char)} {t : Token} {ts : List Token} (h : SpellsName o v t) (hs : SpellsDotted o p n ts) :
      SpellsDotted o (v :: p) n (t :: .period :: ts)

/-- A table.  (Its first name must be a word, or in back quotes.) -/
inductive SpellsTable (o : Opts) : Table → List Token → Prop where
  | mk {p : List (List Char)} {n w : List Char} {k : Keyword} {al : Option (List Char)} {ts us : List Token}
      (h : SpellsDotted o p n (.ident w k :: ts)) (ha : SpellsAlias o al us) : SpellsTable o ⟨p, n, al⟩ (.ident w k :: (ts ++ us))

/-- An optional clause that begins with the keyword `k`. -/
inductive Clause {α : Type} (k : Keyword) (R : α → List Token → Prop) : Option α → List Token → Prop where
  | none : Clause k R none []
  | some {x : α} {t : Token} {ts : List Token} (h : t.isKw k = true) (hR : R x ts) : Clause k R (some x) (t :: ts)

/-- Joins.  (`on`: they come after an ON; RIGHT would be a column there.) -/
inductive SpellsJoins (o : Opts) : (on : Bool) → List Join → List Token → Prop where
  | nil {on : Bool} : SpellsJoins o on [] []
  | cons {on : Bool} {ks : List Keyword} {K : Kind} {tb : Table} {c : Option Expr} {js : List Join} {ws ts us vs : List Token}
      (hk : (ks, K) ∈ joinPhrases) (hw : IsKws ks ws) (hr : on = true → ks.head? ≠ some .RIGHT) (ht : SpellsTable o tb ts)
      (hc : Clause .ON (Spells o) c us) (h : SpellsJoins o c.isSome js vs) :
      SpellsJoins o on (⟨K, tb, c⟩ :: js) (ws ++ (ts ++ (us ++ vs)))

/-- Tables. -/
inductive SpellsTables (o : Opts) : Tables → List Token → Prop where
  | mk {tb : Table} {js : List Join} {ts us : List Token} (h : SpellsTable o tb ts) (hj : SpellsJoins o false js us) :
      SpellsTables o ⟨tb, js⟩ (ts ++ us)

/-- BY, and the rest of a clause. -/
inductive AfterWord (k : Keyword) {α : Type} (R : α → List Token → Prop) : α → List Token → Prop where
  | mk {x : α} {t : Token} {ts : List Token} (h : t.isKw k = true) (hR : R x ts) : AfterWord k R x (t :: ts)

/-- What rows are ordered by. -/
inductive SpellsOrder (o : Opts) : Expr × RowOrder → List Token → Prop where
  | asc {x : Expr} {t : Token} {ts : List Token} (h : Spells o x ts) (ht : t.isKw .ASC = true) : SpellsOrder o (x, .asc) (ts ++ [t])
  | desc {x : Expr} {t : Token} {ts : List Token} (h : Spells o x ts) (ht : t.isKw .DESC = true) : SpellsOrder o (x, .desc) (ts ++ [t])
  | none {x : Expr} {ts : List Token} (h : Spells o x ts) : SpellsOrder o (x, .none) ts

/-- After LIMIT: `rows`, `offset, rows` or `rows OFFSET offset`. -/
inductive SpellsLimit : Option Nat × Nat → List Token → Prop where
  | plain {w : List Char} (h : numberOf w < 2 ^ 64) : SpellsLimit (none, numberOf w) [.integer w]
  | comma {w v : List Char} (h : numberOf w < 2 ^ 64) (h' : numberOf v < 2 ^ 64) :
      SpellsLimit (some (numberOf w), numberOf v) [.integer w, .comma, .integer v]
  | offset {t : Token} {w v : List Char} (ht : t.isKw .OFFSET = true) (h : numberOf w < 2 ^ 64) (h' : numberOf v < 2 ^ 64) :
      SpellsLimit (some (numberOf w), numberOf v) [.integer v, t, .integer w]

/-- After FROM. -/
inductive SpellsFrom (o : Opts) : From → List Token → Prop where
  | mk {tb : List Tables} {w h : Option Expr} {g : Option (List Expr)} {od : Option (List (Expr × RowOrder))}
      {li : Option (Option Nat × Nat)} {ts ws gs hs os ls : List Token} (ht : Commas (SpellsTables o) tb ts) (hw : Clause .WHERE (Spells o) w ws)
      (hg : Clause .GROUP (AfterWord .BY (Commas (Spells o))) g gs) (hh : Clause .HAVING (Spells o) h hs)
      (ho : Clause .ORDER (AfterWord .BY (Commas (SpellsOrder o))) od os) (hl : Clause .LIMIT SpellsLimit li ls) :
      SpellsFrom o ⟨tb, w, g, h, od, li⟩ (ts ++ (ws ++ (gs ++ (hs ++ (os ++ ls)))))

/-- DISTINCT and the like. -/
inductive SpellsFlags : List Kind → List Token → Prop where
  | nil : SpellsFlags [] []
  | cons {t : Token} {K : Kind} {l : List Kind} {ts : List Token} (h : selectFlagWords.lookup t.kw = some K) (hl : SpellsFlags l ts) :
      SpellsFlags (K :: l) (t :: ts)

/-- A column and its name. -/
inductive SpellsColumn (o : Opts) : Expr × Option (List Char) → List Token → Prop where
  | plain {x : Expr} {ts : List Token} (h : Spells o x ts) : SpellsColumn o (x, none) ts
  | as {x : Expr} {v : List Char} {t t' : Token} {ts : List Token} (h : Spells o x ts) (ht : t.isKw .AS = true) (hn : SpellsName o v t') :
      SpellsColumn o (x, some v) (ts ++ [t, t'])

/-- The tokens spell the query.  (The first column must not begin with a word that would be one of the flags.) -/
inductive SpellsQuery (o : Opts) : Query → List Token → Prop where
  | mk {fl : List Kind} {l : List (Expr × Option (List Char))} {f : Option From} {t : Token} {fs ts us : List Token}
      (h : t.isKw .SELECT = true) (hf : SpellsFlags fl fs) (hn : ∀ t ∈ ts.head?, selectFlagWords.lookup t.kw = none)
      (hl : Commas (SpellsColumn o) l ts) (hF : Clause .FROM (SpellsFrom o) f us) : SpellsQuery o ⟨fl, l, f⟩ (t :: (fs ++ (ts ++ us)))

/-! ### Expressions of a query -/

/-- The query with `f` of its expressions. -/
def Query.mapE (f : Expr → Expr) (q : Query) : Query :=
  ⟨q.flags, q.cols.map fun c => (f c.1, c.2), q.from_.map fun r =>
    ⟨r.tables.map fun t => ⟨t.first, t.joins.map fun j => ⟨j.kind, j.table, j.cond.map f⟩⟩, r.cond.map f, r.group.map (·.map f), r.having.map f,
      r.order.map (·.map fun p => (f p.1, p.2)), r.limit⟩⟩

/-- All expressions of the query. -/
def Query.exprs (q : Query) : List Expr :=
  q.cols.map (·.1) ++ (q.from_.toList.flatMap fun r =>
    (r.tables.flatMap fun t => t.joins.flatMap (·.cond.toList)) ++ (r.cond.toList ++ (r.group.toList.flatten ++ (r.having.toList ++
      r.order.toList.flatten.map (·.1)))))

/-! ### ASTs -/

/-- The list has an AST for each of the things, in order. -/
inductive EachOf {α β : Type} (M : α → β → Prop) : List α → List β → Prop where
  | nil : EachOf M [] []
  | cons {x : α} {a : β} {l : List α} {as : List β} (h : M x a) (hl : EachOf M l as) : EachOf M (x :: l) (a :: as)

/-- The AST of something optional. -/
inductive Maybe {α : Type} (M : α → Ast → Prop) : Option α → Ast → Prop where
  | none : Maybe M none .none
  | some {x : α} {a : Ast} (h : M x a) : Maybe M (some x) (.some a)

/-- A list. -/
inductive ListOf {α : Type} (M : α → Ast → Prop) : List α → Ast → Prop where
  | mk {l : List α} {as : List Ast} (h : EachOf M l as) : ListOf M l (.list as)

/-- The AST and a span. -/
inductive WithSpan {α : Type} (M : α → Ast → Prop) : α → Ast → Prop where
  | mk {x : α} {a : Ast} {sp : Span} (h : M x a) : WithSpan M x (.node .Tuple [a, .span sp])

/-- A span and the AST. -/
inductive SpanAnd {α : Type} (M : α → Ast → Prop) : α → Ast → Prop where
  | mk {x : α} {a : Ast} {sp : Span} (h : M x a) : SpanAnd M x (.node .Tuple [.span sp, a])

/-- An optional span. -/
inductive SpanOpt : Ast → Prop where
  | none : SpanOpt .none
  | some {sp : Span} : SpanOpt (.some (.span sp))

/-- A name. -/
inductive MeansName : List Char → Ast → Prop where
  | mk {v : List Char} {sp : Span} : MeansName v (.ident v sp)

/-- A word. -/
inductive MeansWord : Kind → Ast → Prop where
  | mk {K : Kind} {sp : Span} : MeansWord K (.node K [.span sp])

/-- A table. -/
inductive MeansTable : Table → Ast → Prop where
  | mk {p : List (List Char)} {n : List Char} {al : Option (List Char)} {p' n' as al' : Ast} (hp : ListOf (WithSpan MeansName) p p')
      (hn : MeansName n n') (hs : SpanOpt as) (ha : Maybe MeansName al al') :
      MeansTable ⟨p, n, al⟩ (.node .TableReference_Table [.node .QualifiedName [p', n'], as, al', .list []])

/-- The condition of a join. -/
inductive MeansOn : Expr → Ast → Prop where
  | mk {x : Expr} {a : Ast} {sp : Span} (h : Means x a) : MeansOn x (.node .JoinSpecification_On [a, .span sp])

/-- Joins, after the table or join `a`. -/
inductive MeansJoins : Ast → List Join → Ast → Prop where
  | nil {a : Ast} : MeansJoins a [] a
  | cons {a b j t s : Ast} {K : Kind} {tb : Table} {c : Option Expr} {js : List Join} (hj : MeansWord K j) (ht : MeansTable tb t)
      (hs : Maybe MeansOn c s) (h : MeansJoins (.node .TableReference_Join [j, a, t, s]) js b) : MeansJoins a (⟨K, tb, c⟩ :: js) b

/-- Tables. -/
inductive MeansTables : Tables → Ast → Prop where
  | mk {tb : Table} {js : List Join} {a b : Ast} (h : MeansTable tb a) (hj : MeansJoins a js b) : MeansTables ⟨tb, js⟩ b

/-- What rows are ordered by. -/
inductive MeansOrder : Expr × RowOrder → Ast → Prop where
  | asc {x : Expr} {a : Ast} {sp : Span} (h : Means x a) : MeansOrder (x, .asc) (.node .Tuple [a, .node .OrderFlag_Asc [.span sp]])
  | desc {x : Expr} {a : Ast} {sp : Span} (h : Means x a) : MeansOrder (x, .desc) (.node .Tuple [a, .node .OrderFlag_Desc [.span sp]])
  | none {x : Expr} {a : Ast} (h : Means x a) : MeansOrder (x, .none) (.node .Tuple [a, .node .OrderFlag_None []])

/-- A number. -/
inductive MeansNumber : Nat → Ast → Prop where
  | mk {n : Nat} {sp : Span} : MeansNumber n (.node .Integer [.node .Tuple [.nat n, .span sp]])

/-- The offset and the number of rows. -/
inductive MeansLimit : Option Nat × Nat → Ast → Prop where
  | mk {o : Option Nat} {n : Nat} {o' n' : Ast} (ho : Maybe MeansNumber o o') (hn : MeansNumber n n') :
      MeansLimit (o, n) (.node .Tuple [o', n'])

/-- A column and its name. -/
inductive MeansColumn : Expr × Option (List Char) → Ast → Prop where
  | mk {x : Expr} {n : Option (List Char)} {a n' : Ast} (h : Means x a) (hn : Maybe MeansName n n') :
      MeansColumn (x, n) (.node .SelectExpr [a, n'])

/-- The AST is the query, whatever the spans in it are. -/
inductive MeansQuery : Query → Ast → Prop where
  | noFrom {fl : List Kind} {l : List (Expr × Option (List Char))} {s : Span} {fl' l' : Ast} (hf : ListOf MeansWord fl fl')
      (hl : ListOf MeansColumn l l') :
      MeansQuery ⟨fl, l, none⟩ (.node .Select [.span s, fl', l', .none, .none, .none, .none, .none, .none, .none, .none, .none])
  | «from» {fl : List Kind} {l : List (Expr × Option (List Char))} {tb : List Tables} {w h : Option Expr} {g : Option (List Expr)}
      {od : Option (List (Expr × RowOrder))} {li : Option (Option Nat × Nat)} {s f : Span} {fl' l' tb' w' g' h' od' li' : Ast}
      (hf : ListOf MeansWord fl fl') (hl : ListOf MeansColumn l l') (ht : ListOf MeansTables tb tb') (hw : Maybe (WithSpan Means) w w')
      (hg : Maybe (SpanAnd (ListOf Means)) g g') (hh : Maybe (WithSpan Means) h h') (ho : Maybe (SpanAnd (ListOf MeansOrder)) od od')
      (hli : Maybe (SpanAnd MeansLimit) li li') :
      MeansQuery ⟨fl, l, some ⟨tb, w, g, h, od, li⟩⟩
        (.node .Select [.span s, fl', l', .some (.span f), .some tb', w', g', h', .none, od', li', .none])

/-! ### Which queries can be written -/

/-- The name can be written, at places where any name can stand. -/
def SayableTable (o : Opts) (t : Table) : Prop := (∀ v ∈ t.path ++ t.alias.toList, SayablePart o v) ∧ SayablePart o t.name

/-- The query can be written: its names and expressions can be, lists are not empty, numbers are less than 2^64, and a RIGHT JOIN does not
come after an ON. -/
structure Query.Sayable (o : Opts) (q : Query) : Prop where
  exprs : ∀ x ∈ q.exprs, x.Sayable o
  flags : ∀ k ∈ q.flags, k ∈ selectFlagWords.map (·.2)
  cols : q.cols ≠ []
  names : ∀ c ∈ q.cols, ∀ v ∈ c.2, SayablePart o v
  tables : ∀ f ∈ q.from_, f.tables ≠ [] ∧ ∀ t ∈ f.tables, SayableTable o t.first ∧ (∀ j ∈ t.joins, SayableTable o j.table ∧ j.kind ∈ joinPhrases.map (·.2)) ∧
    ∀ a i j b, t.joins = a ++ i :: j :: b → i.cond.isSome = true → j.kind ≠ .JoinType_Right
  lists : ∀ f ∈ q.from_, f.group ≠ some [] ∧ f.order ≠ some []
  limit : ∀ f ∈ q.from_, ∀ l ∈ f.limit, l.2 < 2 ^ 64 ∧ ∀ n ∈ l.1, n < 2 ^ 64

end SqlParse
