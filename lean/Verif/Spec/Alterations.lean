import Verif.Spec.Disposals
/-!
Vocabulary for the property that ALTER TABLE statements are read back as they were written: what is changed in which table, without positions
(`Alteration`), over the columns of Spec/Tables, the tokens it can be spelled with (`SpellsAlteration`), and which ASTs stand for it
(`MeansAlteration`).
-/
namespace SqlParse

/-! ### Changes of tables -/

/-- What is done to a column. -/
inductive ColChange where
  | setDefault (x : Expr)
  | setNotNull
  | dropDefault
  | dropNotNull
  | type (ty : ColType) (props : List ColProp)

/-- An option of an index. -/
inductive IdxOption where
  | using (K : Kind)
  | comment (v : List Char)

/-- An index that is added. -/
structure AddedIndex where
  kind : Kind
  /-- CONSTRAINT, and perhaps its name -/
  constraint : Option (Option (List Char))
  ifNotExists : Bool
  name : Option (List Char)
  /-- the columns, and how much of them -/
  cols : List (List Char × Option Nat)
  opts : List IdxOption

/-- A foreign key that is added. -/
structure AddedKey where
  constraint : Option (Option (List Char))
  ifNotExists : Bool
  name : Option (List Char)
  cols : List (List Char × Option Nat)
  /-- the table and the columns it refers to -/
  table : List Char
  refs : List (List Char)
  /-- when (UPDATE or DELETE) what is done -/
  ons : List (Kind × Kind)

/-- One change of a table. -/
inductive AltStep where
  | addColumn (ifNotExists : Bool) (c : ColDef)
  | modify (ifExists : Bool) (c : ColDef)
  | dropColumn (n : List Char) (cascade : Bool)
  | alterColumn (n : List Char) (c : ColChange)
  | ownerTo (n : List Char)
  | addIndex (i : AddedIndex)
  | addKey (k : AddedKey)

/-- The changes of a table. -/
structure Alteration where
  online : Bool
  ignore : Bool
  ifExists : Bool
  table : Target
  steps : List AltStep

/-- The words for kinds of indexes.  (The AST tells neither UNIQUE nor SPATIAL from FULLTEXT.) -/
def indexPhrases : List (List Keyword × Kind) := [
  ([.PRIMARY, .KEY], .IndexType_Primary), ([.INDEX], .IndexType_Index), ([.KEY], .IndexType_Index),
  ([.FULLTEXT, .INDEX], .IndexType_FullText), ([.FULLTEXT, .KEY], .IndexType_FullText), ([.SPATIAL, .INDEX], .IndexType_FullText),
  ([.SPATIAL, .KEY], .IndexType_FullText), ([.UNIQUE, .INDEX], .IndexType_FullText), ([.UNIQUE, .KEY], .IndexType_FullText)]

/-- When a foreign key acts. -/
def onPhrases : List (List Keyword × Kind) := [([.UPDATE], .ForeignKeyOnType_Update), ([.DELETE], .ForeignKeyOnType_Delete)]

/-- What a foreign key does.  (The AST does not tell NO ACTION from SET NULL.) -/
def actionPhrases : List (List Keyword × Kind) := [([.RESTRICT], .ForeignKeyOnAction_Restrict), ([.CASCADE], .ForeignKeyOnAction_Cascade),
  ([.SET, .NULL], .ForeignKeyOnAction_SetNull), ([.NO, .ACTION], .ForeignKeyOnAction_SetNull)]

/-- What is done to a column, without operands. -/
def colPhrases : List (List Keyword × ColChange) := [([.SET, .NOT, .NULL], .setNotNull), ([.DROP, .DEFAULT], .dropDefault),
  ([.DROP, .NOT, .NULL], .dropNotNull)]

/-! ### Tokens -/

/-- A type with properties. -/
inductive SpellsDataType (o : Opts) : ColType → List ColProp → List Token → Prop where
  | mk {ty : ColType} {ps : List ColProp} {ts us : List Token} (ht : SpellsType o ty ts) (hp : SpellsProps o false ps us) :
      SpellsDataType o ty ps (ts ++ us)

/-- A name, or none.  (It must be a word, or in back quotes.) -/
inductive SpellsNameOpt (o : Opts) : Option (List Char) → List Token → Prop where
  | none : SpellsNameOpt o none []
  | some {v w : List Char} {k : Keyword} (h : SpellsName o v (.ident w k)) : SpellsNameOpt o (some v) [.ident w k]

/-- `name` or `name(size)` -/
inductive SpellsPart (o : Opts) : List Char × Option Nat → List Token → Prop where
  | plain {v : List Char} {t : Token} (h : SpellsName o v t) : SpellsPart o (v, none) [t]
  | size {v w : List Char} {t : Token} (h : SpellsName o v t) (hn : numberOf w < 2 ^ 32) :
      SpellsPart o (v, some (numberOf w)) [t, .lParen, .integer w, .rParen]

/-- USING BTREE -/
inductive SpellsUsing : Kind → List Token → Prop where
  | mk {t t' : Token} {K : Kind} (h : t.isKw .USING = true) (h' : indexTypeWords.lookup t'.kw = some K) : SpellsUsing K [t, t']

/-- USING BTREE, or nothing. -/
inductive SpellsUsingOpt : Option Kind → List Token → Prop where
  | none : SpellsUsingOpt none []
  | some {K : Kind} {ts : List Token} (h : SpellsUsing K ts) : SpellsUsingOpt (some K) ts

/-- An option of an index. -/
inductive SpellsIdxOption (o : Opts) : IdxOption → List Token → Prop where
  | using {K : Kind} {ts : List Token} (h : SpellsUsing K ts) : SpellsIdxOption o (.using K) ts
  | comment {v : List Char} {t : Token} {ts : List Token} (h : t.isKw .COMMENT = true) (hs : Spells o (.str v) ts) :
      SpellsIdxOption o (.comment v) (t :: ts)

/-- Words of a table. -/
inductive SpellsPhrase {α : Type} (tbl : List (List Keyword × α)) : α → List Token → Prop where
  | mk {ks : List Keyword} {x : α} {ts : List Token} (h : (ks, x) ∈ tbl) (hw : IsKws ks ts) : SpellsPhrase tbl x ts

/-- `ON UPDATE CASCADE` -/
inductive SpellsOnAct : Kind × Kind → List Token → Prop where
  | mk {K K' : Kind} {t : Token} {ts us : List Token} (h : t.isKw .ON = true) (hy : SpellsPhrase onPhrases K ts) (ha : SpellsPhrase actionPhrases K' us) :
      SpellsOnAct (K, K') (t :: (ts ++ us))

/-- What is done to a column. -/
inductive SpellsColChange (o : Opts) : ColChange → List Token → Prop where
  | words {c : ColChange} {ts : List Token} (h : SpellsPhrase colPhrases c ts) : SpellsColChange o c ts
  | setDefault {x : Expr} {ks ts : List Token} (h : IsKws [.SET, .DEFAULT] ks) (hx : Spells o x ts) : SpellsColChange o (.setDefault x) (ks ++ ts)
  | type {ty : ColType} {ps : List ColProp} {t : Token} {ts : List Token} (h : t.isKw .TYPE = true) (ht : SpellsDataType o ty ps ts) :
      SpellsColChange o (.type ty ps) (t :: ts)

/-- MODIFY or MODIFY COLUMN -/
inductive SpellsModify : List Token → Prop where
  | short {t : Token} (h : t.isKw .MODIFY = true) : SpellsModify [t]
  | long {ts : List Token} (h : IsKws [.MODIFY, .COLUMN] ts) : SpellsModify ts

/-- One change.  (ADD COLUMN IF NOT EXISTS not in MariaDB.) -/
inductive SpellsStep (o : Opts) : AltStep → List Token → Prop where
  | addColumn {ine : Bool} {v : List Char} {ty : ColType} {ps : List ColProp} {n : Token} {ks is ts : List Token} (h : IsKws [.ADD, .COLUMN] ks)
      (hi : SpellsIfNot ine is) (hm : o.dialect = .mariaDB → ine = false) (hn : SpellsName o v n) (ht : SpellsDataType o ty ps ts) :
      SpellsStep o (.addColumn ine ⟨v, ty, ps⟩) (ks ++ (is ++ n :: ts))
  | modify {ie : Bool} {v : List Char} {ty : ColType} {ps : List ColProp} {n : Token} {ks is ts : List Token} (h : SpellsModify ks)
      (hi : SpellsIf [.IF, .EXISTS] ie is) (hn : SpellsName o v n) (ht : SpellsDataType o ty ps ts) :
      SpellsStep o (.modify ie ⟨v, ty, ps⟩) (ks ++ (is ++ n :: ts))
  | dropColumn {v : List Char} {c : Bool} {n : Token} {ks cs : List Token} (h : IsKws [.DROP, .COLUMN] ks) (hn : SpellsName o v n)
      (hc : SpellsIf [.CASCADE] c cs) : SpellsStep o (.dropColumn v c) (ks ++ n :: cs)
  | alterColumn {v : List Char} {c : ColChange} {n : Token} {ks ts : List Token} (h : IsKws [.ALTER, .COLUMN] ks) (hn : SpellsName o v n)
      (hc : SpellsColChange o c ts) : SpellsStep o (.alterColumn v c) (ks ++ n :: ts)
  | ownerTo {v : List Char} {n : Token} {ks : List Token} (h : IsKws [.OWNER, .TO] ks) (hn : SpellsName o v n) : SpellsStep o (.ownerTo v) (ks ++ [n])
  | addIndex {K : Kind} {con : Option (Option (List Char))} {ine : Bool} {n : Option (List Char)} {cols : List (List Char × Option Nat)} {u : Option Kind}
      {l : List IdxOption} {t : Token} {cs ks is ns us ps os : List Token} (h : t.isKw .ADD = true) (hc : Clause .CONSTRAINT (SpellsNameOpt o) con cs)
      (hk : SpellsPhrase indexPhrases K ks) (hi : SpellsIfNot ine is) (hn : SpellsNameOpt o n ns) (hu : SpellsUsingOpt u us)
      (hp : Commas (SpellsPart o) cols ps) (ho : Row (SpellsIdxOption o) l os) :
      SpellsStep o (.addIndex ⟨K, con, ine, n, cols, u.toList.map .using ++ l⟩) (t :: (cs ++ (ks ++ (is ++ (ns ++ (us ++ .lParen :: (ps ++ .rParen :: os)))))))
  | addKey {con : Option (Option (List Char))} {ine : Bool} {n : Option (List Char)} {cols : List (List Char × Option Nat)} {v : List Char}
      {refs : List (List Char)} {l : List (Kind × Kind)} {t r m : Token} {cs ks is ns ps rs os : List Token} (h : t.isKw .ADD = true)
      (hc : Clause .CONSTRAINT (SpellsNameOpt o) con cs) (hk : IsKws [.FOREIGN, .KEY] ks) (hi : SpellsIfNot ine is) (hn : SpellsNameOpt o n ns)
      (hp : Commas (SpellsPart o) cols ps) (hr : r.isKw .REFERENCES = true) (hm : SpellsName o v m) (hrs : Commas (SpellsOne o) refs rs)
      (ho : Row SpellsOnAct l os) :
      SpellsStep o (.addKey ⟨con, ine, n, cols, v, refs, l⟩)
        (t :: (cs ++ (ks ++ (is ++ (ns ++ .lParen :: (ps ++ .rParen :: r :: m :: .lParen :: (rs ++ .rParen :: os)))))))

/-- The tokens spell the changes of the table. -/
inductive SpellsAlteration (o : Opts) : Alteration → List Token → Prop where
  | mk {on ig ie : Bool} {n : Target} {l : List AltStep} {t t' : Token} {as bs is ns ts : List Token} (h : t.isKw .ALTER = true)
      (ho : SpellsIf [.ONLINE] on as) (hg : SpellsIf [.IGNORE] ig bs) (h' : t'.isKw .TABLE = true) (hi : SpellsIf [.IF, .EXISTS] ie is)
      (hn : SpellsTarget o n ns) (hl : Commas (SpellsStep o) l ts) :
      SpellsAlteration o ⟨on, ig, ie, n, l⟩ (t :: (as ++ (bs ++ t' :: (is ++ (ns ++ ts)))))

/-! ### Expressions -/

/-- The column with `f` of its expressions. -/
def ColDef.mapE (f : Expr → Expr) (c : ColDef) : ColDef := { c with props := c.props.map (·.mapE f) }

/-- The expressions of the properties. -/
def propExprs (ps : List ColProp) : List Expr := ps.flatMap (·.expr.toList)

/-- The expressions of the change. -/
def AltStep.exprs : AltStep → List Expr
  | .addColumn _ c | .modify _ c => propExprs c.props
  | .alterColumn _ (.setDefault x) => [x]
  | .alterColumn _ (.type _ ps) => propExprs ps
  | _ => []

/-- The change with `f` of its expressions. -/
def AltStep.mapE (f : Expr → Expr) : AltStep → AltStep
  | .addColumn i c => .addColumn i (c.mapE f)
  | .modify i c => .modify i (c.mapE f)
  | .alterColumn n (.setDefault x) => .alterColumn n (.setDefault (f x))
  | .alterColumn n (.type ty ps) => .alterColumn n (.type ty (ps.map (·.mapE f)))
  | s => s

/-- The changes with `f` of their expressions. -/
def Alteration.mapE (f : Expr → Expr) (d : Alteration) : Alteration := { d with steps := d.steps.map (·.mapE f) }

/-! ### ASTs -/

/-- A type with properties. -/
inductive MeansDataType : ColType × List ColProp → Ast → Prop where
  | mk {ty : ColType} {ps : List ColProp} {sp : Span} {a l : Ast} (ht : MeansType ty a) (hp : ListOf MeansProp ps l) :
      MeansDataType (ty, ps) (.node .DataType [.span sp, a, l])

/-- `name` or `name(size)` -/
inductive MeansPart : List Char × Option Nat → Ast → Prop where
  | mk {v : List Char} {n : Option Nat} {a b : Ast} (h : MeansName v a) (hn : Maybe MeansNat n b) : MeansPart (v, n) (.node .IndexCol [a, b])

/-- An option of an index. -/
inductive MeansIdxOption : IdxOption → Ast → Prop where
  | using {K : Kind} {sp : Span} (h : K ∈ indexTypeWords.map (·.2)) : MeansIdxOption (.using K) (.node K [.span sp])
  | comment {v : List Char} {a : Ast} (h : MeansStr v a) : MeansIdxOption (.comment v) (.node .IndexOption_Comment [a])

/-- `ON UPDATE CASCADE` -/
inductive MeansOnAct : Kind × Kind → Ast → Prop where
  | mk {K K' : Kind} {a b : Ast} (h : MeansWord K a) (h' : MeansWord K' b) : MeansOnAct (K, K') (.node .ForeignKeyOn [a, b])

/-- What is done to a column. -/
inductive MeansColChange : ColChange → Ast → Prop where
  | setDefault {x : Expr} {sp : Span} {a : Ast} (h : Means x a) : MeansColChange (.setDefault x) (.node .AlterColumnAction_SetDefault [.span sp, a])
  | setNotNull {sp : Span} : MeansColChange .setNotNull (.node .AlterColumnAction_SetNotNull [.span sp])
  | dropDefault {sp : Span} : MeansColChange .dropDefault (.node .AlterColumnAction_DropDefault [.span sp])
  | dropNotNull {sp : Span} : MeansColChange .dropNotNull (.node .AlterColumnAction_DropNotNull [.span sp])
  | type {ty : ColType} {ps : List ColProp} {sp : Span} {a : Ast} (h : MeansDataType (ty, ps) a) :
      MeansColChange (.type ty ps) (.node .AlterColumnAction_Type [.span sp, a])

/-- One change. -/
inductive MeansStep : AltStep → Ast → Prop where
  | addColumn {i : Bool} {v : List Char} {ty : ColType} {ps : List ColProp} {s : Span} {i' n d : Ast} (hi : MeansFlag i i') (hn : MeansName v n)
      (hd : MeansDataType (ty, ps) d) : MeansStep (.addColumn i ⟨v, ty, ps⟩) (.node .AlterSpecification_AddColumn [.span s, i', n, d])
  | modify {i : Bool} {v : List Char} {ty : ColType} {ps : List ColProp} {s : Span} {i' n d : Ast} (hi : MeansFlag i i') (hn : MeansName v n)
      (hd : MeansDataType (ty, ps) d) : MeansStep (.modify i ⟨v, ty, ps⟩) (.node .AlterSpecification_Modify [.span s, i', n, d])
  | dropColumn {v : List Char} {c : Bool} {s : Span} {n c' : Ast} (hn : MeansName v n) (hc : MeansFlag c c') :
      MeansStep (.dropColumn v c) (.node .AlterSpecification_DropColumn [.span s, n, c'])
  | alterColumn {v : List Char} {c : ColChange} {s : Span} {n a : Ast} (hn : MeansName v n) (hc : MeansColChange c a) :
      MeansStep (.alterColumn v c) (.node .AlterSpecification_AlterColumn [.span s, n, a])
  | ownerTo {v : List Char} {s : Span} {n : Ast} (hn : MeansName v n) : MeansStep (.ownerTo v) (.node .AlterSpecification_OwnerTo [.span s, n])
  | addIndex {x : AddedIndex} {s : Span} {y i n c cols l : Ast} (hy : MeansWord x.kind y) (hi : MeansFlag x.ifNotExists i)
      (hn : Maybe MeansName x.name n) (hc : Maybe (SpanAnd (Maybe MeansName)) x.constraint c) (hp : ListOf MeansPart x.cols cols)
      (ho : ListOf MeansIdxOption x.opts l) : MeansStep (.addIndex x) (.node .AlterSpecification_AddIndex [.span s, y, i, n, c, cols, l])
  | addKey {x : AddedKey} {s fk rf : Span} {c i n cols t rs l : Ast} (hc : Maybe (SpanAnd (Maybe MeansName)) x.constraint c)
      (hi : MeansFlag x.ifNotExists i) (hn : Maybe MeansName x.name n) (hp : ListOf MeansPart x.cols cols) (ht : MeansName x.table t)
      (hr : ListOf MeansName x.refs rs) (ho : ListOf MeansOnAct x.ons l) :
      MeansStep (.addKey x) (.node .AlterSpecification_AddForeignKey [.span s, c, .span fk, i, n, cols, .span rf, t, rs, l])

/-- The AST is the changes of the table, whatever the spans in it are. -/
inductive MeansAlteration : Alteration → Ast → Prop where
  | mk {d : Alteration} {s t : Span} {on ig ie n l : Ast} (ho : MeansFlag d.online on) (hg : MeansFlag d.ignore ig) (hi : MeansFlag d.ifExists ie)
      (hn : MeansTarget d.table n) (hl : ListOf MeansStep d.steps l) : MeansAlteration d (.node .AlterTable [.span s, on, ig, .span t, ie, n, l])

/-! ### What can be written -/

/-- The type and the properties can be written, and no property that can not stand there comes after a DEFAULT. -/
def SayableDataType (o : Opts) (ty : ColType) (ps : List ColProp) : Prop :=
  ty.Sayable ∧ (∀ p ∈ ps, p.Sayable o) ∧ ∀ a p q b, ps = a ++ p :: q :: b → p.isDefault = true → q.afterDefault

/-- The option of an index can be written. -/
def IdxOption.Sayable : IdxOption → Prop
  | .using K => K ∈ indexTypeWords.map (·.2)
  | .comment v => '\\' ∉ v

/-- The names of a constraint, an index and its columns can be written, and there is a column. -/
def SayableParts (o : Opts) (con : Option (Option (List Char))) (n : Option (List Char)) (cols : List (List Char × Option Nat)) : Prop :=
  (∀ c ∈ con, ∀ v ∈ c, SayablePart o v) ∧ (∀ v ∈ n, SayablePart o v) ∧ cols ≠ [] ∧ ∀ p ∈ cols, SayablePart o p.1 ∧ ∀ m ∈ p.2, m < 2 ^ 32

/-- The change can be written. -/
def AltStep.Sayable (o : Opts) : AltStep → Prop
  | .addColumn i c => (o.dialect = .mariaDB → i = false) ∧ SayablePart o c.name ∧ SayableDataType o c.type c.props
  | .modify _ c => SayablePart o c.name ∧ SayableDataType o c.type c.props
  | .dropColumn n _ | .ownerTo n => SayablePart o n
  | .alterColumn n (.setDefault x) => SayablePart o n ∧ x.Sayable o
  | .alterColumn n (.type ty ps) => SayablePart o n ∧ SayableDataType o ty ps
  | .alterColumn n _ => SayablePart o n
  | .addIndex i => i.kind ∈ indexPhrases.map (·.2) ∧ SayableParts o i.constraint i.name i.cols ∧ ∀ x ∈ i.opts, x.Sayable
  | .addKey k => SayableParts o k.constraint k.name k.cols ∧ SayablePart o k.table ∧ k.refs ≠ [] ∧ (∀ v ∈ k.refs, SayablePart o v) ∧
      ∀ p ∈ k.ons, p.1 ∈ onPhrases.map (·.2) ∧ p.2 ∈ actionPhrases.map (·.2)

/-- The changes can be written: there is one, and the names and changes can be. -/
def Alteration.Sayable (o : Opts) (d : Alteration) : Prop := SayableTarget o d.table ∧ d.steps ≠ [] ∧ ∀ s ∈ d.steps, s.Sayable o

end SqlParse
