import Verif.Spec.Tables
/-!
Vocabulary for the property that changes of data are read back as they were written: INSERT, REPLACE, UPDATE and DELETE without positions
(`Change`), over the expression trees of Spec/Trees and the queries of Spec/Queries, the tokens they can be spelled with (`SpellsChange`), and
which ASTs stand for them (`MeansChange`).
-/
namespace SqlParse

/-! ### Changes -/

/-- `a.b = value` -/
structure Setting where
  /-- the names before the last one -/
  path : List (List Char)
  name : List Char
  value : Expr

/-- What RETURNING lists. -/
abbrev Returned := Option (List (Expr × Option (List Char)))

/-- UPDATE -/
structure Update where
  /-- LOW_PRIORITY and the like -/
  flags : List Kind
  tables : List Tables
  sets : List Setting
  cond : Option Expr
  returning : Returned

/-- DELETE -/
structure Deletion where
  flags : List Kind
  /-- the tables from which rows are deleted: the names before the last one, and the last one -/
  names : List (List (List Char) × List Char)
  /-- the tables in which rows are looked for -/
  «using» : List Tables
  cond : Option Expr
  returning : Returned

/-- What is inserted. -/
inductive Source where
  | values (rows : List (List Expr))
  | query (q : Query)
  | set (l : List (List Char × Expr))

/-- Which rows are there already: any, those with the same values in the columns, those that violate the constraint. -/
inductive Conflict where
  | any
  | cols (l : List (List Char))
  | constraint (n : List Char)

/-- What is done if a row is there already: ON DUPLICATE KEY UPDATE, ON CONFLICT DO NOTHING, ON CONFLICT DO UPDATE. -/
inductive Clash where
  | none
  | duplicate (l : List (List Char × Expr))
  | nothing (c : Conflict)
  | update (c : Conflict) (l : List (List Char × Expr)) (cond : Option Expr)

/-- INSERT or REPLACE -/
structure Insertion where
  /-- INSERT or REPLACE -/
  kind : Kind
  flags : List Kind
  path : List (List Char)
  name : List Char
  /-- the columns -/
  cols : List (List Char)
  source : Source
  clash : Clash
  returning : Returned

/-- A change of data. -/
inductive Change where
  | insert (i : Insertion)
  | update (u : Update)
  | delete (d : Deletion)

/-! ### Tokens -/

/-- LOW_PRIORITY and the like. -/
inductive SpellsWords (tbl : List (Keyword × Kind)) : List Kind → List Token → Prop where
  | nil : SpellsWords tbl [] []
  | cons {t : Token} {K : Kind} {l : List Kind} {ts : List Token} (h : tbl.lookup t.kw = some K) (hl : SpellsWords tbl l ts) :
      SpellsWords tbl (K :: l) (t :: ts)

/-- `a.b = value` -/
inductive SpellsSetting (o : Opts) : Setting → List Token → Prop where
  | mk {p : List (List Char)} {n : List Char} {x : Expr} {ts us : List Token} (h : SpellsDotted o p n ts) (hx : Spells o x us) :
      SpellsSetting o ⟨p, n, x⟩ (ts ++ .eq :: us)

/-- `a = value` -/
inductive SpellsPair (o : Opts) : List Char × Expr → List Token → Prop where
  | mk {n : List Char} {x : Expr} {t : Token} {us : List Token} (h : SpellsName o n t) (hx : Spells o x us) : SpellsPair o (n, x) (t :: .eq :: us)

/-- RETURNING -/
abbrev SpellsReturning (o : Opts) : Returned → List Token → Prop := Clause .RETURNING (Commas (SpellsColumn o))

/-- The tokens spell the UPDATE.  (RETURNING in PostgreSQL only.) -/
inductive SpellsUpdate (o : Opts) : Update → List Token → Prop where
  | mk {fl : List Kind} {tb : List Tables} {l : List Setting} {w : Option Expr} {r : Returned} {t t' : Token} {fs ts ss ws rs : List Token}
      (h : t.isKw .UPDATE = true) (hf : SpellsWords updateFlagWords fl fs) (ht : Commas (SpellsTables o) tb ts) (h' : t'.isKw .SET = true)
      (hs : Commas (SpellsSetting o) l ss) (hw : Clause .WHERE (Spells o) w ws) (hr : SpellsReturning o r rs)
      (hd : r ≠ none → o.dialect = .postgreSQL) : SpellsUpdate o ⟨fl, tb, l, w, r⟩ (t :: (fs ++ (ts ++ t' :: (ss ++ (ws ++ rs)))))

/-- The name of a table. -/
inductive SpellsTarget (o : Opts) : List (List Char) × List Char → List Token → Prop where
  | mk {p : List (List Char)} {n : List Char} {ts : List Token} (h : SpellsDotted o p n ts) : SpellsTarget o (p, n) ts

/-- The tokens spell the DELETE: `DELETE FROM a, b USING c, d` or `DELETE a, b FROM c, d`.  (In the latter the first name must not be a word
that would be a flag.) -/
inductive SpellsDeletion (o : Opts) : Deletion → List Token → Prop where
  | «from» {fl : List Kind} {ns : List (List (List Char) × List Char)} {u : Option (List Tables)} {w : Option Expr} {r : Returned} {t t' : Token}
      {fs ts us ws rs : List Token} (h : t.isKw .DELETE = true) (hf : SpellsWords deleteFlagWords fl fs) (h' : t'.isKw .FROM = true)
      (hn : Commas (SpellsTarget o) ns ts) (hu : Clause .USING (Commas (SpellsTables o)) u us) (hw : Clause .WHERE (Spells o) w ws)
      (hr : SpellsReturning o r rs) : SpellsDeletion o ⟨fl, ns, u.getD [], w, r⟩ (t :: (fs ++ t' :: (ts ++ (us ++ (ws ++ rs)))))
  | multi {fl : List Kind} {ns : List (List (List Char) × List Char)} {u : List Tables} {w : Option Expr} {r : Returned} {t t' : Token}
      {fs ts us ws rs : List Token} (h : t.isKw .DELETE = true) (hf : SpellsWords deleteFlagWords fl fs) (hn : Commas (SpellsTarget o) ns ts)
      (hq : ∀ t ∈ ts.head?, deleteFlagWords.lookup t.kw = none) (h' : t'.isKw .FROM = true) (hu : Commas (SpellsTables o) u us)
      (hw : Clause .WHERE (Spells o) w ws) (hr : SpellsReturning o r rs) :
      SpellsDeletion o ⟨fl, ns, u, w, r⟩ (t :: (fs ++ (ts ++ t' :: (us ++ (ws ++ rs)))))

/-- INTO can be left out. -/
inductive SpellsInto : List Token → Prop where
  | no : SpellsInto []
  | yes {t : Token} (h : t.isKw .INTO = true) : SpellsInto [t]

/-- Columns: nothing, or `(a, b)`. -/
inductive SpellsNames (o : Opts) : List (List Char) → List Token → Prop where
  | none : SpellsNames o [] []
  | some {l : List (List Char)} {ts : List Token} (h : Commas (SpellsOne o) l ts) : SpellsNames o l (.lParen :: (ts ++ [.rParen]))

/-- `(x, y)` -/
inductive SpellsRow (o : Opts) : List Expr → List Token → Prop where
  | mk {l : List Expr} {ts : List Token} (h : Commas (Spells o) l ts) : SpellsRow o l (.lParen :: (ts ++ [.rParen]))

/-- Which rows are there already: nothing, `(a, b)`, `ON CONSTRAINT a`. -/
inductive SpellsConflict (o : Opts) : Conflict → List Token → Prop where
  | any : SpellsConflict o .any []
  | cols {l : List (List Char)} {ts : List Token} (h : Commas (SpellsOne o) l ts) : SpellsConflict o (.cols l) (.lParen :: (ts ++ [.rParen]))
  | constraint {n : List Char} {ws : List Token} {t : Token} (h : IsKws [.ON, .CONSTRAINT] ws) (hn : SpellsName o n t) :
      SpellsConflict o (.constraint n) (ws ++ [t])

/-- ON DUPLICATE KEY UPDATE (in MariaDB), ON CONFLICT (in PostgreSQL). -/
inductive SpellsClash (o : Opts) : Clash → List Token → Prop where
  | none : SpellsClash o .none []
  | duplicate {l : List (List Char × Expr)} {ws ts : List Token} (hd : o.dialect = .mariaDB) (h : IsKws [.ON, .DUPLICATE, .KEY, .UPDATE] ws)
      (hl : Commas (SpellsPair o) l ts) : SpellsClash o (.duplicate l) (ws ++ ts)
  | nothing {c : Conflict} {ws cs ds : List Token} (hd : o.dialect = .postgreSQL) (h : IsKws [.ON, .CONFLICT] ws) (hc : SpellsConflict o c cs)
      (h' : IsKws [.DO, .NOTHING] ds) : SpellsClash o (.nothing c) (ws ++ (cs ++ ds))
  | update {c : Conflict} {l : List (List Char × Expr)} {w : Option Expr} {ws cs ds ts us : List Token} (hd : o.dialect = .postgreSQL)
      (h : IsKws [.ON, .CONFLICT] ws) (hc : SpellsConflict o c cs) (h' : IsKws [.DO, .UPDATE, .SET] ds) (hl : Commas (SpellsPair o) l ts)
      (hw : Clause .WHERE (Spells o) w us) : SpellsClash o (.update c l w) (ws ++ (cs ++ (ds ++ (ts ++ us))))

/-- What is inserted in the columns, what is done with rows that are there already, and RETURNING (not after a query).  SET is without columns. -/
inductive SpellsSource (o : Opts) (cols : List (List Char)) : Source → Clash → Returned → List Token → Prop where
  | values {rows : List (List Expr)} {c : Clash} {r : Returned} {t : Token} {ts os rs : List Token} (h : t.isKw .VALUE = true ∨ t.isKw .VALUES = true)
      (hl : Commas (SpellsRow o) rows ts) (ho : SpellsClash o c os) (hr : SpellsReturning o r rs) :
      SpellsSource o cols (.values rows) c r (t :: (ts ++ (os ++ rs)))
  | query {q : Query} {ts : List Token} (h : SpellsQuery o q ts) : SpellsSource o cols (.query q) .none none ts
  | set {l : List (List Char × Expr)} {c : Clash} {r : Returned} {t : Token} {ts os rs : List Token} (hc : cols = []) (h : t.isKw .SET = true)
      (hl : Commas (SpellsPair o) l ts) (ho : SpellsClash o c os) (hr : SpellsReturning o r rs) :
      SpellsSource o cols (.set l) c r (t :: (ts ++ (os ++ rs)))

/-- The tokens spell the INSERT or REPLACE.  (REPLACE has neither HIGH_PRIORITY nor IGNORE.) -/
inductive SpellsInsertion (o : Opts) : Insertion → List Token → Prop where
  | mk {K : Kind} {fl : List Kind} {p : List (List Char)} {n : List Char} {cols : List (List Char)} {s : Source} {y : Clash} {r : Returned} {t : Token}
      {fs is ns cs ss : List Token} (h : insertTypeWords.lookup t.kw = some K) (hf : SpellsWords insertFlagWords fl fs)
      (hr : K = .InsertReplaceType_Replace → Kind.InsertReplaceFlag_HighPriority ∉ fl ∧ Kind.InsertReplaceFlag_Ignore ∉ fl)
      (hi : SpellsInto is) (hn : SpellsDotted o p n ns) (hc : SpellsNames o cols cs) (hs : SpellsSource o cols s y r ss) :
      SpellsInsertion o ⟨K, fl, p, n, cols, s, y, r⟩ (t :: (fs ++ (is ++ (ns ++ (cs ++ ss)))))

/-- The tokens spell the change. -/
def SpellsChange (o : Opts) : Change → List Token → Prop
  | .insert i => SpellsInsertion o i
  | .update u => SpellsUpdate o u
  | .delete d => SpellsDeletion o d

/-! ### Expressions of a change -/

/-- Tables with `f` of their conditions. -/
def Tables.mapE (f : Expr → Expr) (t : Tables) : Tables := ⟨t.first, t.joins.map fun j => ⟨j.kind, j.table, j.cond.map f⟩⟩

/-- The conditions of tables. -/
def Tables.exprs (t : Tables) : List Expr := t.joins.flatMap (·.cond.toList)

/-- RETURNING with `f` of its expressions. -/
def returnedE (f : Expr → Expr) (r : Returned) : Returned := r.map (·.map fun c => (f c.1, c.2))

/-- `f` of the expressions of ON DUPLICATE KEY UPDATE or ON CONFLICT. -/
def Clash.mapE (f : Expr → Expr) : Clash → Clash
  | .none => .none
  | .duplicate l => .duplicate (l.map fun p => (p.1, f p.2))
  | .nothing c => .nothing c
  | .update c l w => .update c (l.map fun p => (p.1, f p.2)) (w.map f)

/-- The change with `f` of its expressions. -/
def Change.mapE (f : Expr → Expr) : Change → Change
  | .insert i => .insert { i with
      source := match i.source with
        | .values rows => .values (rows.map (·.map f))
        | .query q => .query (q.mapE f)
        | .set l => .set (l.map fun p => (p.1, f p.2))
      clash := i.clash.mapE f
      returning := returnedE f i.returning }
  | .update u => .update { u with
      tables := u.tables.map (·.mapE f), sets := u.sets.map fun s => ⟨s.path, s.name, f s.value⟩, cond := u.cond.map f
      returning := returnedE f u.returning }
  | .delete d => .delete { d with «using» := d.using.map (·.mapE f), cond := d.cond.map f, returning := returnedE f d.returning }

/-- The expressions of what is inserted. -/
def Source.exprs : Source → List Expr
  | .values rows => rows.flatten
  | .query q => q.exprs
  | .set l => l.map (·.2)

/-- The expressions of ON DUPLICATE KEY UPDATE or ON CONFLICT. -/
def Clash.exprs : Clash → List Expr
  | .none | .nothing _ => []
  | .duplicate l => l.map (·.2)
  | .update _ l w => l.map (·.2) ++ w.toList

/-- All expressions of the change. -/
def Change.exprs : Change → List Expr
  | .insert i => i.source.exprs ++ (i.clash.exprs ++ i.returning.toList.flatten.map (·.1))
  | .update u => u.tables.flatMap (·.exprs) ++ (u.sets.map (·.value) ++ (u.cond.toList ++ u.returning.toList.flatten.map (·.1)))
  | .delete d => d.using.flatMap (·.exprs) ++ (d.cond.toList ++ d.returning.toList.flatten.map (·.1))

/-! ### ASTs -/

/-- `a.b = value` -/
inductive MeansSetting : Setting → Ast → Prop where
  | mk {p : List (List Char)} {n : List Char} {x : Expr} {l a : Ast} (h : ListOf MeansName (p ++ [n]) l) (hx : Means x a) :
      MeansSetting ⟨p, n, x⟩ (.node .Tuple [l, a])

/-- `a = value` -/
inductive MeansPair : List Char × Expr → Ast → Prop where
  | mk {n : List Char} {x : Expr} {i a : Ast} {q : Span} (h : MeansName n i) (hx : Means x a) :
      MeansPair (n, x) (.node .InsertReplaceSetPair [i, .span q, a])

/-- What RETURNING lists. -/
abbrev MeansReturned : Returned → Ast → Prop := Maybe (SpanAnd (ListOf MeansColumn))

/-- The name of a table. -/
inductive MeansTarget : List (List Char) × List Char → Ast → Prop where
  | mk {p : List (List Char)} {n : List Char} {p' n' : Ast} (hp : ListOf (WithSpan MeansName) p p') (hn : MeansName n n') :
      MeansTarget (p, n) (.node .QualifiedName [p', n'])

/-- What is inserted: the rows, the query, or what is set. -/
inductive MeansSource : Source → Ast → Ast → Ast → Prop where
  | values {rows : List (List Expr)} {a : Ast} (h : SpanAnd (ListOf (ListOf Means)) rows a) : MeansSource (.values rows) (.some a) .none .none
  | query {q : Query} {a : Ast} (h : MeansQuery q a) : MeansSource (.query q) .none (.some a) .none
  | set {l : List (List Char × Expr)} {s : Span} {a : Ast} (h : ListOf MeansPair l a) :
      MeansSource (.set l) .none .none (.some (.node .InsertReplaceSet [.span s, a]))

/-- `a = value` in ON CONFLICT -/
inductive MeansAssigned : List Char × Expr → Ast → Prop where
  | mk {n : List Char} {x : Expr} {i a : Ast} (h : MeansName n i) (hx : Means x a) : MeansAssigned (n, x) (.node .Tuple [i, a])

/-- Which rows are there already. -/
inductive MeansConflict : Conflict → Ast → Prop where
  | any : MeansConflict .any (.node .OnConflictTarget_None [])
  | cols {l : List (List Char)} {a : Ast} (h : ListOf MeansName l a) : MeansConflict (.cols l) (.node .OnConflictTarget_Columns [a])
  | constraint {n : List Char} {s : Span} {a : Ast} (h : MeansName n a) :
      MeansConflict (.constraint n) (.node .OnConflictTarget_OnConstraint [.span s, a])

/-- ON DUPLICATE KEY UPDATE, or ON CONFLICT. -/
inductive MeansClash : Clash → Ast → Ast → Prop where
  | none : MeansClash .none .none .none
  | duplicate {l : List (List Char × Expr)} {s : Span} {a : Ast} (h : ListOf MeansPair l a) :
      MeansClash (.duplicate l) (.some (.node .InsertReplaceOnDuplicateKeyUpdate [.span s, a])) .none
  | nothing {c : Conflict} {s d : Span} {c' : Ast} (h : MeansConflict c c') :
      MeansClash (.nothing c) .none (.some (.node .OnConflict [.span s, c', .node .OnConflictAction_DoNothing [.span d]]))
  | update {c : Conflict} {l : List (List Char × Expr)} {w : Option Expr} {s d : Span} {c' a w' : Ast} (h : MeansConflict c c')
      (hl : ListOf MeansAssigned l a) (hw : Maybe (SpanAnd Means) w w') :
      MeansClash (.update c l w) .none (.some (.node .OnConflict [.span s, c', .node .OnConflictAction_DoUpdateSet [.span d, a, w']]))

/-- The AST is the change, whatever the spans in it are. -/
inductive MeansChange : Change → Ast → Prop where
  | update {fl : List Kind} {tb : List Tables} {l : List Setting} {w : Option Expr} {r : Returned} {d s : Span} {fl' tb' l' w' r' : Ast}
      (hf : ListOf MeansWord fl fl') (ht : ListOf MeansTables tb tb') (hs : ListOf MeansSetting l l') (hw : Maybe (WithSpan Means) w w')
      (hr : MeansReturned r r') : MeansChange (.update ⟨fl, tb, l, w, r⟩) (.node .Update [.span d, fl', tb', .span s, l', w', r'])
  | delete {fl : List Kind} {ns : List (List (List Char) × List Char)} {u : List Tables} {w : Option Expr} {r : Returned} {d f : Span}
      {fl' ns' u' w' r' : Ast} (hf : ListOf MeansWord fl fl') (hn : ListOf MeansTarget ns ns') (hu : ListOf MeansTables u u')
      (hw : Maybe (WithSpan Means) w w') (hr : MeansReturned r r') :
      MeansChange (.delete ⟨fl, ns, u, w, r⟩) (.node .Delete [.span d, fl', .span f, ns', u', w', r'])
  | insert {K : Kind} {fl : List Kind} {p : List (List Char)} {n : List Char} {cols : List (List Char)} {s : Source} {y : Clash}
      {r : Returned} {K' fl' i' n' cols' a b c d x r' : Ast} (hK : MeansWord K K') (hf : ListOf MeansWord fl fl') (hi : SpanOpt i') (hn : MeansTarget (p, n) n')
      (hc : ListOf MeansName cols cols') (hs : MeansSource s a b c) (hy : MeansClash y d x) (hr : MeansReturned r r') :
      MeansChange (.insert ⟨K, fl, p, n, cols, s, y, r⟩) (.node .InsertReplace [K', fl', i', n', cols', a, b, c, d, x, r'])

/-! ### Which changes can be written -/

/-- The tables can be written. -/
def Tables.Sayable (o : Opts) (t : Tables) : Prop :=
  SayableTable o t.first ∧ (∀ j ∈ t.joins, SayableTable o j.table ∧ j.kind ∈ joinPhrases.map (·.2)) ∧
    ∀ a i j b, t.joins = a ++ i :: j :: b → i.cond.isSome = true → j.kind ≠ .JoinType_Right

/-- The dotted name can be written. -/
def SayableTarget (o : Opts) (n : List (List Char) × List Char) : Prop := (∀ v ∈ n.1, SayablePart o v) ∧ SayablePart o n.2

/-- RETURNING can be written. -/
def SayableReturned (o : Opts) (r : Returned) : Prop := r ≠ some [] ∧ ∀ l ∈ r, ∀ c ∈ l, ∀ v ∈ c.2, SayablePart o v

/-- What is inserted can be written. -/
def Source.Sayable (o : Opts) : Source → Prop
  | .values rows => rows ≠ [] ∧ [] ∉ rows
  | .query q => q.Sayable o
  | .set l => l ≠ [] ∧ ∀ p ∈ l, SayablePart o p.1

/-- The rows that are there already can be written. -/
def Conflict.Sayable (o : Opts) : Conflict → Prop
  | .any => True
  | .cols l => l ≠ [] ∧ ∀ v ∈ l, SayablePart o v
  | .constraint n => SayablePart o n

/-- ON DUPLICATE KEY UPDATE or ON CONFLICT can be written. -/
def Clash.Sayable (o : Opts) : Clash → Prop
  | .none => True
  | .duplicate l => o.dialect = .mariaDB ∧ l ≠ [] ∧ ∀ p ∈ l, SayablePart o p.1
  | .nothing c => o.dialect = .postgreSQL ∧ c.Sayable o
  | .update c l _ => o.dialect = .postgreSQL ∧ c.Sayable o ∧ l ≠ [] ∧ ∀ p ∈ l, SayablePart o p.1

/-- The change can be written: names, flags and expressions can be, and lists are not empty; UPDATE has RETURNING in PostgreSQL only, INSERT
neither RETURNING nor ON with a query; SET is without columns; REPLACE has neither HIGH_PRIORITY nor IGNORE. -/
def Change.SayableParts (o : Opts) : Change → Prop
  | .insert i => i.kind ∈ insertTypeWords.map (·.2) ∧ (∀ k ∈ i.flags, k ∈ insertFlagWords.map (·.2)) ∧
      (i.kind = .InsertReplaceType_Replace → Kind.InsertReplaceFlag_HighPriority ∉ i.flags ∧ Kind.InsertReplaceFlag_Ignore ∉ i.flags) ∧
      SayableTarget o (i.path, i.name) ∧ (∀ v ∈ i.cols, SayablePart o v) ∧ i.source.Sayable o ∧ i.clash.Sayable o ∧ SayableReturned o i.returning ∧
      (∀ l, i.source = .set l → i.cols = []) ∧ ∀ q, i.source = .query q → i.clash = .none ∧ i.returning = none
  | .update u => (∀ k ∈ u.flags, k ∈ updateFlagWords.map (·.2)) ∧ (u.tables ≠ [] ∧ ∀ t ∈ u.tables, t.Sayable o) ∧
      (u.sets ≠ [] ∧ ∀ s ∈ u.sets, SayableTarget o (s.path, s.name)) ∧ SayableReturned o u.returning ∧
      (u.returning ≠ none → o.dialect = .postgreSQL)
  | .delete d => (∀ k ∈ d.flags, k ∈ deleteFlagWords.map (·.2)) ∧ (d.names ≠ [] ∧ ∀ n ∈ d.names, SayableTarget o n) ∧
      (∀ t ∈ d.using, t.Sayable o) ∧ SayableReturned o d.returning

/-- The change and its expressions can be written. -/
def Change.Sayable (o : Opts) (c : Change) : Prop := c.SayableParts o ∧ ∀ x ∈ c.exprs, x.Sayable o

end SqlParse
