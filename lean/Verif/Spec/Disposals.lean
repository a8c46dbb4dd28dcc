import Verif.Spec.Changes
/-!
Vocabulary for the property that RENAME, TRUNCATE and DROP statements are read back as they were written: what is done with which objects, without
positions (`Disposal`), the tokens it can be spelled with (`SpellsDisposal`), and which ASTs stand for it (`MeansDisposal`).
-/
namespace SqlParse

/-- A dotted name: the names before the last one, and the last one. -/
abbrev Target := List (List Char) × List Char

/-- What is done with existing objects. -/
inductive Disposal where
  /-- RENAME TABLE a TO b, .. -/
  | rename (l : List (Target × Target))
  /-- TRUNCATE TABLE -/
  | truncate (n : Target)
  /-- DROP TABLE -/
  | tables (temporary ifExists : Bool) (l : List Target) (cascade : Bool)
  /-- DROP VIEW -/
  | views (temporary ifExists : Bool) (l : List Target)
  /-- DROP EVENT, FUNCTION, PROCEDURE or TRIGGER -/
  | dotted (K : Kind) (ifExists : Bool) (n : Target)
  /-- DROP DATABASE or SERVER -/
  | plain (K : Kind) (ifExists : Bool) (n : List Char)
  /-- DROP INDEX -/
  | index (ifExists : Bool) (n : List Char) (table : Option Target)

/-- What has a dotted name. -/
def dottedThings : List (Keyword × Kind) :=
  [(.EVENT, .DropEvent), (.FUNCTION, .DropFunction), (.PROCEDURE, .DropProcedure), (.TRIGGER, .DropTrigger)]

/-- What has a name without dots. -/
def plainThings : List (Keyword × Kind) := [(.DATABASE, .DropDatabase), (.SCHEMA, .DropDatabase), (.SERVER, .DropServer)]

/-! ### Tokens -/

/-- The words are there, or not. -/
inductive SpellsIf (ks : List Keyword) : Bool → List Token → Prop where
  | no : SpellsIf ks false []
  | yes {ts : List Token} (h : IsKws ks ts) : SpellsIf ks true ts

/-- `a TO b` -/
inductive SpellsRenaming (o : Opts) : Target × Target → List Token → Prop where
  | mk {n m : Target} {t : Token} {ts us : List Token} (hn : SpellsTarget o n ts) (h : t.isKw .TO = true) (hm : SpellsTarget o m us) :
      SpellsRenaming o (n, m) (ts ++ t :: us)

/-- The tokens spell what is done.  (CASCADE in PostgreSQL only; DROP INDEX has ON in MariaDB, and not in PostgreSQL.) -/
inductive SpellsDisposal (o : Opts) : Disposal → List Token → Prop where
  | rename {l : List (Target × Target)} {b : Bool} {t : Token} {ks ts : List Token} (h : t.isKw .RENAME = true) (hk : SpellsIf [.TABLE] b ks)
      (hl : Commas (SpellsRenaming o) l ts) : SpellsDisposal o (.rename l) (t :: (ks ++ ts))
  | truncate {n : Target} {b : Bool} {t : Token} {ks ts : List Token} (h : t.isKw .TRUNCATE = true) (hk : SpellsIf [.TABLE] b ks)
      (hn : SpellsTarget o n ts) : SpellsDisposal o (.truncate n) (t :: (ks ++ ts))
  | tables {tmp ie c : Bool} {l : List Target} {t t' : Token} {as is ts cs : List Token} (h : t.isKw .DROP = true) (ht : SpellsIf [.TEMPORARY] tmp as)
      (h' : t'.isKw .TABLE = true) (hi : SpellsIf [.IF, .EXISTS] ie is) (hl : Commas (SpellsTarget o) l ts) (hc : SpellsIf [.CASCADE] c cs)
      (hd : c = true → o.dialect = .postgreSQL) : SpellsDisposal o (.tables tmp ie l c) (t :: (as ++ t' :: (is ++ (ts ++ cs))))
  | views {tmp ie : Bool} {l : List Target} {t t' : Token} {as is ts : List Token} (h : t.isKw .DROP = true) (ht : SpellsIf [.TEMPORARY] tmp as)
      (h' : t'.isKw .VIEW = true) (hi : SpellsIf [.IF, .EXISTS] ie is) (hl : Commas (SpellsTarget o) l ts) :
      SpellsDisposal o (.views tmp ie l) (t :: (as ++ t' :: (is ++ ts)))
  | dotted {k : Keyword} {K : Kind} {ie : Bool} {n : Target} {t t' : Token} {is ts : List Token} (hK : (k, K) ∈ dottedThings) (h : t.isKw .DROP = true)
      (h' : t'.isKw k = true) (hi : SpellsIf [.IF, .EXISTS] ie is) (hn : SpellsTarget o n ts) :
      SpellsDisposal o (.dotted K ie n) (t :: t' :: (is ++ ts))
  | plain {k : Keyword} {K : Kind} {ie : Bool} {n : List Char} {t t' u : Token} {is : List Token} (hK : (k, K) ∈ plainThings) (h : t.isKw .DROP = true)
      (h' : t'.isKw k = true) (hi : SpellsIf [.IF, .EXISTS] ie is) (hn : SpellsName o n u) : SpellsDisposal o (.plain K ie n) (t :: t' :: (is ++ [u]))
  | index {ie : Bool} {n : List Char} {tb : Option Target} {t t' u : Token} {is ts : List Token} (h : t.isKw .DROP = true) (h' : t'.isKw .INDEX = true)
      (hi : SpellsIf [.IF, .EXISTS] ie is) (hn : SpellsName o n u) (ho : Clause .ON (SpellsTarget o) tb ts)
      (h1 : o.dialect = .mariaDB → tb ≠ none) (h2 : o.dialect = .postgreSQL → tb = none) :
      SpellsDisposal o (.index ie n tb) (t :: t' :: (is ++ u :: ts))

/-! ### ASTs -/

/-- `a TO b` -/
inductive MeansRenaming : Target × Target → Ast → Prop where
  | mk {n m : Target} {a b : Ast} {s : Span} (hn : MeansTarget n a) (hm : MeansTarget m b) : MeansRenaming (n, m) (.node .TableToTable [a, .span s, b])

/-- The AST is what is done, whatever the spans in it are. -/
inductive MeansDisposal : Disposal → Ast → Prop where
  | rename {l : List (Target × Target)} {s : Span} {k a : Ast} (hk : SpanOpt k) (h : ListOf MeansRenaming l a) :
      MeansDisposal (.rename l) (.node .RenameTable [.span s, k, a])
  | truncate {n : Target} {s : Span} {k a : Ast} (hk : SpanOpt k) (h : MeansTarget n a) :
      MeansDisposal (.truncate n) (.node .TruncateTable [.span s, k, a])
  | tables {tmp ie c : Bool} {l : List Target} {d s : Span} {t' i' l' c' : Ast} (ht : MeansFlag tmp t') (hi : MeansFlag ie i')
      (hl : ListOf MeansTarget l l') (hc : MeansFlag c c') :
      MeansDisposal (.tables tmp ie l c) (.node .DropTable [.span d, t', .span s, i', l', c'])
  | views {tmp ie : Bool} {l : List Target} {d s : Span} {t' i' l' : Ast} (ht : MeansFlag tmp t') (hi : MeansFlag ie i')
      (hl : ListOf MeansTarget l l') : MeansDisposal (.views tmp ie l) (.node .DropView [.span d, t', .span s, i', l'])
  | dotted {K : Kind} {ie : Bool} {n : Target} {d s : Span} {i' n' : Ast} (hK : K ∈ dottedThings.map (·.2)) (hi : MeansFlag ie i')
      (hn : MeansTarget n n') : MeansDisposal (.dotted K ie n) (.node K [.span d, .span s, i', n'])
  | plain {K : Kind} {ie : Bool} {n : List Char} {d s : Span} {i' n' : Ast} (hK : K ∈ plainThings.map (·.2)) (hi : MeansFlag ie i')
      (hn : MeansName n n') : MeansDisposal (.plain K ie n) (.node K [.span d, .span s, i', n'])
  | index {ie : Bool} {n : List Char} {tb : Option Target} {d s : Span} {i' n' o' : Ast} (hi : MeansFlag ie i') (hn : MeansName n n')
      (ho : Maybe (SpanAnd MeansTarget) tb o') : MeansDisposal (.index ie n tb) (.node .DropIndex [.span d, .span s, i', n', o'])

/-! ### What can be written -/

/-- It can be written: the names can be, lists are not empty; CASCADE in PostgreSQL only; DROP INDEX has a table in MariaDB, and none in PostgreSQL. -/
def Disposal.Sayable (o : Opts) : Disposal → Prop
  | .rename l => l ≠ [] ∧ ∀ p ∈ l, SayableTarget o p.1 ∧ SayableTarget o p.2
  | .truncate n => SayableTarget o n
  | .tables _ _ l c => l ≠ [] ∧ (∀ n ∈ l, SayableTarget o n) ∧ (c = true → o.dialect = .postgreSQL)
  | .views _ _ l => l ≠ [] ∧ ∀ n ∈ l, SayableTarget o n
  | .dotted K _ n => K ∈ dottedThings.map (·.2) ∧ SayableTarget o n
  | .plain K _ n => K ∈ plainThings.map (·.2) ∧ SayablePart o n
  | .index _ n tb => SayablePart o n ∧ (∀ t ∈ tb, SayableTarget o t) ∧ (o.dialect = .mariaDB → tb ≠ none) ∧ (o.dialect = .postgreSQL → tb = none)

end SqlParse
