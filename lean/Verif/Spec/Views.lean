import Verif.Spec.Alterations
/-!
Vocabulary for the property that CREATE VIEW statements are read back as they were written: the view without positions (`ViewDef`), over the queries
of Spec/Queries, the tokens it can be spelled with (`SpellsView`), and which ASTs stand for it (`MeansView`).
-/
namespace SqlParse

/-- A view that is created. -/
structure ViewDef where
  /-- OR REPLACE, TEMPORARY -/
  create : List Kind
  ifNotExists : Bool
  name : Target
  query : Query

/-- The tokens create the view. -/
inductive SpellsView (o : Opts) : ViewDef → List Token → Prop where
  | mk {cr : List Kind} {i : Bool} {n : Target} {q : Query} {c t a : Token} {xs is ns qs : List Token} (hc : c.isKw .CREATE = true)
      (hx : Row SpellsCreate cr xs) (ht : t.isKw .VIEW = true) (hi : SpellsIfNot i is) (hn : SpellsTarget o n ns) (ha : a.isKw .AS = true)
      (hq : SpellsQuery o q qs) : SpellsView o ⟨cr, i, n, q⟩ (c :: (xs ++ t :: (is ++ (ns ++ a :: qs))))

/-- The AST is the view, whatever the spans in it are. -/
inductive MeansView : ViewDef → Ast → Prop where
  | mk {d : ViewDef} {c t s : Span} {cr i n q : Ast} (hc : ListOf MeansWord d.create cr) (hi : MeansFlag d.ifNotExists i) (hn : MeansTarget d.name n)
      (hq : MeansQuery d.query q) : MeansView d (.node .CreateView [.span c, cr, .span t, i, n, .span s, q])

/-- The view with `f` of the expressions of its query. -/
def ViewDef.mapE (f : Expr → Expr) (d : ViewDef) : ViewDef := { d with query := d.query.mapE f }

/-- The view can be written: its name and its query can be. -/
def ViewDef.Sayable (o : Opts) (d : ViewDef) : Prop :=
  (∀ K ∈ d.create, K ∈ createPhrases.map (·.2)) ∧ SayableTarget o d.name ∧ d.query.Sayable o

end SqlParse
