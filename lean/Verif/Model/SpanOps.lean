import Verif.Ast
/-! Model of the operations of /repo/src/span.rs on spans that are there (no panicking `expect`). -/
namespace SqlParse

/-- span.rs:40-47 `join_span`, the other span may be missing -/
def joinOpt (l : Span) : Option Span → Span
  | some r => ⟨min l.start r.start, max l.stop r.stop⟩
  | none => l

/-- span.rs:25-31 `opt_join_span` -/
def optJoin (l r : Option Span) : Option Span :=
  match l with
  | some l => some (joinOpt l r)
  | none => r

/-- span.rs:77-87 `opt_span` of `Vec` and slices: `self.iter().fold(None, |a, b| a.opt_join_span(b))` -/
def vecSpan (l : List (Option Span)) : Option Span := l.foldl optJoin none

/-- span.rs:137-141 `span` of a pair `(S, O)` -/
def pairSpan (a : Span) (b : Option Span) : Span := joinOpt a b

/-- span.rs:143-147 `span` of a triple -/
def tripleSpan (a : Span) (b c : Option Span) : Span := joinOpt (joinOpt a b) c

end SqlParse
