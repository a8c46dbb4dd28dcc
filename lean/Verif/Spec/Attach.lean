import Verif.Spec.Ast
import Verif.Model.Display
/-! Vocabulary for C53: issues that later stages report. -/
namespace SqlParse

/-- What a later stage wants to report: one issue, with its fragments. -/
structure Report where
  level : Level
  message : String
  span : Span
  fragments : List (String × Span)

/-- The calls that report it: `issues.err(..).frag(..).frag(..)` or `issues.warn(..).frag(..)`. -/
def Report.calls (r : Report) : List IssueCall :=
  (match r.level with
    | .error => IssueCall.err r.message r.span
    | .warning => IssueCall.warn r.message r.span) :: r.fragments.map fun f => .frag f.1 f.2

/-- The fragments are recorded in order, with the text of the source under their spans. -/
inductive FragsRecorded (src : List Char) : List (String × Span) → List Fragment → Prop where
  | nil : FragsRecorded src [] []
  | cons {m : String} {sp : Span} {text : List Char} {l : List (String × Span)} {fs : List Fragment} (h : SpanIs src sp text)
      (hl : FragsRecorded src l fs) : FragsRecorded src ((m, sp) :: l) (⟨m, sp, text⟩ :: fs)

/-- The reports are recorded in order: level, message, span, the text of the source under the span, and the fragments. -/
inductive Recorded (src : List Char) : List Report → List Issue → Prop where
  | nil : Recorded src [] []
  | cons {r : Report} {text : List Char} {fs : List Fragment} {rs : List Report} {is : List Issue} (h : SpanIs src r.span text)
      (hf : FragsRecorded src r.fragments fs) (hl : Recorded src rs is) : Recorded src (r :: rs) (⟨r.level, .plain r.message, r.span, text, fs⟩ :: is)

/-- The span of a part of a returned statement, or a span stored in it. -/
def PartSpan {α : Type} (api : Api α) (a : α) (sp : Span) : Prop :=
  ∃ v ∈ api.stmts a, v.ast.HasSpan sp ∨ ∃ b, v.ast.Has b ∧ b.spanRes = .some sp

end SqlParse
