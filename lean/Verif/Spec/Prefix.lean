import Verif.Spec.Twin
/-! Vocabulary for C52: what a call says was expected, and where. -/
namespace SqlParse

/-- The fixed messages about something that was expected: expression.rs:1009, 1130, 1162, 1207, 1615, 1268, 1283, 1309, 1439, 1265. -/
def syntaxMessages : List String :=
  ["Expected expression", "Expected expression before here", "Expected expression before here 2", "Expected expression before here 3",
   "Expected expression before here 4", "Expected time unit", "Expected integer or string"]

/-- The message is about something that was expected: "Expected '...' here", or one of the fixed ones. -/
def Msg.isSyntax : Msg → Bool
  | .expected _ => true
  | .plain s => syntaxMessages.contains s
  | _ => false

/-- Level, message and span of the issues about something expected that start before byte `p`, in order. -/
def expectedBefore (p : Nat) (l : List Issue) : List (Level × Msg × Span) :=
  (l.filter fun i => i.message.isSyntax && decide (i.span.start < p)).map fun i => (i.level, i.message, i.span)

end SqlParse
