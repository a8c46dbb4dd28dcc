import Verif.Spec.Script
import Verif.Spec.PrecTree
/-!
Specification of operator precedence, part 2: how the items of an expression are read, as a relation between parser
states.
-/
namespace SqlParse

/-- The parser states that can occur: a new parser, and whatever comes from running programs. -/
inductive Reachable : St → Prop where
  | new {checked : Bool} {src : List Char} {iss : Issues} {opts : Opts} {s : St} (h : St.new checked src iss opts = .ok () s) :
      Reachable s
  | run {s s' : St} {α : Type} {p : Prog α} {n : Nat} {a : α} (hs : Reachable s) (h : p.run n s = .ok a s') : Reachable s'
  | err {s s' : St} {α : Type} {p : Prog α} {n : Nat} (hs : Reachable s) (h : p.run n s = .err s') : Reachable s'

/-- Between `s` and `s'` the parser has gone past the token it was at. -/
def Passes (s s' : St) : Prop := s.token ≠ .eof ∧ (s.span.stop < s'.span.stop ∨ s'.token = .eof)

/-- An operand `e` is read between the states `s` and `s'`: an expression in parentheses, or something that is not made
with an operator.  It takes at least one token. -/
def Operand (s : St) (e : Ast) (s' : St) : Prop :=
  (s.token = .lParen ∨ e.isOperation = false) ∧ Passes s s'

/-- The state `s` goes over to `s'` by moving on by one token; an issue may be added before. -/
def Moves (s s' : St) : Prop := ∃ s1, MayLog s s1 ∧ Advance s1 s'

/-- `s'` is `s`, except that the parser may have looked one token ahead. -/
def Looks (s s' : St) : Prop := ∃ pk lx, s' = { s with peeked := pk, lx := lx }

/-- Reading an expression from state `s` to state `s'`: `after` says that the last item was an operand or a postfix
operator. -/
inductive Reads (inner : Bool) : (after : Bool) → St → List Item → St → Prop where
  /-- the end -/
  | stop {s s' : St} (h : Looks s s') : Reads inner true s [] s'
  | opd {s s1 s' : St} {e : Ast} {l : List Item} (h : Operand s e s1) (hr : Reads inner true s1 l s') :
      Reads inner false s (.opd e :: l) s'
  | un {s s1 s' : St} {op : UnOp} {l : List Item} (ho : unTok inner s.token = some op) (h : Advance s s1)
      (hr : Reads inner false s1 l s') : Reads inner false s (.un op s.span :: l) s'
  | bin {s s1 s' : St} {op : BinOp} {l : List Item} (ho : binTok inner s.token = some op) (h : Advance s s1)
      (hr : Reads inner false s1 l s') : Reads inner true s (.bin op s.span :: l) s'
  /-- `NOT LIKE` -/
  | notLike {s s1 s2 s' : St} {l : List Item} (hi : inner = false) (h1 : s.token.isKw .NOT = true) (h2 : Moves s s1)
      (h3 : s1.token.isKw .LIKE = true) (h4 : Advance s1 s2) (hr : Reads inner false s2 l s') :
      Reads inner true s (.bin .notLike (joinSpan s1.span s.span) :: l) s'
  /-- `IN (..)` -/
  | isIn {s s1 s' : St} {rhs : List Ast} {l : List Item} (hi : inner = false) (h1 : s.token.isKw .IN = true)
      (h2 : Passes s s1) (hr : Reads inner true s1 l s') :
      Reads inner true s (.post (.isIn rhs s.span false) :: l) s'
  /-- `NOT IN (..)` -/
  | notIn {s s1 s2 s' : St} {rhs : List Ast} {l : List Item} (hi : inner = false) (h1 : s.token.isKw .NOT = true)
      (h2 : Moves s s1) (h3 : s1.token.isKw .IN = true) (h4 : Passes s s2) (hr : Reads inner true s2 l s') :
      Reads inner true s (.post (.isIn rhs (joinSpan s1.span s.span) true) :: l) s'
  /-- `IS ..` -/
  | is {s s1 s' : St} {k : OAst} {sp : Span} {l : List Item} (hi : inner = false) (h1 : s.token.isKw .IS = true)
      (h2 : Passes s s1) (hr : Reads inner true s1 l s') :
      Reads inner true s (.post (.is k sp) :: l) s'

end SqlParse
