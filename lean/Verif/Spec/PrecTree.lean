import Verif.Ast
/-!
Specification of operator precedence.  An expression is read as a sequence of items (operands, binary, prefix and
postfix operators); a `PTree` is a way to group such a sequence.
-/
namespace SqlParse

/-- Postfix operators: `[NOT] IN (..)` and `IS [NOT] ..`. -/
inductive PostOp where
  | isIn (rhs : List Ast) (sp : Span) (neg : Bool)
  | is (k : OAst) (sp : Span)

/-- What an expression is made of. -/
inductive Item where
  | opd (e : Ast)
  | bin (op : BinOp) (sp : Span)
  | un (op : UnOp) (sp : Span)
  | post (p : PostOp)

/-- A grouping. -/
inductive PTree where
  | leaf (e : Ast)
  | bin (op : BinOp) (sp : Span) (l r : PTree)
  | un (op : UnOp) (sp : Span) (t : PTree)
  | post (p : PostOp) (t : PTree)

/-- The items of a tree, from left to right. -/
def PTree.inorder : PTree → List Item
  | .leaf e => [.opd e]
  | .bin op sp l r => l.inorder ++ .bin op sp :: r.inorder
  | .un op sp t => .un op sp :: t.inorder
  | .post p t => t.inorder ++ [.post p]

/-- The AST of a tree: Binary has the fields op, op_span, lhs, rhs; Unary: op, op_span, operand; In: lhs, rhs, in_span,
not_in; Is: operand, is, span. -/
def PTree.ast : PTree → Ast
  | .leaf e => e
  | .bin op sp l r => .node .Binary [.binop op, .span sp, l.ast, r.ast]
  | .un op sp t => .node .Unary [.unop op, .span sp, t.ast]
  | .post (.isIn rhs sp neg) t => .node .In [t.ast, .list rhs, .span sp, .bool neg]
  | .post (.is k sp) t => .node .Is [t.ast, k.ast, .span sp]

/-- Operators. -/
inductive Opr where
  | bin (op : BinOp)
  | un (op : UnOp)
  | post
  deriving DecidableEq

/-- The levels of precedence, from the operators that bind tightest to those that bind loosest (the order of
the priorities in expression.rs:945-991; note that it differs from SQL: here OR binds tighter than XOR, and XOR tighter
than AND). -/
def levels : List (List Opr) := [
  [.un .binary, .un .collate], [.un .logicalNot], [.un .minus], [.bin .bitXor],
  [.bin .mult, .bin .divide, .bin .div, .bin .mod], [.bin .add, .bin .subtract], [.bin .shiftLeft, .bin .shiftRight],
  [.bin .bitAnd], [.bin .bitOr],
  [.bin .eq, .bin .nullSafeEq, .bin .gtEq, .bin .gt, .bin .ltEq, .bin .lt, .bin .neq, .bin .like, .bin .notLike, .post],
  [.un .not], [.bin .or], [.bin .xor], [.bin .and]]

/-- The level of an operator. -/
def Opr.level (o : Opr) : Nat := levels.findIdx (fun l => decide (o ∈ l))

/-- Operators exposed on the left edge: they could take what comes before the tree as (part of) their left operand. -/
def PTree.leftEdge : PTree → List Opr
  | .leaf _ => []
  | .bin op _ l _ => .bin op :: l.leftEdge
  | .un _ _ _ => []
  | .post _ t => .post :: t.leftEdge

/-- Operators exposed on the right edge: they could take what comes after the tree as (part of) their right operand. -/
def PTree.rightEdge : PTree → List Opr
  | .leaf _ => []
  | .bin op _ _ r => .bin op :: r.rightEdge
  | .un op _ t => .un op :: t.rightEdge
  | .post _ _ => []

/-- The tree respects precedence: an operator's right operand exposes, on its left edge, only operators that bind
tighter; its left operand exposes, on its right edge, only operators that bind tighter or equally tight (so operators
of the same level group to the left). -/
def PTree.WellPrec : PTree → Prop
  | .leaf _ => True
  | .bin op _ l r => l.WellPrec ∧ r.WellPrec ∧ (∀ o ∈ l.rightEdge, o.level ≤ (Opr.bin op).level) ∧
      (∀ o ∈ r.leftEdge, o.level < (Opr.bin op).level)
  | .un op _ t => t.WellPrec ∧ ∀ o ∈ t.leftEdge, o.level < (Opr.un op).level
  | .post _ t => t.WellPrec ∧ ∀ o ∈ t.rightEdge, o.level ≤ Opr.post.level

/-- The binary operator a token stands for; in the restricted form of expressions (`inner`) there is only `&`. -/
def binTok (inner : Bool) (t : Token) : Option BinOp :=
  if inner then (if t = .ampersand then some .bitAnd else none)
  else match t with
  | .doublePipe => some .or | .doubleAmpersand => some .and
  | .eq => some .eq | .spaceship => some .nullSafeEq | .gtEq => some .gtEq | .gt => some .gt | .ltEq => some .ltEq
  | .lt => some .lt | .neq => some .neq | .shiftLeft => some .shiftLeft | .shiftRight => some .shiftRight
  | .ampersand => some .bitAnd | .pipe => some .bitOr | .minus => some .subtract | .plus => some .add
  | .div => some .divide | .mul => some .mult
  | .ident _ k =>
    if k = .OR then some .or else if k = .XOR then some .xor else if k = .AND then some .and
    else if k = .LIKE then some .like else none
  | _ => none

/-- The prefix operator a token stands for. -/
def unTok (inner : Bool) (t : Token) : Option UnOp :=
  match t with
  | .minus => some .minus
  | .exclamationMark => if inner then none else some .logicalNot
  | .ident _ k =>
    if k = .NOT then some .not else if inner then none else if k = .BINARY then some .binary
    else if k = .COLLATE then some .collate else none
  | _ => none

/-- The kinds of nodes that operators make. -/
def Ast.isOperation (a : Ast) : Bool :=
  match a with
  | .node k _ => decide (k ∈ [Kind.Binary, .Unary, .In, .Is])
  | _ => false

end SqlParse
