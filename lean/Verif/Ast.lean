import Verif.Token
import Verif.Gen.Kinds
/-!
AST values.

The Rust AST (some 150 structs and enums) is modelled by uniform trees: `node k fields` is the
struct or enum variant named by `k` (an enum variant `E::V` is the kind `E_V`), with its fields in
the order given in the comment where the node is built.  `Box` is ignored, `Statement::X(X{..})` and
similar one-field wrappers around a struct are collapsed.
-/
namespace SqlParse

/-- expression.rs:229-253 `enum BinaryOperator` -/
inductive BinOp where
  | or | xor | and | eq | nullSafeEq | gtEq | gt | ltEq | lt | neq | shiftLeft | shiftRight
  | bitAnd | bitOr | bitXor | add | subtract | divide | div | mod | mult | like | notLike
  deriving DecidableEq, Repr

/-- expression.rs:270-276 `enum UnaryOperator` -/
inductive UnOp where
  | binary | collate | logicalNot | minus | not
  deriving DecidableEq, Repr

/-- AST trees. -/
inductive Ast where
  /-- a stored span -/
  | span (s : Span)
  /-- `&str` payload -/
  | str (s : List Char)
  /-- integer payload -/
  | nat (n : Nat)
  | bool (b : Bool)
  /-- identifier.rs:20-25 `struct Identifier` -/
  | ident (value : List Char) (sp : Span)
  /-- sstring.rs:19-24 `struct SString` -/
  | sstring (value : List Char) (sp : Span)
  | binop (o : BinOp)
  | unop (o : UnOp)
  /-- `Option` -/
  | none
  | some (a : Ast)
  /-- `Vec` -/
  | list (l : List Ast)
  /-- struct, enum variant or tuple -/
  | node (k : Kind) (fs : List Ast)
  deriving Repr

/-- An AST value whose Rust type only has an optional span (`OptSpanned`) or no span at all. -/
structure OAst where
  ast : Ast
  deriving Repr

/-- A statement (or a part of one that contains statements): calling `span()` on it may panic, see
`kindIsBlock`. -/
structure SAst where
  ast : Ast
  deriving Repr

/-- How a Lean value is stored in a field. -/
class ToF (α : Type) where
  toF : α → Ast
export ToF (toF)

instance : ToF Span := ⟨Ast.span⟩
instance : ToF Ast := ⟨id⟩
instance : ToF OAst := ⟨OAst.ast⟩
instance : ToF SAst := ⟨SAst.ast⟩
instance : ToF Nat := ⟨Ast.nat⟩
instance : ToF Bool := ⟨Ast.bool⟩
instance : ToF (List Char) := ⟨Ast.str⟩
instance : ToF BinOp := ⟨Ast.binop⟩
instance : ToF UnOp := ⟨Ast.unop⟩
instance {α : Type} [ToF α] : ToF (Option α) where
  toF
    | .none => Ast.none
    | .some a => Ast.some (toF a)
instance (priority := low) {α : Type} [ToF α] : ToF (List α) := ⟨fun l => Ast.list (l.map toF)⟩
instance {α β : Type} [ToF α] [ToF β] : ToF (α × β) := ⟨fun p => .node .Tuple [toF p.1, toF p.2]⟩

/-- `nd% K [a, b]` is the node of kind `K` with fields `a`, `b`. -/
macro "nd%" k:ident "[" xs:term,* "]" : term => do
  let kn := Lean.mkIdent (`SqlParse.Kind ++ k.getId)
  `(Ast.node $kn [$[toF $xs],*])

/-- As `nd%`, for a type without mandatory span. -/
macro "ond%" k:ident "[" xs:term,* "]" : term => do
  let kn := Lean.mkIdent (`SqlParse.Kind ++ k.getId)
  `(OAst.mk (Ast.node $kn [$[toF $xs],*]))

/-- As `nd%`, for statements. -/
macro "snd%" k:ident "[" xs:term,* "]" : term => do
  let kn := Lean.mkIdent (`SqlParse.Kind ++ k.getId)
  `(SAst.mk (Ast.node $kn [$[toF $xs],*]))

/-- span.rs:40-47 `join_span` -/
def joinSpan (a b : Span) : Span := ⟨min a.start b.start, max a.stop b.stop⟩

/-- Result of `span()` / `opt_span()`: no span, a span, or the panic of
`.expect("Span of block")` (statement.rs:451, 463) on an empty block. -/
inductive SpanRes where
  | none
  | some (s : Span)
  | panic
  deriving DecidableEq, Repr

/-- span.rs:25-31, 40-47 `opt_join_span` -/
def SpanRes.join : SpanRes → SpanRes → SpanRes
  | .panic, _ => .panic
  | _, .panic => .panic
  | .none, b => b
  | a, .none => a
  | .some a, .some b => .some (joinSpan a b)

/-- span.rs:77-81 `impl OptSpanned for Vec` and the chains of `join_span` in the `Spanned` impls. -/
def joinAll : List SpanRes → SpanRes
  | [] => .none
  | a :: l => a.join (joinAll l)

/-- The fields (by position) a node's `span()` leaves out, where the Rust implementation does not join
all of them:
select.rs:641-655 Select: locking;  drop.rs:57-65 DropTable: cascade;  insert_replace.rs:245-258 InsertReplace:
columns;  create.rs:557-568 CreateFunction: params, returns_span;  create.rs:999-1013 CreateIndex: if_not_exists. -/
def kindOmit (k : Kind) : List Nat :=
  if k = .Select then [11]
  else if k = .DropTable then [5]
  else if k = .InsertReplace then [4]
  else if k = .CreateFunction then [5, 6]
  else if k = .CreateIndex then [4]
  else []

/-- statement.rs:451, 463 `Statement::Block(v) | Statement::Do(v) => v.opt_span().expect("Span of block")` -/
def kindIsBlock (k : Kind) : Bool := decide (k = .Statement_Block) || decide (k = .Statement_Do)

mutual
/-- The `Spanned` / `OptSpanned` implementations: `span()` of a node joins the spans of its fields
except those listed in `kindOmit`. -/
def Ast.spanRes : Ast → SpanRes
  | .span s => .some s
  | .str _ => .none
  | .nat _ => .none
  | .bool _ => .none
  | .ident _ sp => .some sp
  | .sstring _ sp => .some sp
  | .binop _ => .none
  | .unop _ => .none
  | .none => .none
  | .some a => a.spanRes
  | .list l => spanResList [] 0 l
  | .node k fs =>
    match spanResList (kindOmit k) 0 fs with
    | .none => if kindIsBlock k then .panic else .none
    | r => r
/-- Join of the spans of the fields, `i` is the position of the first. -/
def spanResList (om : List Nat) (i : Nat) : List Ast → SpanRes
  | [] => .none
  | a :: l => if om.contains i then spanResList om (i + 1) l else a.spanRes.join (spanResList om (i + 1) l)
end

end SqlParse
