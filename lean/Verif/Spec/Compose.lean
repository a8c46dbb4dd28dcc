import Verif.Spec.Twin
import Verif.Spec.Ast
import Verif.Spec.Tokens
import Verif.Spec.Lexical
/-! Vocabulary for C44: what a text gives when it comes at a later place of a longer source. -/
namespace SqlParse

/-- The position `x` of a text, when the text is moved by `d` bytes; 0 may stay 0 (where the parser makes up a span). -/
def MovedPos (d x y : Nat) : Prop := y = x + d ∨ (x = 0 ∧ y = 0)
/-- A span, moved by `d` bytes. -/
def MovedSpan (d : Nat) (s t : Span) : Prop := MovedPos d s.start t.start ∧ MovedPos d s.stop t.stop

mutual
/-- The same AST, moved by `d` bytes, with `j` more arguments (`?`, `%s`, `$1`) and `k` more `_LIST_` before it. -/
inductive Moved (d j k : Nat) : Ast → Ast → Prop where
  | span {s t : Span} (h : MovedSpan d s t) : Moved d j k (.span s) (.span t)
  | str (v : List Char) : Moved d j k (.str v) (.str v)
  | nat (n : Nat) : Moved d j k (.nat n) (.nat n)
  | bool (b : Bool) : Moved d j k (.bool b) (.bool b)
  | ident (v : List Char) {s t : Span} (h : MovedSpan d s t) : Moved d j k (.ident v s) (.ident v t)
  | sstring (v : List Char) {s t : Span} (h : MovedSpan d s t) : Moved d j k (.sstring v s) (.sstring v t)
  | binop (o : BinOp) : Moved d j k (.binop o) (.binop o)
  | unop (o : UnOp) : Moved d j k (.unop o) (.unop o)
  | none : Moved d j k .none .none
  | some {a b : Ast} (h : Moved d j k a b) : Moved d j k (.some a) (.some b)
  | list {l m : List Ast} (h : MovedAll d j k l m) : Moved d j k (.list l) (.list m)
  | node {c : Kind} (hc : c ≠ .Arg ∧ c ≠ .ListHack) {l m : List Ast} (h : MovedAll d j k l m) : Moved d j k (.node c l) (.node c m)
  | arg {i : Nat} {s t : Span} (h : MovedSpan d s t) : Moved d j k (.node .Arg [.nat i, .span s]) (.node .Arg [.nat (i + j), .span t])
  | listHack {i : Nat} {s t : Span} (h : MovedSpan d s t) :
      Moved d j k (.node .ListHack [.nat i, .span s]) (.node .ListHack [.nat (i + k), .span t])
inductive MovedAll (d j k : Nat) : List Ast → List Ast → Prop where
  | nil : MovedAll d j k [] []
  | cons {a b : Ast} {l m : List Ast} (h : Moved d j k a b) (hl : MovedAll d j k l m) : MovedAll d j k (a :: l) (b :: m)
end

/-- The same issue, moved by `d` bytes. -/
def MovedIssue (d : Nat) (i j : Issue) : Prop :=
  i.level = j.level ∧ i.message.text = j.message.text ∧ MovedSpan d i.span j.span ∧
    Each (fun f g => f.message = g.message ∧ MovedSpan d f.span g.span) i.fragments j.fragments

/-- By how much the numbers of arguments differ if there are `k` markers before: not at all for the numbered arguments `$1`, `$2`. -/
def argsBefore (opts : Opts) (k : Nat) : Nat := if opts.arguments = .dollar then 0 else k

/-- The tokens of `src` are `toks` and, at its very end, a `;`. -/
def EndsInSemicolon (checked : Bool) (src : List Char) (toks : List (Token × Span)) : Prop :=
  ∃ p, TokensOf checked src (toks ++ [(.semiColon, ⟨p, blen src⟩), (.eof, ⟨blen src, blen src⟩)])

/-- A statement begins with the token `t`: it is the first one, or comes directly after a `;`. -/
def BeginsWith (toks : List (Token × Span)) (t : Token) : Prop :=
  ∃ sp, (∃ post, toks = (t, sp) :: post) ∨ ∃ pre p post, toks = pre ++ (.semiColon, p) :: (t, sp) :: post

/-- The tokens do not contain compound statements (in which a `;` does not end the statement): there is no `$$` and no TRIGGER; and there is no THEN,
or there is no FUNCTION and no statement begins with IF, CASE or WITH. -/
def Flat (toks : List (Token × Span)) : Prop :=
  (∀ sp, (.doubleDollar, sp) ∉ toks) ∧ ¬ Occurs .TRIGGER toks ∧
    (¬ Occurs .THEN toks ∨ (¬ Occurs .FUNCTION toks ∧ ∀ v, ¬ BeginsWith toks (.ident v .IF) ∧ ¬ BeginsWith toks (.ident v .CASE) ∧ ¬ BeginsWith toks (.ident v .WITH)))

/-- The source `a`, which gives the statements `la` and issues `ia`, can be put before any other source: parsing `a` followed by `b` (with blanks and comments
`u` in between) gives `la` and `ia`, and then what `b` gives on its own, moved; it panics or does not end if that is so for `b`.  `L` are the places of the
argument markers of `a`. -/
def Composes (chk : Bool) (opts : Opts) (a : List Char) (old ia : List Issue) (la : List SAst) : Prop :=
    ∃ L : List Span, L.Pairwise (fun a b => a.stop ≤ b.start) ∧
      (∀ sp ∈ L, sp.start < sp.stop ∧ ∃ t, isMarker opts t ∧ IsToken chk a t sp) ∧
      (∀ v ∈ la, ∀ i sp, ((v.ast.HasArg i sp ∧ opts.arguments ≠ .dollar) ∨ v.ast.HasListHack i sp) → L[i]? = some sp) ∧
      ∀ (u b : List Char) (old' : List Issue), Skipped u b →
        (∀ lb ib, Api.many.Returns chk b ⟨b, old'⟩ opts lb (old' ++ ib) →
          ∃ lb' ib', Api.many.Returns chk (a ++ (u ++ b)) ⟨a ++ (u ++ b), old⟩ opts (la ++ lb') (old ++ (ia ++ ib')) ∧
            MovedAll (blen (a ++ u)) (argsBefore opts L.length) L.length (lb.map (·.ast)) (lb'.map (·.ast)) ∧
            Each (MovedIssue (blen (a ++ u))) ib ib') ∧
        (∀ m, Api.many.Panics chk b ⟨b, old'⟩ opts m → Api.many.Panics chk (a ++ (u ++ b)) ⟨a ++ (u ++ b), old⟩ opts m) ∧
        (Api.many.Hangs chk b ⟨b, old'⟩ opts → Api.many.Hangs chk (a ++ (u ++ b)) ⟨a ++ (u ++ b), old⟩ opts)

end SqlParse
