/-!
Source text and byte spans.

A Rust `&str` is modelled by the list of its Unicode scalar values; byte offsets are recovered
with `Char.utf8Size` (core Lean), so that spans are byte ranges exactly as in the code.
-/
namespace SqlParse

open Lean in
/-- `c!"AB"` is the literal `['A', 'B'] : List Char` (a fully evaluated list, so that the kernel can
compute with it). -/
macro:max "c!" s:str : term => do
  let cs := s.getString.toList
  let elems ← cs.toArray.mapM fun c => pure (Syntax.mkCharLit c)
  `(([$elems,*] : List Char))

/-- span.rs:16 `pub type Span = core::ops::Range<usize>` -/
structure Span where
  start : Nat
  stop : Nat
  deriving DecidableEq, Repr

/-- Number of bytes of the UTF-8 encoding of a text (`str::len`). -/
def blen : List Char → Nat
  | [] => 0
  | c :: cs => c.utf8Size + blen cs

/-- Drop `n` bytes; `none` if that is not on a character boundary inside the text. -/
def dropBytes : List Char → Nat → Option (List Char)
  | l, 0 => some l
  | [], _ + 1 => none
  | c :: cs, n + 1 => if c.utf8Size ≤ n + 1 then dropBytes cs (n + 1 - c.utf8Size) else none

/-- Take `n` bytes; `none` if that is not on a character boundary inside the text. -/
def takeBytes : List Char → Nat → Option (List Char)
  | _, 0 => some []
  | [], _ + 1 => none
  | c :: cs, n + 1 =>
    if c.utf8Size ≤ n + 1 then (takeBytes cs (n + 1 - c.utf8Size)).map (c :: ·) else none

/-- Rust's `&src[a..b]` (issue.rs:65, issue.rs:117, lexer.rs:151): `none` is the panic that happens
when `a > b`, when the range is out of bounds or when it does not lie on character boundaries. -/
def slice (src : List Char) (a b : Nat) : Option (List Char) :=
  if a ≤ b then (dropBytes src a).bind (takeBytes · (b - a)) else none

end SqlParse
