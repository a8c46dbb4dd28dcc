import Verif.Lexer
import Verif.Spec.Words
/-! The positions at which the lexer can be, and the tokens it reads, in a call that parses `src`. -/
namespace SqlParse

/-- Lexer states reached over `src`: at the beginning, after a token, or after the data of `COPY .. FROM STDIN`. -/
inductive Reach (checked : Bool) (src : List Char) : Lexer → Prop where
  | start : Reach checked src (Lexer.new src)
  | token {lx lx' : Lexer} {t : Token} {sp : Span} (h : Reach checked src lx) (hn : lx.nextToken checked = .ok t sp lx') :
      Reach checked src lx'
  | stdin {lx lx' : Lexer} {d : List Char} {sp : Span} (h : Reach checked src lx) (hn : lx.readStdin = some (d, sp, lx')) :
      Reach checked src lx'

/-- `t` is a token of `src` with span `sp`. -/
def IsToken (checked : Bool) (src : List Char) (t : Token) (sp : Span) : Prop :=
  ∃ lx lx', Reach checked src lx ∧ lx.nextToken checked = .ok t sp lx'

/-- The text begins with `x'` or `X'`. -/
def HexAt (l : List Char) : Prop := ∃ c r, (c = 'x' ∨ c = 'X') ∧ l = c :: '\'' :: r

/-- The text begins with `$N` where `N` does not fit in a `usize` (of 64 bits). -/
def HugeArgAt (l : List Char) : Prop :=
  ∃ ds r, l = '$' :: (ds ++ r) ∧ (∀ c ∈ ds, isDig c = true) ∧ usizeMod ≤ numberOf ds

end SqlParse
