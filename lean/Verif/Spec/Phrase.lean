import Verif.Spec.PrecTree
import Verif.Spec.Words
import Verif.Prog
/-!
Specification of the accepted language, part 1: phrases.

A grammar is given by relations `R ts a rest` between lists of tokens: the tokens `ts` begin with a phrase whose AST
is `a`, and `rest` are the tokens after it.  The list always ends with the token `eof`.
-/
namespace SqlParse

/-- A token with its span. -/
abbrev Tk := Token × Span

/-- Where there is COPY data: for the span of a token the text of the data after it, and the span of this text. -/
abbrev Data := Span → Option (List Char × Span)

/-- The data after a token: only `;` and `$$` are followed by data. -/
def Data.after (data : Data) (p : Tk) : Option (List Char × Span) :=
  if p.1 = .semiColon ∨ p.1 = .doubleDollar then data p.2 else none

/-- What the meaning of a phrase depends on: the options, whether compound statements are permitted (in the body of a
trigger), the delimiter of statements, which of the argument markers are arguments (`_LIST_` can also be a name), the number of each
argument, given by its span, and the COPY data.  (Data is not made of tokens: it is not in the lists of tokens.) -/
structure Env where
  opts : Opts
  permit : Bool
  delim : Token
  args : Span → Bool
  num : Span → Nat
  data : Data

/-- Is the token a numbered argument marker: `?`, `%s` or `_LIST_`, as selected by the options? -/
def marker (o : Opts) (t : Token) : Bool :=
  (decide (t = .questionMark) && decide (o.arguments = .questionMark)) ||
  (decide (t = .percentS) && decide (o.arguments = .percent)) || (t.isKw .«_LIST_» && o.listHack)

/-- Is the token an argument? -/
def argTk (o : Opts) (args : Span → Bool) (p : Tk) : Bool := marker o p.1 && args p.2

/-- The token is not an argument. -/
abbrev Env.noArg (e : Env) (p : Tk) : Prop := argTk e.opts e.args p = false

/-- The next token satisfies `q`. -/
def Next (q : Token → Prop) : List Tk → Prop
  | [] => False
  | (t, _) :: _ => q t

/-- The next token is not the keyword `k`. -/
abbrev NotKw (k : Keyword) : List Tk → Prop := Next fun t => t.isKw k = false

/-- The next token is none of the keywords `ks`. -/
abbrev NoKw (ks : List Keyword) : List Tk → Prop := Next fun t => ∀ k ∈ ks, t.isKw k = false

/-- A name: a word that is not reserved, or a quoted identifier (back quotes, in PostgreSQL double quotes). -/
inductive Idn (e : Env) : List Tk → Ast → List Tk → Prop where
  | word {v : List Char} {k : Keyword} {sp : Span} {r : List Tk} (hk : k.reserved = false)
      (hq : k = .QUOTED_IDENTIFIER → e.opts.dialect ≠ .postgreSQL) (hm : e.noArg (.ident v k, sp)) :
      Idn e ((.ident v k, sp) :: r) (.ident v sp) r
  | quoted {v : List Char} {sp : Span} {r : List Tk} (hd : e.opts.dialect = .postgreSQL) :
      Idn e ((.doubleQuotedString v, sp) :: r) (.ident v sp) r

/-- `name . name . ... . name`: the parts before the last one, each with the span of the dot after it, and the last. -/
inductive Dotted (e : Env) : List Tk → List (Ast × Span) → Ast → List Tk → Prop where
  | last {ts r : List Tk} {i : Ast} (h : Idn e ts i r) (hr : Next (· ≠ .period) r) : Dotted e ts [] i r
  | dot {ts r r' : List Tk} {i j : Ast} {d : Span} {p : List (Ast × Span)} (h : Idn e ts i ((.period, d) :: r))
      (hs : Dotted e r p j r') : Dotted e ts ((i, d) :: p) j r'

/-- A qualified name. -/
inductive QName (e : Env) : List Tk → Ast → List Tk → Prop where
  | mk {ts r : List Tk} {p : List (Ast × Span)} {i : Ast} (h : Dotted e ts p i r) :
      QName e ts (nd% QualifiedName [p, i]) r

/-- One or more adjacent string literals: their decoded texts one after the other, and the span of all. -/
inductive Strs : List Tk → List Char × Span → List Tk → Prop where
  | one {t : Token} {sp : Span} {v : List Char} {r : List Tk} (h : stringText t = some v)
      (hr : Next (fun t => stringText t = none) r) : Strs ((t, sp) :: r) (v, sp) r
  | cons {t : Token} {sp sp' : Span} {v v' : List Char} {r r' : List Tk} (h : stringText t = some v)
      (hs : Strs r (v', sp') r') : Strs ((t, sp) :: r) (v ++ v', joinSpan sp sp') r'

/-- A string literal. -/
inductive Str : List Tk → Ast → List Tk → Prop where
  | mk {ts r : List Tk} {v : List Char} {sp : Span} (h : Strs ts (v, sp) r) : Str ts (.sstring v sp) r

/-- An integer literal that is at most `max`. -/
inductive Num (max : Nat) : List Tk → Nat × Span → List Tk → Prop where
  | mk {v : List Char} {sp : Span} {r : List Tk} (h : numberOf v ≤ max) : Num max ((.integer v, sp) :: r) (numberOf v, sp) r

/-- `R , R , ... , R` -/
inductive CommaL {α : Type} (R : List Tk → α → List Tk → Prop) : List Tk → List α → List Tk → Prop where
  | one {ts r : List Tk} {a : α} (h : R ts a r) (hr : Next (· ≠ .comma) r) : CommaL R ts [a] r
  | cons {ts r r' : List Tk} {a : α} {sp : Span} {l : List α} (h : R ts a ((.comma, sp) :: r)) (hl : CommaL R r l r') :
      CommaL R ts (a :: l) r'

/-- The keywords `ks` one after the other: the span of all. -/
inductive Kws : List Keyword → List Tk → Span → List Tk → Prop where
  | one {k : Keyword} {t : Token} {sp : Span} {r : List Tk} (h : t.isKw k = true) : Kws [k] ((t, sp) :: r) sp r
  | cons {k k' : Keyword} {ks : List Keyword} {t : Token} {sp sp' : Span} {r r' : List Tk} (h : t.isKw k = true)
      (hs : Kws (k' :: ks) r sp' r') : Kws (k :: k' :: ks) ((t, sp) :: r) (joinSpan sp sp') r'

/-- Optional phrase introduced by the keyword `k`; it gets the span of the keyword. -/
inductive OptKw {α : Type} (k : Keyword) (R : Span → List Tk → α → List Tk → Prop) : List Tk → Option α → List Tk → Prop where
  | none {r : List Tk} (h : NotKw k r) : OptKw k R r none r
  | some {t : Token} {sp : Span} {ts r : List Tk} {a : α} (h : t.isKw k = true) (hr : R sp ts a r) :
      OptKw k R ((t, sp) :: ts) (some a) r

/-- Optional keyword: its span. -/
inductive OptK (k : Keyword) : List Tk → Option Span → List Tk → Prop where
  | none {r : List Tk} (h : NotKw k r) : OptK k r none r
  | some {t : Token} {sp : Span} {r : List Tk} (h : t.isKw k = true) : OptK k ((t, sp) :: r) (some sp) r

/-- Any number of keywords from a table. -/
inductive Flags (tbl : List (Keyword × Kind)) : List Tk → List Ast → List Tk → Prop where
  | nil {r : List Tk} (h : Next (fun t => tbl.lookup t.kw = none) r) : Flags tbl r [] r
  | cons {t : Token} {sp : Span} {K : Kind} {r r' : List Tk} {l : List Ast} (h : tbl.lookup t.kw = some K)
      (hr : Flags tbl r l r') : Flags tbl ((t, sp) :: r) (.node K [.span sp] :: l) r'

end SqlParse
