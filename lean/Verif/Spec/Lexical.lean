import Verif.Lexer
import Verif.Spec.Words
/-!
Specification of the lexical structure: what may be skipped between tokens (`Trivia`) and which source
text a token stands for (`Lexeme`).  Independent of the lexer's functions (only character classes and
the keyword table are shared).
-/
namespace SqlParse

/-- The text does not begin with a character satisfying `p`. -/
def NotHead (p : Char → Bool) (l : List Char) : Prop := ∀ c ∈ l.head?, p c = false

/-- Skipped text: `Trivia u rest` says that `u`, followed by `rest`, is one blank or one comment. -/
inductive Trivia : List Char → List Char → Prop where
  /-- space, tab, newline, carriage return -/
  | blank (c : Char) (rest : List Char) (h : c = ' ' ∨ c = '\t' ∨ c = '\n' ∨ c = '\r') : Trivia [c] rest
  /-- `-- ...` or `// ...` up to and including the end of the line -/
  | line (a e : Char) (body rest : List Char) (ha : a = '-' ∨ a = '/')
      (hb : ∀ c ∈ body, c ≠ '\n' ∧ c ≠ '\r') (he : e = '\n' ∨ e = '\r') :
      Trivia (a :: a :: (body ++ [e])) rest
  /-- a line comment that ends the source -/
  | lastLine (a : Char) (body : List Char) (ha : a = '-' ∨ a = '/')
      (hb : ∀ c ∈ body, c ≠ '\n' ∧ c ≠ '\r') : Trivia (a :: a :: body) []
  /-- `/* ... */`, ended by the first `*/` -/
  | block (body rest : List Char) (hb : ¬ ['*', '/'] <:+: body) :
      Trivia ('/' :: '*' :: (body ++ ['*', '/'])) rest

/-- Any number of blanks and comments. -/
inductive Skipped : List Char → List Char → Prop where
  | nil (rest : List Char) : Skipped [] rest
  | cons (u us rest : List Char) (h : Trivia u (us ++ rest)) (hs : Skipped us rest) : Skipped (u ++ us) rest

/-- The text between the quotes `q` of a string literal: plain characters, backslash pairs, doubled
quotes. -/
inductive QuoteBody (q : Char) : List Char → Prop where
  | nil : QuoteBody q []
  | plain (c : Char) (l : List Char) (h1 : c ≠ '\\') (h2 : c ≠ q) (h : QuoteBody q l) : QuoteBody q (c :: l)
  | escape (d : Char) (l : List Char) (h : QuoteBody q l) : QuoteBody q ('\\' :: d :: l)
  | double (l : List Char) (h : QuoteBody q l) : QuoteBody q (q :: q :: l)

/-- The fixed text of punctuation tokens. -/
def punct : Token → Option (List (List Char))
  | .ampersand => some [c!"&"] | .at => some [c!"@"] | .backslash => some [c!"\\"]
  | .caret => some [c!"^"] | .colon => some [c!":"] | .comma => some [c!","] | .div => some [c!"/"]
  | .doubleColon => some [c!"::"] | .doubleExclamationMark => some [c!"!!"]
  | .doubleAmpersand => some [c!"&&"] | .doublePipe => some [c!"||"] | .doubleDollar => some [c!"$$"]
  | .eq => some [c!"="] | .exclamationMark => some [c!"!"] | .gt => some [c!">"] | .gtEq => some [c!">="]
  | .lBrace => some [c!"{"] | .lBracket => some [c!"["] | .lParen => some [c!"("] | .lt => some [c!"<"]
  | .ltEq => some [c!"<="] | .minus => some [c!"-"] | .mod => some [c!"%"] | .mul => some [c!"*"]
  | .neq => some [c!"!=", c!"<>"] | .period => some [c!"."] | .pipe => some [c!"|"] | .plus => some [c!"+"]
  | .questionMark => some [c!"?"] | .rArrow => some [c!"=>"] | .rBrace => some [c!"}"]
  | .rBracket => some [c!"]"] | .rParen => some [c!")"] | .semiColon => some [c!";"]
  | .sharp => some [c!"#"] | .shiftLeft => some [c!"<<"] | .shiftRight => some [c!">>"]
  | .spaceship => some [c!"<=>"] | .tilde => some [c!"~"] | .percentS => some [c!"%s"]
  | _ => none

/-- `Lexeme checked t w rest`: the token `t` may stand for the source text `w` followed by `rest`. -/
def Lexeme (checked : Bool) (t : Token) (w rest : List Char) : Prop :=
  match t with
  /- a word, as long as possible; or a quoted identifier without its back quotes -/
  | .ident s k =>
    (w = s ∧ s ≠ [] ∧ (∀ c ∈ s, isWord c = true) ∧ (∀ c ∈ s.head?, isDig c = false) ∧ NotHead isWord rest ∧
      k = Keyword.ofStr (upper s)) ∨
    (w = '`' :: (s ++ ['`']) ∧ (∀ c ∈ s, isWord c = true ∨ c = '-') ∧ k = Keyword.QUOTED_IDENTIFIER)
  | .integer s => w = s ∧ s ≠ [] ∧ (∀ c ∈ s, isDig c = true) ∧ NotHead isDig rest
  | .float s => w = s ∧ ∃ a b, s = a ++ '.' :: b ∧ (∀ c ∈ a, isDig c = true) ∧ (∀ c ∈ b, isDig c = true) ∧
      (a ≠ [] ∨ b ≠ []) ∧ NotHead isDig rest
  | .singleQuotedString s => w = '\'' :: (s ++ ['\'']) ∧ QuoteBody '\'' s ∧ NotHead (· == '\'') rest
  | .doubleQuotedString s => w = '"' :: (s ++ ['"']) ∧ QuoteBody '"' s ∧ NotHead (· == '"') rest
  | .dollarArg n => ∃ ds, w = '$' :: ds ∧ ds ≠ [] ∧ (∀ c ∈ ds, isDig c = true) ∧
      (∀ c ∈ ds.head?, c ≠ '0') ∧ NotHead isDig rest ∧
      (if checked then n = numberOf ds ∧ n < usizeMod else n = numberOf ds % usizeMod)
  | .atAtGlobal => upper w = c!"@@GLOBAL"
  | .atAtSession => upper w = c!"@@SESSION"
  | .eof => w = [] ∧ rest = []
  | .invalid => w ≠ []
  | t => ∃ l, punct t = some l ∧ w ∈ l

end SqlParse
