import Verif.Spec.Lexical
/-!
Specification of texts written token by token: which token texts may stand next to which following
character (`glued`), and when a text is a sequence of tokens with blanks and comments between them.
Independent of the lexer's functions.
-/
namespace SqlParse

/-- `glued w d`: written directly before the character `d`, the text `w` would become part of a longer
token or of a comment. -/
def glued (w : List Char) (d : Char) : Bool :=
  [(c!"&", '&'), (c!"%", 's'), (c!"@", '@'), (c!":", ':'), (c!"=", '>'), (c!"!", '='), (c!"!", '!'),
   (c!"<", '='), (c!"<", '>'), (c!"<", '<'), (c!"<=", '>'), (c!">", '='), (c!">", '>'), (c!"|", '|'),
   (c!"-", '-'), (c!"/", '*'), (c!"/", '/'), (c!"x", '\''), (c!"X", '\'')].contains (w, d) ||
  (w == c!"." && isDig d) || (w != [] && w.all isDig && d == '.')

/-- The token `t` is written as `w`, before `rest`, and does not run into it. -/
def Fits (checked : Bool) (t : Token) (w rest : List Char) : Prop :=
  t ≠ .invalid ∧ Lexeme checked t w rest ∧ NotHead (glued w) rest

/-- The characters with which a token, a blank or a comment can begin. -/
def starts (c : Char) : Bool := isWord c || c!" \t\n\r?;\\[]&^{}(),+*%#@~:$=!<>|-/`'\".".contains c

/-- The words that can follow `@@`. -/
def scopes : List (List Char) := [c!"SESSION", c!"GLOBAL"]

/-- `Junk w rest`: the text `w`, followed by `rest`, is not a token; it is read as one invalid token. -/
inductive Junk : List Char → List Char → Prop where
  /-- a character with which nothing can begin -/
  | char (c : Char) (rest : List Char) (h : starts c = false) : Junk [c] rest
  /-- a `$` that is not followed by a `$` or by a number -/
  | dollar (rest : List Char) (h : NotHead (fun d => d == '$' || (isDig d && d != '0')) rest) : Junk ['$'] rest
  /-- `@@` and only a part of SESSION or GLOBAL, as long as possible -/
  | atAt (u rest k : List Char) (hk : k ∈ scopes) (h : upper u <+: k) (hu : upper u ≠ k)
      (hr : ∀ k' ∈ scopes, ∀ c ∈ rest.head?, ¬ upper (u ++ [c]) <+: k') : Junk ('@' :: '@' :: u) rest
  /-- a comment that is not closed -/
  | comment (body : List Char) (h : ¬ ['*', '/'] <:+: body) : Junk ('/' :: '*' :: body) []
  /-- a quoted identifier that is not closed -/
  | backQuote (u rest : List Char) (h : ∀ c ∈ u, isWord c = true ∨ c = '-')
      (hr : NotHead (fun d => isWord d || d == '-' || d == '`') rest) : Junk ('`' :: u) rest
  /-- a string that is not closed -/
  | quote (q : Char) (body : List Char) (hq : q = '\'' ∨ q = '"')
      (h : ¬ ∃ b r, body = b ++ q :: r ∧ QuoteBody q b ∧ NotHead (· == q) r) : Junk (q :: body) []

/-- The text `w`, followed by `rest`, is read as the token `t`: it is a writing of `t`, or it is nothing and `t` is the invalid token. -/
def ReadsAs (checked : Bool) (t : Token) (w rest : List Char) : Prop :=
  Fits checked t w rest ∨ (t = .invalid ∧ Junk w rest)

/-- `Written checked o l toks`: the text `l`, which begins at byte offset `o` of the source, is the tokens
`toks` in this order, each written at its span, with blanks and comments (`Skipped`) before, between and
after them. -/
inductive Written (checked : Bool) : Nat → List Char → List (Token × Span) → Prop where
  | nil (o : Nat) (u : List Char) (h : Skipped u []) : Written checked o u []
  | cons (o : Nat) (u w rest : List Char) (t : Token) (toks : List (Token × Span)) (ht : t ≠ .eof)
      (hs : Skipped u (w ++ rest)) (hf : ReadsAs checked t w rest)
      (h : Written checked (o + blen u + blen w) rest toks) :
      Written checked o (u ++ (w ++ rest)) ((t, ⟨o + blen u, o + blen u + blen w⟩) :: toks)

end SqlParse
