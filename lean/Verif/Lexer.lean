import Verif.Token
/-!
Model of /repo/src/lexer.rs.

`chars : Peekable<CharIndices>` is the pair of the byte offset of the next character and the list of
characters still to be read.
-/
namespace SqlParse

/-- lexer.rs:137-140 `struct Lexer`; `pos` is the offset the next `chars.next()` would report (or
`src.len()` at the end), `rest` what it would still yield. -/
structure Lexer where
  src : List Char
  pos : Nat
  rest : List Char
  deriving DecidableEq, Repr

/-- lexer.rs:143-148 `Lexer::new` -/
def Lexer.new (src : List Char) : Lexer := ⟨src, 0, src⟩

/-- Result of lexing: a token with its span and the new lexer, or a panic. -/
inductive LexOut where
  | ok (t : Token) (sp : Span) (lx : Lexer)
  | panic (msg : String)
  deriving DecidableEq, Repr

/-- '0'..='9' -/
def isDig (c : Char) : Bool := decide ('0'.toNat ≤ c.toNat) && decide (c.toNat ≤ '9'.toNat)
/-- 'a'..='z' -/
def isLow (c : Char) : Bool := decide ('a'.toNat ≤ c.toNat) && decide (c.toNat ≤ 'z'.toNat)
/-- 'A'..='Z' -/
def isUp (c : Char) : Bool := decide ('A'.toNat ≤ c.toNat) && decide (c.toNat ≤ 'Z'.toNat)
/-- lexer.rs:157 `'_' | 'a'..='z' | 'A'..='Z' | '0'..='9'` -/
def isWord (c : Char) : Bool := c == '_' || isLow c || isUp c || isDig c
/-- lexer.rs:444 `'_' | 'a'..='z' | 'A'..='Z'` -/
def isWordStart (c : Char) : Bool := c == '_' || isLow c || isUp c

/-- `u8::to_ascii_uppercase` on one character -/
def upChar (c : Char) : Char := if isLow c then Char.ofNat (c.toNat - 32) else c
/-- `str::to_ascii_uppercase` -/
def upper (l : List Char) : List Char := l.map upChar

/-- `while matches!(self.chars.peek(), Some((_, p))) { self.chars.next(); }` -/
def skipWhile (p : Char → Bool) (pos : Nat) : List Char → Nat × List Char
  | [] => (pos, [])
  | c :: cs => if p c then skipWhile p (pos + c.utf8Size) cs else (pos, c :: cs)

/-- lexer.rs:406, 433 `while !matches!(self.chars.next(), Some((_, '\r' | '\n')) | None) {}` -/
def skipLine (pos : Nat) : List Char → Nat × List Char
  | [] => (pos, [])
  | c :: cs => if c == '\r' || c == '\n' then (pos + c.utf8Size, cs) else skipLine (pos + c.utf8Size) cs

/-- lexer.rs:414-425 the body of a `/* */` comment; `none`: not closed. -/
def skipComment (pos : Nat) : List Char → Option (Nat × List Char)
  | [] => none
  | c :: cs =>
    if c == '*' then
      match cs with
      | d :: ds => if d == '/' then some (pos + c.utf8Size + d.utf8Size, ds) else skipComment (pos + c.utf8Size) (d :: ds)
      | [] => none
    else skipComment (pos + c.utf8Size) cs

/-- lexer.rs:461-475, 476-490: the rest of a quoted string after the opening quote `q`: result is
the offset of the closing quote and the position after it; `none`: not closed. -/
def scanQuote (q : Char) (pos : Nat) : List Char → Option (Nat × Nat × List Char)
  | [] => none
  | c :: cs =>
    if c == '\\' then
      match cs with
      | d :: ds => scanQuote q (pos + c.utf8Size + d.utf8Size) ds
      | [] => none
    else if c == q then
      match cs with
      | d :: ds =>
        if d == q then scanQuote q (pos + c.utf8Size + d.utf8Size) ds
        else some (pos, pos + c.utf8Size, d :: ds)
      | [] => some (pos, pos + c.utf8Size, [])
    else scanQuote q (pos + c.utf8Size) cs

/-- lexer.rs:265-316 the letters after `@@s`, `@@g`: consume while the next letter is the expected
one (either case); the Boolean says whether all letters were there. -/
def scanLetters (pos : Nat) : List Char → List Char → Bool × Nat × List Char
  | [], rest => (true, pos, rest)
  | w :: ws, c :: cs =>
    if upChar c == w then scanLetters (pos + c.utf8Size) ws cs else (false, pos, c :: cs)
  | _ :: _, [] => (false, pos, [])

/-- `char::to_digit(10)` for '0'..='9' -/
def digVal (c : Char) : Nat := c.toNat - '0'.toNat

/-- Size of the `usize` arithmetic (64 bit target). -/
def usizeMod : Nat := 2 ^ 64

/-- lexer.rs:338-342 the digits of `$N`; `checked` = overflow checks enabled (debug build: panic,
`none`), otherwise the arithmetic wraps. -/
def scanDollar (checked : Bool) (v pos : Nat) : List Char → Option (Nat × Nat × List Char)
  | [] => some (v, pos, [])
  | c :: cs =>
    if isDig c then
      let v' := v * 10 + digVal c
      if v' < usizeMod then scanDollar checked v' (pos + c.utf8Size) cs
      else if checked then none
      else scanDollar checked (v' % usizeMod) (pos + c.utf8Size) cs
    else some (v, pos, c :: cs)

/-- What one round of the `loop` in `next_token` does. -/
inductive LexStep where
  /-- `continue` -/
  | skip (pos : Nat) (rest : List Char)
  /-- a token; the new position -/
  | tok (t : Token) (pos : Nat) (rest : List Char)
  /-- a token whose text is the slice `a..b` of the source -/
  | text (mk : List Char → Token) (a b : Nat) (pos : Nat) (rest : List Char)
  | panic (msg : String)

/-- lexer.rs:154-167 `simple_literal`: the word and its keyword. -/
def mkWord (s : List Char) : Token := .ident s (Keyword.ofStr (upper s))

/-- lexer.rs:230-534 the `match c` of `next_token`: `start` is the offset of `c`, `pos` the offset
after it, `cs` the characters after it, `srcLen` is `src.len()`. -/
def lexChar (checked : Bool) (srcLen start : Nat) (c : Char) (pos : Nat) (cs : List Char) : LexStep :=
  let one (t : Token) : LexStep := .tok t pos cs
  /- `match self.chars.peek() { Some((_, d)) => { self.chars.next(); t } _ => u }` -/
  let two (d : Char) (t : Token) (els : LexStep) : LexStep :=
    match cs with
    | e :: es => if e == d then .tok t (pos + e.utf8Size) es else els
    | [] => els
  let word : LexStep :=
    let r := skipWhile isWord pos cs
    .text mkWord start r.1 r.1 r.2
  if c == ' ' || c == '\t' || c == '\n' || c == '\r' then .skip pos cs
  else if c == '?' then one .questionMark
  else if c == ';' then one .semiColon
  else if c == '\\' then one .backslash
  else if c == '[' then one .lBracket
  else if c == ']' then one .rBracket
  else if c == '&' then two '&' .doubleAmpersand (one .ampersand)
  else if c == '^' then one .caret
  else if c == '{' then one .lBrace
  else if c == '}' then one .rBrace
  else if c == '(' then one .lParen
  else if c == ')' then one .rParen
  else if c == ',' then one .comma
  else if c == '+' then one .plus
  else if c == '*' then one .mul
  else if c == '%' then two 's' .percentS (one .mod)
  else if c == '#' then one .sharp
  else if c == '@' then
    match cs with
    | '@' :: ds =>
      match ds with
      | e :: _ =>
        if upChar e == 'S' then
          let r := scanLetters (pos + 1) c!"SESSION" ds
          .tok (if r.1 then .atAtSession else .invalid) r.2.1 r.2.2
        else if upChar e == 'G' then
          let r := scanLetters (pos + 1) c!"GLOBAL" ds
          .tok (if r.1 then .atAtGlobal else .invalid) r.2.1 r.2.2
        else .tok .invalid (pos + 1) ds
      | [] => .tok .invalid (pos + 1) ds
    | _ => one .at
  else if c == '~' then one .tilde
  else if c == ':' then two ':' .doubleColon (one .colon)
  else if c == '$' then
    match cs with
    | e :: es =>
      if e == '$' then .tok .doubleDollar (pos + e.utf8Size) es
      else if isDig e && e != '0' then
        match scanDollar checked (digVal e) (pos + e.utf8Size) es with
        | some (v, pos', rest') => .tok (.dollarArg v) pos' rest'
        | none => .panic "attempt to multiply with overflow"
      else one .invalid
    | [] => one .invalid
  else if c == '=' then two '>' .rArrow (one .eq)
  else if c == '!' then two '=' .neq (two '!' .doubleExclamationMark (one .exclamationMark))
  else if c == '<' then
    match cs with
    | '=' :: '>' :: ds => .tok .spaceship (pos + 2) ds
    | '=' :: ds => .tok .ltEq (pos + 1) ds
    | '>' :: ds => .tok .neq (pos + 1) ds
    | '<' :: ds => .tok .shiftLeft (pos + 1) ds
    | _ => one .lt
  else if c == '>' then two '=' .gtEq (two '>' .shiftRight (one .gt))
  else if c == '|' then two '|' .doublePipe (one .pipe)
  else if c == '-' then
    match cs with
    | '-' :: _ => let r := skipLine pos cs; .skip r.1 r.2
    | _ => one .minus
  else if c == '/' then
    match cs with
    | '*' :: ds =>
      match skipComment (pos + 1) ds with
      | some (pos', rest') => .skip pos' rest'
      | none => .tok .invalid srcLen []
    | '/' :: _ => let r := skipLine pos cs; .skip r.1 r.2
    | _ => one .div
  else if c == 'x' || c == 'X' then
    match cs with
    | '\'' :: _ => .panic "not yet implemented: Hex literal"
    | _ => word
  else if isWordStart c then word
  else if c == '`' then
    let r := skipWhile (fun d => isWord d || d == '-') pos cs
    match r.2 with
    | '`' :: ds => .text (fun s => .ident s Keyword.QUOTED_IDENTIFIER) (start + 1) r.1 (r.1 + 1) ds
    | _ => .tok .invalid r.1 r.2
  else if c == '\'' then
    match scanQuote '\'' pos cs with
    | some (i, pos', rest') => .text .singleQuotedString (start + 1) i pos' rest'
    | none => .tok .invalid srcLen []
  else if c == '"' then
    match scanQuote '"' pos cs with
    | some (i, pos', rest') => .text .doubleQuotedString (start + 1) i pos' rest'
    | none => .tok .invalid srcLen []
  else if isDig c then
    let r := skipWhile isDig pos cs
    match r.2 with
    | '.' :: ds =>
      let r' := skipWhile isDig (r.1 + 1) ds
      .text .float start r'.1 r'.1 r'.2
    | _ => .text .integer start r.1 r.1 r.2
  else if c == '.' then
    match cs with
    | e :: _ =>
      if isDig e then
        let r := skipWhile isDig pos cs
        .text .float start r.1 r.1 r.2
      else one .period
    | [] => one .period
  else one .invalid

/-- lexer.rs:222-541 `next_token`.  The Rust `loop` is bounded here by `n`; `Lexer.nextToken` gives
one more round than there are characters, which is always enough (`nextLoop_fuel`). -/
def nextLoop (checked : Bool) (src : List Char) : Nat → Nat → List Char → LexOut
  | 0, _, _ => .panic "out of fuel"
  | _ + 1, _, [] => .ok .eof ⟨blen src, blen src⟩ ⟨src, blen src, []⟩
  | n + 1, start, c :: cs =>
    match lexChar checked (blen src) start c (start + c.utf8Size) cs with
    | .skip pos rest => nextLoop checked src n pos rest
    | .tok t pos rest => .ok t ⟨start, pos⟩ ⟨src, pos, rest⟩
    | .text mk a b pos rest =>
      match slice src a b with
      | some s => .ok (mk s) ⟨start, pos⟩ ⟨src, pos, rest⟩
      | none => .panic "slice"
    | .panic m => .panic m

/-- lexer.rs:222 `Lexer::next_token` -/
def Lexer.nextToken (checked : Bool) (lx : Lexer) : LexOut :=
  nextLoop checked lx.src (lx.rest.length + 1) lx.pos lx.rest

/-- lexer.rs:178 `c.is_ascii_whitespace()` without '\n' -/
def isStdinBlank (c : Char) : Bool :=
  c == ' ' || c == '\t' || c == '\r' || c == Char.ofNat 12

/-- lexer.rs:191-216 the `while let` loop of `read_from_stdin`: returns the end of the data and the
new position; `none`: no terminator line. -/
def stdinLoop (pos : Nat) : List Char → Option (Nat × Nat × List Char)
  | [] => none
  | c :: cs =>
    if c == '\n' then
      match cs with
      | '\\' :: '.' :: '\n' :: ds => some (pos + 1, pos + 4, ds)
      | '\\' :: '.' :: [] => some (pos + 1, pos + 3, [])
      | '\\' :: '.' :: d :: ds => stdinLoop (pos + 3) (d :: ds)
      | '\\' :: d :: ds => stdinLoop (pos + 2) (d :: ds)
      | '\\' :: [] => none
      | cs' => stdinLoop (pos + 1) cs'
    else stdinLoop (pos + c.utf8Size) cs

/-- lexer.rs:173-220 `read_from_stdin`: the data, its span and the new lexer; `none` is a panic. -/
def Lexer.readStdin (lx : Lexer) : Option (List Char × Span × Lexer) :=
  let r := skipWhile isStdinBlank lx.pos lx.rest
  let len := blen lx.src
  match r.2 with
  | [] => (slice lx.src len len).map fun s => (s, ⟨len, len⟩, ⟨lx.src, r.1, []⟩)
  | c :: cs =>
    let start := if c == '\n' then r.1 + 1 else r.1
    match stdinLoop r.1 (c :: cs) with
    | some (stop, pos', rest') =>
      (slice lx.src start stop).map fun s => (s, ⟨start, stop⟩, ⟨lx.src, pos', rest'⟩)
    | none => (slice lx.src start len).map fun s => (s, ⟨start, len⟩, ⟨lx.src, len, []⟩)

end SqlParse
