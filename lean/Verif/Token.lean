import Verif.Gen.Keywords
namespace SqlParse

/-- keywords.rs:27-34 `impl From<&str> for Keyword`: search `w` in the word list; `i` is the enum
position of the head of the list. -/
def kwSearch (w : List Char) : List (List Char) → Nat → Keyword
  | [], _ => Keyword.NOT_A_KEYWORD
  | n :: ns, i => if w = n then ⟨i⟩ else kwSearch w ns (i + 1)

/-- keywords.rs:27-34 `Keyword::from(&str)`. -/
def Keyword.ofStr (w : List Char) : Keyword := kwSearch w kwNames 2

/-- keywords.rs:37-43 `Keyword::name`, for the words (`none` for the two variants that are not words, see `Keyword.text`). -/
def Keyword.name (k : Keyword) : Option (List Char) :=
  if k.idx < 2 then none else kwNames[k.idx - 2]?

/-- keywords.rs:48-61 and keywords.rs:957-1209 `reserved![...]`: `Keyword::reserved` -/
def Keyword.reserved (k : Keyword) : Bool := reservedKws.contains k

/-- keywords.rs:63-76 and keywords.rs:1211-1224 `expr_ident![...]`: `Keyword::expr_ident` -/
def Keyword.exprIdent (k : Keyword) : Bool := exprIdentKws.contains k || !k.reserved

/-- lexer.rs:17-68 `enum Token`. String payloads are texts; `DollarArg` carries a usize. -/
inductive Token where
  | ampersand | at | backslash | caret | colon | comma | div | doubleColon
  | doubleExclamationMark | doubleAmpersand | doublePipe | doubleDollar | eq | exclamationMark
  | float (s : List Char) | gt | gtEq
  | ident (s : List Char) (k : Keyword)
  | integer (s : List Char) | invalid | lBrace | lBracket | lParen | lt | ltEq | minus | mod | mul
  | neq | period | pipe | plus | questionMark | rArrow | rBrace | rBracket | rParen | semiColon
  | sharp | shiftLeft | shiftRight
  | singleQuotedString (s : List Char) | doubleQuotedString (s : List Char)
  | spaceship | tilde | percentS
  | dollarArg (n : Nat)
  | atAtGlobal | atAtSession | eof
  deriving DecidableEq, Repr

/-- keywords.rs:37-43 `Keyword::name` -/
def Keyword.text (k : Keyword) : List Char :=
  if k = .NOT_A_KEYWORD then c!"NOT_A_KEYWORD" else if k = .QUOTED_IDENTIFIER then c!"QUOTED_IDENTIFIER" else k.name.getD []

/-- lexer.rs:71-135 `Token::name`; only used inside messages. -/
def Token.name : Token → List Char
  | .ampersand => c!"'&'" | .at => c!"'@'" | .backslash => c!"'\\'" | .caret => c!"'^'" | .colon => c!"':'"
  | .comma => c!"','" | .div => c!"'/'" | .doubleColon => c!"'::'" | .doubleExclamationMark => c!"'!!'"
  | .doublePipe => c!"'||'" | .doubleAmpersand => c!"'&&'" | .eq => c!"'='" | .exclamationMark => c!"'!'"
  | .float _ => c!"Float" | .gt => c!"'>'" | .gtEq => c!"'>='"
  | .ident _ k => if k = .NOT_A_KEYWORD then c!"Identifier" else if k = .QUOTED_IDENTIFIER then c!"QuotedIdentifier" else k.text
  | .integer _ => c!"Integer" | .invalid => c!"Invalid" | .lBrace => c!"'{'" | .lBracket => c!"'['"
  | .lParen => c!"'('" | .lt => c!"'<'" | .ltEq => c!"'<='" | .minus => c!"'-'" | .mod => c!"'%'"
  | .mul => c!"'*'" | .neq => c!"'!='" | .period => c!"'.'" | .pipe => c!"'|'" | .plus => c!"'+'"
  | .questionMark => c!"'?'" | .rArrow => c!"'=>'" | .rBrace => c!"'}'" | .rBracket => c!"']'"
  | .rParen => c!"')'" | .semiColon => c!"';'" | .sharp => c!"'#'" | .shiftLeft => c!"'>>'"
  | .shiftRight => c!"'<<'" | .doubleDollar => c!"'$$'"
  | .dollarArg n => if 1 ≤ n ∧ n ≤ 9 then c!"'$" ++ Nat.toDigits 10 n ++ c!"'" else c!"'$i'"
  | .singleQuotedString _ => c!"String" | .doubleQuotedString _ => c!"String"
  | .spaceship => c!"'<=>'" | .tilde => c!"'~'" | .percentS => c!"'%s'" | .atAtGlobal => c!"@@GLOBAL"
  | .atAtSession => c!"@@SESSION" | .eof => c!"EndOfFile"

/-- The pattern `Token::Ident(_, Keyword::K)` used throughout the parser. -/
def Token.isKw (t : Token) (k : Keyword) : Bool :=
  match t with
  | .ident _ k' => decide (k' = k)
  | _ => false

/-- The keyword of an identifier token (`NOT_A_KEYWORD` for the other tokens). -/
def Token.kw (t : Token) : Keyword :=
  match t with
  | .ident _ k' => k'
  | _ => Keyword.NOT_A_KEYWORD

end SqlParse
