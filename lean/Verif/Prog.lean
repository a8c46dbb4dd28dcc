import Verif.Lexer
import Verif.Ast
/-!
The parser state, and the language of parser programs.

Every parsing function of the crate has type `fn(&mut Parser, ..) -> Result<T, ParseError>`.  It is
modelled by a value of `Prog T`: a tree of primitive accesses to the parser state, sequencing, loops,
`?`-style failure (`throw`), inspection of a failed `Result` (`tryP`) and calls of the mutually
recursive parsing functions (`call`).  `runWith` executes such a program.

Because programs are data, facts that hold for every program (nothing reads the issue list, the
lexer only moves forward, ...) are proved once, by induction on `Prog`.
-/
namespace SqlParse

/-- lib.rs:110-115 `enum SQLDialect` -/
inductive Dialect where
  | mariaDB | postgreSQL | sqlite
  deriving DecidableEq, Repr

/-- lib.rs:133-142 `enum SQLArguments` -/
inductive Arguments where
  | none | percent | questionMark | dollar
  deriving DecidableEq, Repr

/-- lib.rs:146-152 `struct ParseOptions`; the defaults are lib.rs:154-164 -/
structure Opts where
  dialect : Dialect := .mariaDB
  arguments : Arguments := .none
  warnUnquoted : Bool := false
  warnCaps : Bool := false
  listHack : Bool := false
  deriving DecidableEq, Repr

/-- issue.rs:21-24 `enum Level` -/
inductive Level where
  | warning | error
  deriving DecidableEq, Repr

/-- issue.rs:27-34 `struct Fragment` -/
structure Fragment where
  message : String
  span : Span
  segment : List Char
  deriving DecidableEq

/-- What `expected_error` and `expected_failure` say was expected: a fixed text, the name of a keyword (parser.rs:288), the
name of a token (parser.rs:309, statement.rs:878). -/
inductive Wanted where
  | lit (s : String)
  | kw (k : Keyword)
  | tok (t : Token)
  deriving DecidableEq

instance : Coe String Wanted := ⟨.lit⟩

/-- The text of it. -/
def Wanted.text : Wanted → List Char
  | .lit s => s.toList
  | .kw k => k.text
  | .tok t => t.name

/-- The messages of issues. -/
inductive Msg where
  /-- a fixed text -/
  | plain (s : String)
  /-- parser.rs:191 `format!("Expected '{}' here", name)` -/
  | expected (w : Wanted)
  /-- parser.rs:225, 245 ``format!("'{}' is a reserved identifier use `{}`", v, v)`` -/
  | reserved (v : List Char)
  /-- parser.rs:231, 252 ``format!("identifiers should be quoted as `{}`", v)`` -/
  | unquoted (v : List Char)
  /-- parser.rs:278-282 `format!("keyword {} should be in ALL CAPS {}", v, v.to_ascii_uppercase())` -/
  | caps (v : List Char)
  deriving DecidableEq

instance : Coe String Msg := ⟨.plain⟩

/-- The text of a message. -/
def Msg.text : Msg → List Char
  | .plain s => s.toList
  | .expected w => c!"Expected '" ++ w.text ++ c!"' here"
  | .reserved v => c!"'" ++ v ++ c!"' is a reserved identifier use `" ++ v ++ c!"`"
  | .unquoted v => c!"identifiers should be quoted as `" ++ v ++ c!"`"
  | .caps v => c!"keyword " ++ v ++ c!" should be in ALL CAPS " ++ upper v

/-- issue.rs:38-49 `struct Issue` -/
structure Issue where
  level : Level
  message : Msg
  span : Span
  segment : List Char
  fragments : List Fragment
  deriving DecidableEq

/-- parser.rs:27-37 `struct Parser`.  `issueSrc`/`issues` are the caller's `Issues` (issue.rs:72-75);
`checked` says whether the crate is compiled with overflow checks; `argLog` and `dataLog` are ghost fields (never
read by any program): the spans of the tokens that were given an argument number, and the COPY data that was read,
with the span of the token before it. -/
structure St where
  token : Token
  span : Span
  peeked : Option (Token × Span)
  lx : Lexer
  issueSrc : List Char
  issues : List Issue
  arg : Nat
  delim : Token
  opts : Opts
  permit : Bool
  checked : Bool
  argLog : List Span
  dataLog : List (Span × List Char × Span)

/-- The two options that only control extra issues: lib.rs:149-150. -/
inductive WarnFlag where
  | unquoted | caps
  deriving DecidableEq

/-- Value of such an option. -/
def Opts.flag (o : Opts) : WarnFlag → Bool
  | .unquoted => o.warnUnquoted
  | .caps => o.warnCaps

/-- The message about the word `v` that such an option switches on: parser.rs:231, 252, 279. -/
def WarnFlag.msg (v : List Char) : WarnFlag → Msg
  | .unquoted => .unquoted v
  | .caps => .caps v

/-- Primitive operations on the parser state. -/
inductive Op : Type → Type where
  /-- read `parser.token` and `parser.span` -/
  | cur : Op (Token × Span)
  /-- `Parser::next` -/
  | next : Op Unit
  /-- the guard of expression.rs:1458: the token is LEFT and `matches!(parser.peek(), LParen)` -/
  | leftParenAhead : Op Bool
  /-- `Issues::err` / `Issues::warn` followed by `.frag(..)` calls -/
  | issue (l : Level) (msg : Msg) (sp : Span) (frags : List (String × Span)) : Op Unit
  /-- `if parser.options.<flag> { parser.err/warn(..) }` -/
  | issueIf (f : WarnFlag) (l : Level) (v : List Char) (sp : Span) : Op Unit
  /-- `let arg = parser.arg; parser.arg += 1; (arg, parser.consume())` -/
  | takeArg : Op (Nat × Span)
  /-- read `parser.delimiter` -/
  | delim : Op Token
  /-- write `parser.delimiter` -/
  | setDelim (t : Token) : Op Unit
  /-- read `parser.permit_compound_statements` -/
  | permit : Op Bool
  /-- write `parser.permit_compound_statements` -/
  | setPermit (b : Bool) : Op Unit
  /-- read `parser.options.dialect` -/
  | dialect : Op Dialect
  /-- read `parser.options.arguments` -/
  | arguments : Op Arguments
  /-- read `parser.options.list_hack` -/
  | listHack : Op Bool
  /-- `Parser::read_from_stdin_and_next` -/
  | stdin : Op (List Char × Span)

/-- The recursive parsing functions.  All recursion between parsing functions goes through these
three (the other functions are plain definitions that call them). -/
inductive Fn : Type → Type where
  /-- expression.rs:1074 `parse_expression(parser, inner)` -/
  | expression (inner : Bool) : Fn Ast
  /-- statement.rs:767 `parse_compound_query` -/
  | compoundQuery : Fn Ast
  /-- statement.rs:482 `parse_statement` -/
  | statement : Fn (Option SAst)

/-- One round of a loop: go on with a new state, or leave with a result. -/
inductive Step (σ β : Type) where
  | cont (s : σ)
  | done (b : β)

/-- Parser programs. -/
inductive Prog : Type → Type 1 where
  | ret {α : Type} (a : α) : Prog α
  | bind {α β : Type} (p : Prog α) (f : α → Prog β) : Prog β
  | op {α : Type} (o : Op α) : Prog α
  /-- `Err(ParseError::Unrecovered)` -/
  | throw {α : Type} : Prog α
  /-- run a program and look at its `Result` -/
  | tryP {α : Type} (p : Prog α) : Prog (Option α)
  /-- `loop { .. }` with loop state `σ` -/
  | loop {σ β : Type} (body : σ → Prog (Step σ β)) (init : σ) : Prog β
  | call {α : Type} (f : Fn α) : Prog α
  /-- Rust panic -/
  | panic {α : Type} (msg : String) : Prog α

instance : Monad Prog where
  pure := Prog.ret
  bind := Prog.bind

/-- Outcome of running a program. -/
inductive Out (α : Type) where
  /-- `Ok(a)` and the new parser state -/
  | ok (a : α) (s : St)
  /-- `Err(Unrecovered)` and the new parser state -/
  | err (s : St)
  | panic (msg : String)
  /-- not finished within the given number of steps -/
  | oof

/-- parser.rs:177-181 `Parser::next`. -/
def St.next (s : St) : Out Unit :=
  match s.peeked with
  | some (t, sp) => .ok () { s with token := t, span := sp, peeked := none }
  | none =>
    match s.lx.nextToken s.checked with
    | .ok t sp lx => .ok () { s with token := t, span := sp, lx := lx }
    | .panic m => .panic m

/-- issue.rs:56-68 `IssueHandle::frag`, for a list of fragments. -/
def mkFrags (src : List Char) : List (String × Span) → Option (List Fragment)
  | [] => some []
  | (m, sp) :: r =>
    match slice src sp.start sp.stop, mkFrags src r with
    | some seg, some fs => some (⟨m, sp, seg⟩ :: fs)
    | _, _ => none

/-- issue.rs:78-114 `Issues::err` and `Issues::warn` with their fragments. -/
def St.issue (s : St) (l : Level) (msg : Msg) (sp : Span) (frags : List (String × Span)) : Out Unit :=
  match slice s.issueSrc sp.start sp.stop, mkFrags s.issueSrc frags with
  | some seg, some fs => .ok () { s with issues := s.issues ++ [⟨l, msg, sp, seg, fs⟩] }
  | _, _ => .panic "slice"

/-- Execution of the primitive operations. -/
def Op.run {α : Type} (o : Op α) (s : St) : Out α :=
  match o with
  | .cur => .ok (s.token, s.span) s
  | .next => s.next
  | .leftParenAhead =>
    if s.token.isKw .LEFT then
      /- parser.rs:183-188 `peek` -/
      match s.peeked with
      | some (t, _) => .ok (decide (t = .lParen)) s
      | none =>
        match s.lx.nextToken s.checked with
        | .ok t sp lx => .ok (decide (t = .lParen)) { s with peeked := some (t, sp), lx := lx }
        | .panic m => .panic m
    else .ok false s
  | .issue l m sp fr => s.issue l m sp fr
  | .issueIf f l v sp => if s.opts.flag f then s.issue l (f.msg v) sp [] else .ok () s
  | .takeArg =>
    match St.next { s with arg := s.arg + 1, argLog := s.argLog ++ [s.span] } with
    | .ok _ s' => .ok (s.arg, s.span) s'
    | .err s' => .err s'
    | .panic m => .panic m
    | .oof => .oof
  | .delim => .ok s.delim s
  | .setDelim t => .ok () { s with delim := t }
  | .permit => .ok s.permit s
  | .setPermit b => .ok () { s with permit := b }
  | .dialect => .ok s.opts.dialect s
  | .arguments => .ok s.opts.arguments s
  | .listHack => .ok s.opts.listHack s
  | .stdin =>
    /- parser.rs:169-175 `read_from_stdin_and_next` -/
    match s.lx.readStdin with
    | none => .panic "slice"
    | some (d, sp, lx) =>
      match St.next { s with lx := lx, dataLog := s.dataLog ++ [(s.span, d, sp)] } with
      | .ok _ s' => .ok (d, sp) s'
      | .err s' => .err s'
      | .panic m => .panic m
      | .oof => .oof

/-- `loop`: at most `n` rounds. -/
def loopN {σ β : Type} (step : σ → St → Out (Step σ β)) : Nat → σ → St → Out β
  | 0, _, _ => .oof
  | n + 1, x, s =>
    match step x s with
    | .ok (.cont x') s' => loopN step n x' s'
    | .ok (.done b) s' => .ok b s'
    | .err s' => .err s'
    | .panic m => .panic m
    | .oof => .oof

/-- Execute a program; `calls` executes the recursive functions, loops may take `n` rounds. -/
def runWith (calls : ∀ α, Fn α → St → Out α) (n : Nat) : {α : Type} → Prog α → St → Out α
  | _, .ret a, s => .ok a s
  | _, .bind p f, s =>
    match runWith calls n p s with
    | .ok a s' => runWith calls n (f a) s'
    | .err s' => .err s'
    | .panic m => .panic m
    | .oof => .oof
  | _, .op o, s => o.run s
  | _, .throw, s => .err s
  | _, .tryP p, s =>
    match runWith calls n p s with
    | .ok a s' => .ok (some a) s'
    | .err s' => .ok none s'
    | .panic m => .panic m
    | .oof => .oof
  | _, .loop body x, s => loopN (fun x s => runWith calls n (body x) s) n x s
  | α, .call f, s => calls α f s
  | _, .panic m, _ => .panic m

end SqlParse
