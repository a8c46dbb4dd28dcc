import Verif.Model.Statement
/-!
Model of the entry points: statement.rs `parse_statements`, lib.rs `parse_statement`,
`parse_statements`.
-/
namespace SqlParse

/-- statement.rs:843-851 skip delimiters; `true`: the end of the input is reached -/
def skipDelims : Prog Bool :=
  .loop (fun _ => do
    let t ← curT
    let d ← Prog.op .delim
    if t = d then do
      let _ ← consume
      return .cont ()
    else return .done (decide (t = .eof))) ()

/-- statement.rs:881-888 skip to the next delimiter; `true`: the end of the input is reached -/
def skipToDelim : Prog Bool :=
  .loop (fun _ => do
    next
    let t ← curT
    let d ← Prog.op .delim
    if t = d then return .done false
    else if t = .eof then return .done true
    else return .cont ()) ()

/-- statement.rs:853-862 the new delimiter after DELIMITER -/
def setDelimiter : Prog Unit := do
  let (t, sp) ← cur
  Prog.when (!(decide (t = .doubleDollar) || decide (t = .semiColon))) (warn "Unknown delimiter" sp)
  Prog.op (.setDelim t)
  next

/-- statement.rs:864-868 -/
def topStatement : Prog SAst := do
  let o ← .call .statement
  orExpected o "Statement"

/-- statement.rs:890-897 the delimiter after a statement; `stdin`: the statement is a COPY -/
def afterDelim (acc : List SAst) (stdin : Bool) : Prog (List SAst) := do
  if stdin then do
    let (d, sp) ← Prog.op .stdin
    return acc ++ [snd% Statement_Stdin [d, sp]]
  else do
    let d ← Prog.op .delim
    let r ← Prog.tryP (ctk d)
    match r with
    | some _ => return acc
    | none => .panic "Delimiter"

/-- statement.rs:869-897 what happens after a statement, `r` is its result -/
def finishStatement (acc : List SAst) (r : Option SAst) : Prog (Step (List SAst) (List SAst)) := do
  let t ← curT
  let d ← Prog.op .delim
  let stdin := match r with
    | some v => v.readsStdin
    | none => false
  let eof ← (if t ≠ d then do
      Prog.when r.isSome (expectedError (.tok d))
      skipToDelim
    else return false)
  if eof then return .done (acc ++ r.toList)
  else do
    let acc' ← afterDelim (acc ++ r.toList) stdin
    return .cont acc'

/-- statement.rs:842-898 one round of the outer loop -/
def statementsStep (acc : List SAst) : Prog (Step (List SAst) (List SAst)) := do
  let eof ← skipDelims
  if eof then return .done acc
  else do
    let dk ← skw .DELIMITER
    match dk with
    | some _ => do
      setDelimiter
      return .cont acc
    | none => do
      let r ← Prog.tryP topStatement
      finishStatement acc r

/-- statement.rs:840-899 `parse_statements` -/
def statements : Prog (List SAst) := .loop statementsStep []

/-- lib.rs:252-264 `parse_statement` after the parser is created -/
def singleStatement : Prog (Option SAst) := do
  let r ← Prog.tryP (.call .statement)
  match r with
  | some (some v) => do
    let t ← curT
    Prog.when (decide (t ≠ .eof)) (expectedError "Unexpected token after statement")
    return some v
  | some none => do
    expectedError "Statement"
    return none
  | none => return none

/-- issue.rs:72-75 `struct Issues` -/
structure Issues where
  src : List Char
  issues : List Issue

/-- issue.rs:120-125 `Issues::new` -/
def Issues.new (src : List Char) : Issues := ⟨src, []⟩

/-- issue.rs:135-137 `Issues::is_ok` -/
def Issues.isOk (i : Issues) : Bool := i.issues.isEmpty

/-- What a caller of the API sees. -/
inductive Res (α : Type) where
  /-- the call returned `a` and left `issues` in the `Issues` object -/
  | ret (a : α) (issues : List Issue)
  | panic (msg : String)
  /-- not finished within the given number of steps -/
  | running

/-- Outcome of a run as seen by the caller (`dflt` for the result of an `Err`, which the two
entry points never produce). -/
def Out.res {α : Type} (dflt : α) : Out α → Res α
  | .ok a s => .ret a s.issues
  | .err s => .ret dflt s.issues
  | .panic m => .panic m
  | .oof => .running

/-- parser.rs:80-94 `Parser::new`; `checked`: compiled with overflow checks. -/
def St.new (checked : Bool) (src : List Char) (iss : Issues) (opts : Opts) : Out Unit :=
  match (Lexer.new src).nextToken checked with
  | .ok t sp lx => .ok () {
      token := t, span := sp, peeked := none, lx := lx, issueSrc := iss.src, issues := iss.issues
      arg := 0, delim := .semiColon, opts := opts, permit := false, checked := checked, argLog := [], dataLog := [] }
  | .panic m => .panic m

/-- Create a parser and run a program. -/
def runApi {α : Type} (dflt : α) (p : Prog α) (n : Nat) (checked : Bool) (src : List Char)
    (iss : Issues) (opts : Opts) : Res α :=
  match St.new checked src iss opts with
  | .ok _ s => (p.run n s).res dflt
  | .err _ => .running
  | .panic m => .panic m
  | .oof => .running

/-- lib.rs:246-265 `parse_statement`, run for at most `n` steps. -/
def parseStatement (n : Nat) (checked : Bool) (src : List Char) (iss : Issues) (opts : Opts) :
    Res (Option SAst) :=
  runApi none singleStatement n checked src iss opts

/-- lib.rs:233-240 `parse_statements`, run for at most `n` steps. -/
def parseStatements (n : Nat) (checked : Bool) (src : List Char) (iss : Issues) (opts : Opts) :
    Res (List SAst) :=
  runApi [] statements n checked src iss opts

end SqlParse
