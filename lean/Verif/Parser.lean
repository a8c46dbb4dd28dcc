import Verif.Prog
/-!
Model of /repo/src/parser.rs: the helper functions shared by all parsing functions.
-/
namespace SqlParse

/-- `parser.token.clone()`, `parser.span.clone()` -/
def cur : Prog (Token × Span) := .op .cur
/-- parser.rs:177 `next` -/
def next : Prog Unit := .op .next
/-- read `parser.token` -/
def curT : Prog Token := do let p ← cur; return p.1
/-- read `parser.span` -/
def curS : Prog Span := do let p ← cur; return p.2
/-- `parser.err(..)` -/
def err (msg : Msg) (sp : Span) (frags : List (String × Span) := []) : Prog Unit :=
  .op (.issue .error msg sp frags)
/-- `parser.warn(..)` -/
def warn (msg : Msg) (sp : Span) (frags : List (String × Span) := []) : Prog Unit :=
  .op (.issue .warning msg sp frags)
/-- `if parser.options.<flag> { parser.err/warn(..) }` -/
def issueIf (f : WarnFlag) (l : Level) (v : List Char) (sp : Span) : Prog Unit :=
  .op (.issueIf f l v sp)
/-- read `parser.options.dialect` -/
def dialect : Prog Dialect := .op .dialect
/-- `parser.options.dialect.is_postgresql()` -/
def isPg : Prog Bool := do let d ← dialect; return decide (d = .postgreSQL)
/-- `parser.options.dialect.is_maria()` -/
def isMaria : Prog Bool := do let d ← dialect; return decide (d = .mariaDB)
/-- `parser.options.dialect.is_sqlite()` -/
def isSqlite : Prog Bool := do let d ← dialect; return decide (d = .sqlite)

/-- `if c { p }` -/
def Prog.when (c : Bool) (p : Prog Unit) : Prog Unit := if c then p else .ret ()

/-- `if let Some(x) = o { Some(f(x)?) } else { None }` -/
def optMap {α β : Type} (o : Option α) (f : α → Prog β) : Prog (Option β) :=
  match o with
  | some a => .bind (f a) fun b => .ret (some b)
  | none => .ret none

/-- `if c { Some(p?) } else { None }` -/
def optIf {β : Type} (c : Bool) (p : Prog β) : Prog (Option β) :=
  if c then .bind p fun b => .ret (some b) else .ret none

/-- parser.rs:323-327 `consume` -/
def consume : Prog Span := do
  let sp ← curS
  next
  return sp

/-- parser.rs:190-192 `expected_error` -/
def expectedError (name : Wanted) : Prog Unit := do
  let sp ← curS
  err (.expected name) sp

/-- parser.rs:210-213 `expected_failure` -/
def expectedFailure {α : Type} (name : Wanted) : Prog α := do
  expectedError name
  .throw

/-- parser.rs:397-403 `err_here`; `ice` and `todo` (parser.rs:405-411) are the same with a fixed message. -/
def errHere {α : Type} (msg : String) : Prog α := do
  let sp ← curS
  err msg sp
  .throw

/-- parser.rs:122-126, 130-134, 138-142 `while let Some(v) = brackets.pop() { if v == b { break; } }` (top first) -/
def popTo (b : Token) : List Token → List Token
  | [] => []
  | v :: r => if v = b then r else popTo b r

/-- parser.rs:96-147 `recover(success, fail)`.  Every caller passes `|_| false` for `fail`. -/
def recover (success : Token → Bool) : Prog Unit :=
  .loop (σ := List Token) (fun br => do
    let t ← curT
    if br.isEmpty && success t then return .done ()
    else if t = .eof then .throw
    else do
      let d ← Prog.op .delim
      if t = d then .throw
      else do
        next
        return .cont (
          if t = .lParen ∨ t = .lBracket ∨ t = .lBrace then t :: br
          else if t = .rBrace then popTo .lBrace br
          else if t = .rBracket then popTo .lBracket br
          else if t = .rParen then popTo .lParen br
          else br)) []

/-- The end of parser.rs:149-167 `recovered`, when `fun` has returned: `ok` says whether it
succeeded. -/
def recoveredEnd (expected : String) (endP : Token → Bool) (ok : Bool) : Prog Unit := do
  Prog.when (!ok) (recover endP)
  let t ← curT
  Prog.when (!endP t) (do
    expectedError expected
    recover endP)

/-- parser.rs:149-167 `recovered`, for a closure that accumulates in captured variables: `p` returns
whether the closure succeeded, and the captured variables. -/
def recoveredAcc {σ : Type} (expected : String) (endP : Token → Bool) (p : Prog (Bool × σ)) : Prog σ := do
  let r ← p
  recoveredEnd expected endP r.1
  return r.2

/-- parser.rs:149-167 `recovered` with `T = Option<U>` -/
def recovered {α : Type} (expected : String) (endP : Token → Bool) (p : Prog α) : Prog (Option α) := do
  let r ← .tryP p
  recoveredEnd expected endP r.isSome
  return r

/-- A closure `{ loop { body } }` with captured variables `σ`, run under `recovered`: when a round
fails the captured variables keep the value they had before that round. -/
def accLoop {σ : Type} (body : σ → Prog (Step σ σ)) (init : σ) : Prog (Bool × σ) :=
  .loop (fun x => do
    let r ← .tryP (body x)
    return (match r with
      | some (.cont y) => .cont y
      | some (.done y) => .done (true, y)
      | none => .done (false, x))) init

/-- `loop { v.push(item?); if parser.skip_token(sep).is_none() { break; } }` -/
def sepLoop {α : Type} (more : Prog Bool) (item : Prog α) : Prog (List α) :=
  .loop (fun acc => do
    let a ← item
    let m ← more
    return (if m then .cont (acc ++ [a]) else .done (acc ++ [a]))) []

/-- The call of `span()` / `opt_span().unwrap()` on an AST value. -/
def spanOf {α : Type} [ToF α] (a : α) : Prog Span :=
  match (toF a).spanRes with
  | .some s => .ret s
  | .none => .panic "no span"
  | .panic => .panic "Span of block"

/-- `v.chars().all(|c| c.is_ascii_uppercase())` -/
def allUpper (v : List Char) : Bool := v.all isUp

/-- The warning of parser.rs:274-285 for a keyword spelled `v`. -/
def capsWarn (v : List Char) (sp : Span) : Prog Unit :=
  Prog.when (!allUpper v) (issueIf .caps .warning v sp)

/-- parser.rs:271-290 `consume_keyword` -/
def ckw (k : Keyword) : Prog Span := do
  let (t, sp) ← cur
  match t with
  | .ident v k' =>
    if k' = k then do
      capsWarn v sp
      consume
    else expectedFailure (.kw k)
  | _ => expectedFailure (.kw k)

/-- parser.rs:294-297 `consume_keywords`, the keywords after the first -/
def ckwsTail (sp : Span) : List Keyword → Prog Span
  | [] => .ret sp
  | k :: ks => do
    let s ← ckw k
    ckwsTail (joinSpan s sp) ks

/-- parser.rs:292-298 `consume_keywords` -/
def ckws (k : Keyword) (ks : List Keyword) : Prog Span := do
  let sp ← ckw k
  ckwsTail sp ks

/-- parser.rs:300-305 `skip_keyword` -/
def skw (k : Keyword) : Prog (Option Span) := do
  let (t, sp) ← cur
  match t with
  | .ident v k' =>
    if k' = k then do
      capsWarn v sp
      let s ← consume
      return some s
    else return none
  | _ => return none

/-- parser.rs:307-313 `consume_token` -/
def ctk (tok : Token) : Prog Span := do
  let t ← curT
  if t = tok then consume else expectedFailure (.tok tok)

/-- parser.rs:315-321 `skip_token` -/
def stk (tok : Token) : Prog (Option Span) := do
  let t ← curT
  if t = tok then do
    let s ← consume
    return some s
  else return none

/-- `parser.skip_token(tok).is_some()` -/
def skips (tok : Token) : Prog Bool := do
  let o ← stk tok
  return o.isSome

/-- Comma separated list: `loop { v.push(item?); if parser.skip_token(Comma).is_none() {break;} }` -/
def commaList {α : Type} (item : Prog α) : Prog (List α) := sepLoop (skips .comma) item

/-- `loop { recovered(end, |p| { v.push(item?); Ok(()) })?; if skip_token(Comma).is_none() {break;} }`
with captured `v`: nothing is pushed when `item` fails. -/
def recList {α : Type} (expected : String) (endP : Token → Bool) (item : Prog α) : Prog (List α) :=
  .loop (fun acc => do
    let r ← recovered expected endP item
    let acc' := acc ++ r.toList
    let m ← skips .comma
    return (if m then .cont acc' else .done acc')) []

/-- parser.rs:215-237 `token_to_plain_identifier` -/
def tokenToIdent (t : Token) (sp : Span) : Prog Ast :=
  match t with
  | .ident v k => do
    (if k.reserved then err (.reserved v) sp
     else if k ≠ .QUOTED_IDENTIFIER then issueIf .unquoted .warning v sp
     else .ret ())
    return .ident v sp
  | _ => expectedFailure "identifier"

/-- parser.rs:239-269 `consume_plain_identifier`.  (`self.consume()` returns `self.span`, which is
still `sp`.) -/
def ident : Prog Ast := do
  let (t, sp) ← cur
  match t with
  | .ident v k => do
    let pg ← isPg
    (if k.reserved then err (.reserved v) sp
     else if k ≠ .QUOTED_IDENTIFIER then issueIf .unquoted .error v sp
     else Prog.when pg (err "quoted identifiers not supported by postgresql" sp))
    next
    return .ident v sp
  | .doubleQuotedString v => do
    let pg ← isPg
    if pg then do
      next
      return .ident v sp
    else expectedFailure "identifier"
  | _ => expectedFailure "identifier"

/-- parser.rs:45-54 the loop of `decode_single_quoted_string` -/
def decodeLoop : List Char → List Char
  | [] => []
  | '\'' :: [] => ['\'']
  | '\'' :: _ :: r => '\'' :: decodeLoop r
  | c :: r => c :: decodeLoop r

/-- parser.rs:39-57 `decode_single_quoted_string` -/
def decodeSingle (s : List Char) : List Char :=
  if !s.contains '\'' && !s.contains '\\' then s else decodeLoop s

/-- parser.rs:59-77 `decode_double_quoted_string` (sic: the loop handles `'`) -/
def decodeDouble (s : List Char) : List Char :=
  if !s.contains '"' && !s.contains '\\' then s else decodeLoop s

/-- The decoded text of a string token. -/
def Token.strVal? : Token → Option (List Char)
  | .singleQuotedString v => some (decodeSingle v)
  | .doubleQuotedString v => some (decodeDouble v)
  | _ => none

/-- `Token::SingleQuotedString(_) | Token::DoubleQuotedString(_)` -/
def Token.isStr (t : Token) : Bool := t.strVal?.isSome

/-- parser.rs:329-361 `consume_string`: value and span -/
def strPair : Prog (List Char × Span) := do
  let (t, sp) ← cur
  match t.strVal? with
  | some v => do
    next
    .loop (σ := List Char × Span) (fun ab => do
      let (t', sp') ← cur
      match t'.strVal? with
      | some v' => do
        next
        return .cont (ab.1 ++ v', joinSpan ab.2 sp')
      | none => return .done ab) (v, sp)
  | none => expectedFailure "string"

/-- parser.rs:329-361 `consume_string` -/
def string : Prog Ast := do
  let r ← strPair
  return .sstring r.1 r.2

/-- Decimal value of a digit string. -/
def decVal (ds : List Char) : Nat := ds.foldl (fun n c => n * 10 + digVal c) 0

/-- parser.rs:363-378 `consume_int::<T>`, `max` is `T::MAX`.  The token text consists of digits only,
so `parse` fails exactly when the value is too big. -/
def int (max : Nat) : Prog (Nat × Span) := do
  let (t, sp) ← cur
  match t with
  | .integer v => do
    Prog.when (decide (max < decVal v)) (err "integer outside range" sp)
    next
    return (if max < decVal v then 0 else decVal v, sp)
  | _ => expectedFailure "integer"

/-- `u64::MAX`, `usize::MAX` -/
def u64Max : Nat := 2 ^ 64 - 1
/-- `u32::MAX` -/
def u32Max : Nat := 2 ^ 32 - 1
/-- `i64::MAX` -/
def i64Max : Nat := 2 ^ 63 - 1

/-- parser.rs:380-395 `consume_float`: parsing a float token (digits with one dot) never fails; the
text is kept, the rounding to f64 is not modelled. -/
def float : Prog (List Char × Span) := do
  let (t, sp) ← cur
  match t with
  | .float v => do
    next
    return (v, sp)
  | _ => expectedFailure "float"

/-- qualified_name.rs:21-31 `parse_qualified_name`; fields: prefix, identifier -/
def qualifiedName : Prog Ast := do
  let i ← ident
  .loop (σ := List (Ast × Span) × Ast) (fun x => do
    let dot ← stk .period
    match dot with
    | some d => do
      let j ← ident
      return .cont (x.1 ++ [(x.2, d)], j)
    | none => return .done (nd% QualifiedName [x.1, x.2])) ([], i)

/-- Look a keyword up in a table. -/
def tableFind (k : Keyword) : List (Keyword × Kind) → Option Kind
  | [] => none
  | (k', f) :: r => if k = k' then some f else tableFind k r

/-- `match &parser.token { Token::Ident(_, K) => E::V(parser.consume_keyword(K)?), .. }` for the
variants listed in the table; `none` when the token is none of the keywords. -/
def kwNode (tbl : List (Keyword × Kind)) : Prog (Option Ast) := do
  let t ← curT
  match tableFind t.kw tbl with
  | some K => do
    let s ← ckw t.kw
    return some (.node K [.span s])
  | none => return none

/-- As `kwNode`, with `parser.consume()`. -/
def consNode (tbl : List (Keyword × Kind)) : Prog (Option Ast) := do
  let t ← curT
  match tableFind t.kw tbl with
  | some K => do
    let s ← consume
    return some (.node K [.span s])
  | none => return none

/-- Take the value, or fail with `expected_failure`. -/
def orExpected {α : Type} (o : Option α) (name : String) : Prog α :=
  match o with
  | some a => .ret a
  | none => expectedFailure name

/-- `loop { match p { Some(a) => v.push(a), None => break } }` -/
def manyOpt {α : Type} (p : Prog (Option α)) : Prog (List α) :=
  .loop (fun acc => do
    let r ← p
    return (match r with
      | some a => .cont (acc ++ [a])
      | none => .done acc)) []

end SqlParse
