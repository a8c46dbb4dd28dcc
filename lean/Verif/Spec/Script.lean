import Verif.Spec.Ast
import Verif.Spec.CopyData
import Verif.Spec.Tokens
/-! What `parse_statements` is meant to do, as a relation between parser states: a list of rounds, each of which skips a
delimiter, changes the delimiter, parses one statement, or skips a text that is not a statement. -/
namespace SqlParse

/-- An identifier or keyword written with the letters A to Z only. -/
def Token.inCapitals : Token → Bool
  | .ident v _ => v.all fun c => decide ('A'.toNat ≤ c.toNat ∧ c.toNat ≤ 'Z'.toNat)
  | _ => false

/-- The text of an identifier or keyword. -/
def Token.word : Token → List Char
  | .ident v _ => v
  | _ => []

/-- The parser moves on by one token. -/
def Advance (s s' : St) : Prop := s.next = .ok () s'

/-- One issue of the given level is added. -/
def Logs (l : Level) (s s' : St) : Prop := ∃ i, i.level = l ∧ s' = { s with issues := s.issues ++ [i] }

/-- At most one issue is added. -/
def MayLog (s s' : St) : Prop := s' = s ∨ ∃ l, Logs l s s'

/-- One issue is added: it has the given level and message, is about the current token, and has no
fragments. -/
def Reports (l : Level) (msg : Msg) (s s' : St) : Prop :=
  ∃ seg, SpanIs s.issueSrc s.span seg ∧ s' = { s with issues := s.issues ++ [⟨l, msg, s.span, seg, []⟩] }

/-- At a keyword: a warning is added iff the option `warn_none_capital_keywords` is on and the keyword is not written in
capital letters. -/
def CapsNote (s s' : St) : Prop :=
  if s.opts.warnCaps = true ∧ s.token.inCapitals = false then Reports .warning (.caps s.token.word) s s' else s' = s

/-- At the token after DELIMITER: a warning is added unless it is `;` or `$$`. -/
def DelimiterNote (s s' : St) : Prop :=
  if s.token = .semiColon ∨ s.token = .doubleDollar then s' = s else Reports .warning "Unknown delimiter" s s'

/-- The parser moves on (by at least one token) to the next delimiter. -/
inductive SkipTo : St → St → Prop where
  | here {s s' : St} (h : Advance s s') (hd : s'.token = s'.delim) : SkipTo s s'
  | next {s s1 s' : St} (h : Advance s s1) (hd : s1.token ≠ s1.delim) (he : s1.token ≠ .eof) (hs : SkipTo s1 s') : SkipTo s s'

/-- The parser moves on (by at least one token) to the end of the source, there is no delimiter before it. -/
inductive SkipToEnd : St → St → Prop where
  | here {s s' : St} (h : Advance s s') (hd : s'.token ≠ s'.delim) (he : s'.token = .eof) : SkipToEnd s s'
  | next {s s1 s' : St} (h : Advance s s1) (hd : s1.token ≠ s1.delim) (he : s1.token ≠ .eof) (hs : SkipToEnd s1 s') :
      SkipToEnd s s'

/-- Parsing a statement at `s` succeeds with `v` and stops at `s'`. -/
def ParsesTo (s : St) (v : SAst) (s' : St) : Prop := ∃ n, (Prog.call .statement).run n s = .ok (some v) s'

/-- Parsing a statement at `s` fails and stops at `s'`: it returns an error, or finds that no statement starts here (then
an Error issue is added). -/
def FailsTo (s s' : St) : Prop :=
  ∃ n, (Prog.call .statement).run n s = .err s' ∨ ∃ s1, (Prog.call .statement).run n s = .ok none s1 ∧ Reports .error (.expected "Statement") s1 s'

/-- The data after `COPY .. FROM STDIN;`: `d`, with span `sp`, the parser goes on behind it. -/
def ReadsData (s : St) (d : List Char) (sp : Span) (s' : St) : Prop :=
  ∃ lx, s.lx.readStdin = some (d, sp, lx) ∧ Advance { s with lx := lx, dataLog := s.dataLog ++ [(s.span, d, sp)] } s'

/-- A statement may start here. -/
def Start (s : St) : Prop := s.token ≠ s.delim ∧ s.token ≠ .eof ∧ s.token.isKw .DELIMITER = false

/-- The end of a statement `v` at a delimiter: move past the delimiter, for COPY also read the data. -/
inductive Terminate (v : SAst) : St → List SAst → St → Prop where
  | plain {s s' : St} (hv : v.readsStdin = false) (h : Advance s s') : Terminate v s [v] s'
  | copy {s s' : St} {d : List Char} {sp : Span} (hv : v.readsStdin = true) (h : ReadsData s d sp s') :
      Terminate v s [v, ⟨.node .Statement_Stdin [.str d, .span sp]⟩] s'

/-- A round without Error: which statements it adds. -/
inductive CleanRound : St → List SAst → St → Prop where
  /-- a delimiter -/
  | skip {s s' : St} (hd : s.token = s.delim) (h : Advance s s') : CleanRound s [] s'
  /-- `DELIMITER t` makes `t` the delimiter -/
  | delimiter {s s1 s2 s3 s' : St} (hd : s.token ≠ s.delim) (hk : s.token.isKw .DELIMITER = true) (h1 : CapsNote s s1)
      (h2 : Advance s1 s2) (h3 : DelimiterNote s2 s3) (h4 : Advance { s3 with delim := s2.token } s') : CleanRound s [] s'
  /-- a statement and a delimiter -/
  | stmt {s s1 s' : St} {v : SAst} {out : List SAst} (hs : Start s) (h : ParsesTo s v s1) (hd : s1.token = s1.delim)
      (ht : Terminate v s1 out s') : CleanRound s out s'

/-- Any round. -/
inductive Round : St → List SAst → St → Prop where
  | clean {s s' : St} {out : List SAst} (h : CleanRound s out s') : Round s out s'
  /-- something other than the delimiter comes after a statement: an Error issue, skip to the next delimiter -/
  | garbage {s s1 s2 s3 s' : St} {v : SAst} {out : List SAst} (hs : Start s) (h : ParsesTo s v s1) (hd : s1.token ≠ s1.delim)
      (hl : Reports .error (.expected (.tok s1.delim)) s1 s2) (hk : SkipTo s2 s3) (ht : Terminate v s3 out s') : Round s out s'
  /-- not a statement, the error is found at the delimiter -/
  | failed {s s1 s' : St} (hs : Start s) (h : FailsTo s s1) (hd : s1.token = s1.delim) (ha : Advance s1 s') : Round s [] s'
  /-- not a statement, the error is found before the delimiter: skip to the next one -/
  | skipped {s s1 s2 s' : St} (hs : Start s) (h : FailsTo s s1) (hd : s1.token ≠ s1.delim) (hk : SkipTo s1 s2)
      (ha : Advance s2 s') : Round s [] s'

/-- The last round: the end of the source is reached. -/
inductive LastRound : St → List SAst → St → Prop where
  | eof {s : St} (hd : s.token ≠ s.delim) (he : s.token = .eof) : LastRound s [] s
  | garbage {s s1 s2 s' : St} {v : SAst} (hs : Start s) (h : ParsesTo s v s1) (hd : s1.token ≠ s1.delim)
      (hl : Reports .error (.expected (.tok s1.delim)) s1 s2) (hk : SkipToEnd s2 s') : LastRound s [v] s'
  | skipped {s s1 s' : St} (hs : Start s) (h : FailsTo s s1) (hd : s1.token ≠ s1.delim) (hk : SkipToEnd s1 s') :
      LastRound s [] s'

/-- Rounds one after another. -/
inductive Rounds : St → List SAst → St → Prop where
  | nil {s : St} : Rounds s [] s
  | cons {s s1 s' : St} {out l : List SAst} (h : Round s out s1) (hr : Rounds s1 l s') : Rounds s (out ++ l) s'

/-- A source without errors from state `s` on, `d` being the delimiter: the statements, each one followed by the
delimiter, up to the end of the source. -/
inductive Listing : Token → St → List SAst → St → Prop where
  | eof {d : Token} {s : St} (hd : s.token ≠ d) (he : s.token = .eof) : Listing d s [] s
  /-- a delimiter -/
  | skip {d : Token} {s s1 s' : St} {l : List SAst} (hd : s.token = d) (h : Advance s s1) (hr : Listing d s1 l s') :
      Listing d s l s'
  /-- `DELIMITER t` makes `t` the delimiter -/
  | delimiter {d : Token} {s s1 s2 s3 s4 s' : St} {l : List SAst} (hd : s.token ≠ d) (hk : s.token.isKw .DELIMITER = true)
      (h1 : CapsNote s s1) (h2 : Advance s1 s2) (h3 : DelimiterNote s2 s3) (h4 : Advance { s3 with delim := s2.token } s4)
      (hr : Listing s2.token s4 l s') : Listing d s l s'
  /-- a statement and the delimiter -/
  | stmt {d : Token} {s s1 s2 s' : St} {v : SAst} {out l : List SAst} (hd : s.token ≠ d) (he : s.token ≠ .eof)
      (hk : s.token.isKw .DELIMITER = false) (h : ParsesTo s v s1) (ht : s1.token = d) (hn : Terminate v s1 out s2)
      (hr : Listing d s2 l s') : Listing d s (out ++ l) s'

/-- A state of the parser between two statements of a call of `parse_statements`. -/
def Between (checked : Bool) (src : List Char) (old : List Issue) (opts : Opts) (s : St) : Prop :=
  ∃ s0 l, St.new checked src ⟨src, old⟩ opts = .ok () s0 ∧ Rounds s0 l s

/-- An Error issue has been added on the way from `s` to `s'`. -/
def ErrorAdded (s s' : St) : Prop := ∃ new, s'.issues = s.issues ++ new ∧ HasError new

/-- The source has the keyword TRIGGER as a token. -/
def HasTrigger (checked : Bool) (src : List Char) : Prop := ∃ v sp, IsToken checked src (.ident v .TRIGGER) sp

/-- Whether compound statements are permitted is the same in `s'` as in `s`; or it has been switched on, an Error issue has
been added, and the source has the keyword TRIGGER. -/
def ModeKept (checked : Bool) (src : List Char) (s s' : St) : Prop :=
  s'.permit = s.permit ∨ (s'.permit = true ∧ ErrorAdded s s' ∧ HasTrigger checked src)

/-- Continuing from the state `s` the call returns (after what it had before) the statements `l`, and adds the issues `new`. -/
def Finishes (s : St) (l : List SAst) (new : List Issue) : Prop :=
  ∃ l1 l2 s1 s', Rounds s l1 s1 ∧ LastRound s1 l2 s' ∧ l = l1 ++ l2 ∧ s'.issues = s.issues ++ new

/-! ### COPY data -/

/-- `d`, with span `sp`, is the COPY data that comes after byte `pos` of the source; in the state `s'` the parser has read
the first token after it. -/
def CopyAt (checked : Bool) (src : List Char) (pos : Nat) (d : List Char) (sp : Span) (s' : St) : Prop :=
  ∃ (pre text lead past : List Char) (lx : Lexer), src = pre ++ text ∧ pos = blen pre ∧ CopyData text lead d lx.rest ∧
    sp = ⟨pos + blen lead, pos + blen lead + blen d⟩ ∧ SpanIs src sp d ∧
    lx.src = src ∧ src = past ++ lx.rest ∧ lx.pos = blen past ∧ lx.nextToken checked = .ok s'.token s'.span s'.lx

end SqlParse
