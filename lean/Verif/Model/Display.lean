import Verif.Api
/-! Model of `impl Display for Issues` (/repo/src/issue.rs:140-170) and of the accessors of `Issues`. -/
namespace SqlParse

/-- issue.rs:152-156, 160-164: `self.src[..off].chars().filter(|v| *v == '\n').count() + 1`; `none` is the panic of the
slice. -/
def lineAt (src : List Char) (off : Nat) : Option Nat :=
  (takeBytes src off).map fun p => (p.filter (fun v => v == '\n')).length + 1

/-- `{}` of a `usize` -/
def natText (n : Nat) : List Char := Nat.toDigits 10 n

/-- issue.rs:157, 165 `writeln!(f, "    At line {}, code {}", line, sql_segment)` -/
def atLine (line : Nat) (code : List Char) : List Char :=
  c!"    At line " ++ natText line ++ c!", code " ++ code ++ c!"\n"

/-- issue.rs:158-166 the loop over the fragments, `out` is what has been written -/
def showFragments (src : List Char) (out : List Char) : List Fragment → Option (List Char)
  | [] => some out
  | f :: fs =>
    match lineAt src f.span.start with
    | some line => showFragments src (out ++ (c!"  " ++ f.message.toList ++ c!"\n") ++ atLine line f.segment) fs
    | none => none

/-- issue.rs:147-150 `match issue.level { .. }` -/
def levelHead : Level → List Char
  | .warning => c!"  Warning "
  | .error => c!"  Error "

/-- issue.rs:146-167 the loop over the issues -/
def showIssues (src : List Char) (out : List Char) : List Issue → Option (List Char)
  | [] => some out
  | i :: is =>
    match lineAt src i.span.start with
    | some line =>
      match showFragments src (out ++ levelHead i.level ++ (i.message.text ++ c!"\n") ++ atLine line i.segment) i.fragments with
      | some out' => showIssues src out' is
      | none => none
    | none => none

/-- issue.rs:141-169 `fmt`; `none` is a panic -/
def Issues.display (i : Issues) : Option (List Char) :=
  if i.issues.isEmpty then some c!"No issues\n" else showIssues i.src c!"Issues:\n" i.issues

/-- issue.rs:116-118 `segment`; `none` is a panic -/
def Issues.segment (i : Issues) (sp : Span) : Option (List Char) := slice i.src sp.start sp.stop

/-- issue.rs:78-93 (`err`), 97-112 (`warn`): the new issue is pushed without fragments, the handle that is returned points to it; `none` is a panic -/
def Issues.add (i : Issues) (l : Level) (msg : String) (sp : Span) : Option Issues :=
  match i.segment sp with
  | some seg => some ⟨i.src, i.issues ++ [⟨l, .plain msg, sp, seg, []⟩]⟩
  | none => none

/-- Push a fragment to the last issue of a list. -/
def addFragment (f : Fragment) : List Issue → List Issue
  | [] => []
  | [i] => [{ i with fragments := i.fragments ++ [f] }]
  | i :: is => i :: addFragment f is

/-- issue.rs:57-69 `IssueHandle::frag`, called on the handle of the last issue (while the handle exists nothing else can be
pushed); `none` is a panic -/
def Issues.frag (i : Issues) (msg : String) (sp : Span) : Option Issues :=
  match slice i.src sp.start sp.stop with
  | some seg => some ⟨i.src, addFragment ⟨msg, sp, seg⟩ i.issues⟩
  | none => none

/-- What a user of an `Issues` object may call; `ice` and `todo` are lib.rs:208-216 `issue_ice!` and lib.rs:219-227 `issue_todo!`. -/
inductive IssueCall where
  | err (msg : String) (sp : Span)
  | warn (msg : String) (sp : Span)
  | frag (msg : String) (sp : Span)
  | ice (file : String) (line : Nat) (sp : Span)
  | todo (file : String) (line : Nat) (sp : Span)

/-- issue.rs:78-114, 57-69, lib.rs:208-227 the calls -/
def Issues.call (i : Issues) : IssueCall → Option Issues
  | .err msg sp => i.add .error msg sp
  | .warn msg sp => i.add .warning msg sp
  | .frag msg sp => i.frag msg sp
  | .ice file line sp => i.add .error ("Internal compiler error in " ++ file ++ ":" ++ toString line) sp
  | .todo file line sp => i.add .error ("Not yet implemented " ++ file ++ ":" ++ toString line) sp

/-- Calls one after another. -/
def Issues.calls (i : Issues) : List IssueCall → Option Issues
  | [] => some i
  | c :: cs =>
    match i.call c with
    | some j => j.calls cs
    | none => none

/-- issue.rs:127-129 `get` -/
def Issues.get (i : Issues) : List Issue := i.issues

/-- issue.rs:131-133 `into_vec` -/
def Issues.intoVec (i : Issues) : List Issue := i.issues

end SqlParse
