import Verif.Spec.GrammarStmt
import Verif.Spec.Written
import Verif.Spec.CopyData
/-!
Specification of the accepted language, part 4: whole sources.
-/
namespace SqlParse

/-- The number of an argument: how many arguments come before it. -/
def markerNo (o : Opts) (args : Span → Bool) (toks : List Tk) (sp : Span) : Nat :=
  (toks.filter fun p => argTk o args p && decide (p.2.start < sp.start)).length

/-- The options without the two flags about style, which do not matter for the grammar. -/
def Opts.noStyle (o : Opts) : Opts := { o with warnUnquoted := false, warnCaps := false }

/-- The environment in which the source with the tokens `toks`, of which `args` are arguments, and the COPY data `data` begins: `;` is the
delimiter, compound statements are not permitted outside of blocks. -/
def Env.start (o : Opts) (data : Data) (args : Span → Bool) (toks : List Tk) : Env :=
  { opts := o.noStyle, permit := false, delim := .semiColon, args := args, num := markerNo o args toks, data := data }

/-- The token at the end of the source. -/
def eofTk (src : List Char) : Tk := (.eof, ⟨blen src, blen src⟩)

/-- `Gap data p o l o' l'`: after the token `p` comes the text `l`, at byte offset `o`; without the data after `p`, if there is any, it
is the text `l'`, at offset `o'`. -/
inductive Gap (data : Data) (p : Tk) : Nat → List Char → Nat → List Char → Prop where
  | none (o : Nat) (l : List Char) (h : data.after p = none) : Gap data p o l o l
  | data (o : Nat) (past rest lead d : List Char) (h : data.after p = some (d, ⟨o + blen lead, o + blen lead + blen d⟩))
      (hd : CopyData (past ++ rest) lead d rest) : Gap data p o (past ++ rest) (o + blen past) rest

/-- `Laid checked data o l ts`: the text `l`, which begins at byte offset `o` of the source, is the tokens `ts`, with blanks and comments
before them, and with the data `data` between them; the last token is the end of the source.  (Without data this is `Written`.) -/
inductive Laid (checked : Bool) (data : Data) : Nat → List Char → List Tk → Prop where
  | eof (o : Nat) (u : List Char) (h : Skipped u []) : Laid checked data o u [(.eof, ⟨o + blen u, o + blen u⟩)]
  | tok (o o' : Nat) (u w rest rest' : List Char) (t : Token) (ts : List Tk) (ht : t ≠ .eof) (hs : Skipped u (w ++ rest))
      (hf : ReadsAs checked t w rest)
      (hg : Gap data (t, ⟨o + blen u, o + blen u + blen w⟩) (o + blen u + blen w) rest o' rest') (h : Laid checked data o' rest' ts) :
      Laid checked data o (u ++ (w ++ rest)) ((t, ⟨o + blen u, o + blen u + blen w⟩) :: ts)

/-- The source is one statement: written token by token, and the tokens are a sentence of the grammar. -/
def IsStatement (chk : Bool) (opts : Opts) (src : List Char) (v : SAst) : Prop :=
  ∃ data args ts, Laid chk data 0 src ts ∧ Stm (Env.start opts data args ts) ts v [eofTk src]

/-- Statements, each one followed by the delimiter; there can be more delimiters, and the delimiter can be changed with
`DELIMITER ;` and `DELIMITER $$`.  After COPY .. FROM STDIN and the delimiter comes data, which is also listed. -/
inductive Scr : Env → List Tk → List SAst → Prop where
  | eof {e : Env} {sp : Span} : Scr e [(.eof, sp)] []
  | skip {e : Env} {sp : Span} {ts : List Tk} {l : List SAst} (hd : e.data sp = none) (h : Scr e ts l) : Scr e ((e.delim, sp) :: ts) l
  | delimiter {e : Env} {t d : Token} {s s' : Span} {ts : List Tk} {l : List SAst} (h : t.isKw .DELIMITER = true)
      (hd : d = .semiColon ∨ d = .doubleDollar) (hn : e.data s' = none) (hs : Scr { e with delim := d } ts l) :
      Scr e ((t, s) :: (d, s') :: ts) l
  | stmt {e : Env} {ts r : List Tk} {s : Span} {v : SAst} {l : List SAst} (h : Stm e ts v ((e.delim, s) :: r))
      (hc : takesData v = false) (hd : e.data s = none) (hs : Scr e r l) : Scr e ts (v :: l)
  | copy {e : Env} {ts r : List Tk} {s sp : Span} {d : List Char} {v : SAst} {l : List SAst}
      (h : Stm e ts v ((e.delim, s) :: r)) (hc : takesData v = true) (hd : e.data s = some (d, sp)) (hs : Scr e r l) :
      Scr e ts (v :: ⟨.node .Statement_Stdin [.str d, .span sp]⟩ :: l)

/-- The source is a script with the statements `l`. -/
def IsScript (chk : Bool) (opts : Opts) (src : List Char) (l : List SAst) : Prop :=
  ∃ data args ts, Laid chk data 0 src ts ∧ Scr (Env.start opts data args ts) ts l

end SqlParse
