import Verif.Spec.GrammarScript
/-! Specification for C58: statements with mistakes in lists. -/
namespace SqlParse

/-- A bracket and the one that closes it. -/
inductive Brackets : Token → Token → Prop where
  | paren : Brackets .lParen .rParen
  | bracket : Brackets .lBracket .rBracket
  | brace : Brackets .lBrace .rBrace

/-- An opening or closing bracket. -/
def Token.isBracket (t : Token) : Bool :=
  decide (t = .lParen) || decide (t = .rParen) || decide (t = .lBracket) || decide (t = .rBracket) || decide (t = .lBrace) || decide (t = .rBrace)

/-- A token that may be among those that are skipped: not the end, not the delimiter, not an argument. -/
structure Skippable (e : Env) (p : Tk) : Prop where
  eof : p.1 ≠ .eof
  delim : p.1 ≠ e.delim
  arg : e.noArg p

/-- Any tokens, in which the brackets match, with no token satisfying `stop` outside of the brackets. -/
inductive Nested (e : Env) : (stop : Token → Bool) → List Tk → Prop where
  | nil {stop : Token → Bool} : Nested e stop []
  | tok {stop : Token → Bool} {t : Token} {sp : Span} {ts : List Tk} (hs : Skippable e (t, sp)) (hb : t.isBracket = false) (hq : stop t = false) (h : Nested e stop ts) :
      Nested e stop ((t, sp) :: ts)
  | group {stop : Token → Bool} {t u : Token} {sp sp' : Span} {ts ts' : List Tk} (hb : Brackets t u) (hs : Skippable e (t, sp)) (hs' : Skippable e (u, sp')) (hq : stop t = false)
      (h : Nested e (fun _ => false) ts) (h' : Nested e stop ts') : Nested e stop ((t, sp) :: (ts ++ (u, sp') :: ts'))

/-- `,` or `)` -/
def Token.endsItem (t : Token) : Bool := decide (t = .comma) || decide (t = .rParen)

/-- An Error: what it says and where. -/
abbrev Mistake := Msg × Span

/-- The mistakes, as issues. -/
def Reports1 (x : List Mistake) (is : List Issue) : Prop := is.map (fun i => (i.level, i.message, i.span, i.fragments)) = x.map fun m => (Level.error, m.1, m.2, [])

/-- No definition begins with this token: it is not a word. -/
def NoName (t : Token) : Prop := ∀ v k, t ≠ .ident v k

/-- No data type begins with this token: it is not a word, or it is not a word that begins a type (in PostgreSQL every word may be the name of a type). -/
def NoType (e : Env) (t : Token) : Prop :=
  ∀ v k, t = .ident v k → plainTypes.lookup k = none ∧ widthTypes.lookup k = none ∧ k ∉ otherTypes ∧ e.opts.dialect ≠ .postgreSQL

/-- `DefnE e ts l x r`: the tokens `ts` begin with a definition that extends up to `r`; `l` is what the table gets of it, `x` the mistakes in it.
It is right; or it has no name; or it has a name and no type; or there are tokens after it that do not belong to it. -/
inductive DefnE (e : Env) : List Tk → List Ast → List Mistake → List Tk → Prop where
  | right {ts r : List Tk} {a : Ast} (h : Defn e ts a r) (hr : Next (fun t => t.endsItem = true) r) : DefnE e ts [a] [] r
  | noName {junk r tl : List Tk} {t : Token} {sp : Span} (hj : Nested e Token.endsItem junk) (hr : Next (fun t => t.endsItem = true) r) (h : junk ++ r = (t, sp) :: tl) (ht : NoName t) :
      DefnE e (junk ++ r) [] [(.expected "identifier", sp)] r
  | noType {ts junk r tl : List Tk} {v : List Char} {k : Keyword} {t : Token} {sp sp' : Span} {i : Ast} (hi : Idn e ((.ident v k, sp') :: ts) i (junk ++ r))
      (hj : Nested e Token.endsItem junk) (hr : Next (fun t => t.endsItem = true) r)
      (h : junk ++ r = (t, sp) :: tl) (ht : NoType e t) : DefnE e ((.ident v k, sp') :: ts) [] [(.expected "type", sp)] r
  | extra {ts junk r : List Tk} {a : Ast} {t : Token} {sp : Span} (h : Defn e ts a ((t, sp) :: (junk ++ r))) (hj : Nested e Token.endsItem ((t, sp) :: junk))
      (hr : Next (fun t => t.endsItem = true) r) : DefnE e ts [a] [(.expected "')' or ','", sp)] r

/-- Items separated by commas, up to `)`, some of them wrong. -/
inductive ListE (R : List Tk → List Ast → List Mistake → List Tk → Prop) : List Tk → List Ast → List Mistake → List Tk → Prop where
  | one {ts r : List Tk} {l : List Ast} {x : List Mistake} {rp : Span} (h : R ts l x ((.rParen, rp) :: r)) : ListE R ts l x ((.rParen, rp) :: r)
  | cons {ts r1 r : List Tk} {c : Span} {l l' : List Ast} {x x' : List Mistake} (h : R ts l x ((.comma, c) :: r1)) (hl : ListE R r1 l' x' r) :
      ListE R ts (l ++ l') (x ++ x') r

/-- Options of a table, something follows. -/
inductive OptsBefore (e : Env) : List Tk → List Ast → List Tk → Prop where
  | nil {ts : List Tk} : OptsBefore e ts [] ts
  | cons {ts r1 r : List Tk} {a : Ast} {l : List Ast} (h : TblOpt e ts a r1) (hl : OptsBefore e r1 l r) : OptsBefore e ts (a :: l) r

/-- The options of a table, up to the end of the statement; if there are tokens `(t, sp) :: junk` that are no option, the options before them. -/
inductive TblOptsE (e : Env) : List Tk → List Ast → List Mistake → List Tk → Prop where
  | right {ts r : List Tk} {l : List Ast} (h : TblOpts e ts l r) : TblOptsE e ts l [] r
  | extra {ts junk r : List Tk} {l : List Ast} {t : Token} {sp : Span} (h : OptsBefore e ts l ((t, sp) :: (junk ++ r))) (ht : ∀ k ∈ tblOptWords, t.isKw k = false)
      (hj : Nested e (fun t => decide (t = .eof) || decide (t = e.delim)) ((t, sp) :: junk)) (hr : Next (fun t => (decide (t = .eof) || decide (t = e.delim)) = true) r) :
      TblOptsE e ts l [(.expected "table option or delimiter", sp)] r

/-- CREATE TABLE with mistakes in the definitions and options. -/
inductive TableE (e : Env) : List Tk → SAst → List Mistake → List Tk → Prop where
  | mk {t t' : Token} {c s lp rp : Span} {ts r1 r2 r3 r4 r : List Tk} {os : List Ast} {ine : Option Span} {q : Ast} {ds l : List Ast} {x x' : List Mistake} (h : t.isKw .CREATE = true)
      (ho : CrOpts e ts os ((t', s) :: r1)) (h' : t'.isKw .TABLE = true)
      (hi : OptKw .IF (fun i ts a r => ∃ s, Kws [.NOT, .EXISTS] ts s r ∧ a = (⟨i.start, s.stop⟩ : Span)) r1 ine r2) (hq : QName e r2 q ((.lParen, lp) :: r3))
      (hn : Next (fun t => t ≠ .rParen) r3) (hd : ListE (DefnE e) r3 ds x ((.rParen, rp) :: r4)) (hl : TblOptsE e r4 l x' r) :
      TableE e ((t, c) :: ts) ⟨nd% CreateTable [c, os, s, q, ine, ds, l]⟩ (x ++ x') r

/-! ### INSERT -/

/-- Items, each one followed by a comma. -/
inductive Before (R : List Tk → Ast → List Tk → Prop) : List Tk → List Ast → List Tk → Prop where
  | nil {ts : List Tk} : Before R ts [] ts
  | cons {ts r1 r : List Tk} {a : Ast} {sp : Span} {l : List Ast} (h : R ts a ((.comma, sp) :: r1)) (hl : Before R r1 l r) : Before R ts (a :: l) r

/-- `( item , item .. )`.  When an item is missing (`F`: no item begins with this token), or there are tokens after an item that do not belong to it,
this is a mistake, and only the items before it remain. -/
inductive ParenE (e : Env) (R : List Tk → Ast → List Tk → Prop) (F : Token → Prop) (m : Msg) : List Tk → List Ast → List Mistake → List Tk → Prop where
  | right {ts r : List Tk} {l : List Ast} (h : Paren R ts l r) : ParenE e R F m ts l [] r
  | extra {ts junk r : List Tk} {l : List Ast} {t : Token} {lp rp sp : Span} (h : CommaL R ts l ((t, sp) :: (junk ++ (.rParen, rp) :: r)))
      (hj : Nested e (fun t => decide (t = .rParen)) ((t, sp) :: junk)) : ParenE e R F m ((.lParen, lp) :: ts) l [(.expected ")", sp)] r
  | missing {ts junk r tl : List Tk} {l : List Ast} {t : Token} {lp rp sp : Span} (h : Before R ts l (junk ++ (.rParen, rp) :: r))
      (hj : Nested e (fun t => decide (t = .rParen)) junk) (h' : junk ++ (.rParen, rp) :: r = (t, sp) :: tl) (ht : F t) :
      ParenE e R F m ((.lParen, lp) :: ts) l [(m, sp)] r

/-- No identifier begins with this token. -/
def NoIdent (e : Env) (t : Token) : Prop := (∀ v k, t ≠ .ident v k) ∧ ∀ v, t = .doubleQuotedString v → e.opts.dialect ≠ .postgreSQL

/-- No expression begins with this token. -/
def NoExpr (t : Token) : Prop := t = .comma ∨ t = .rParen

/-- The columns. -/
inductive ColsE (e : Env) : List Tk → List Ast → List Mistake → List Tk → Prop where
  | none {r : List Tk} (h : Next (· ≠ .lParen) r) : ColsE e r [] [] r
  | some {ts r : List Tk} {l : List Ast} {x : List Mistake} (h : ParenE e (Idn e) (NoIdent e) (.expected "identifier") ts l x r) : ColsE e ts l x r

/-- A row of values. -/
abbrev RowE (e : Env) : List Tk → List Ast → List Mistake → List Tk → Prop := ParenE e (Ex e false) NoExpr (.plain "Expected expression")

/-- The rows. -/
inductive RowsE (e : Env) : List Tk → List (List Ast) → List Mistake → List Tk → Prop where
  | one {ts r : List Tk} {l : List Ast} {x : List Mistake} (h : RowE e ts l x r) (hr : Next (· ≠ .comma) r) : RowsE e ts [l] x r
  | cons {ts r1 r : List Tk} {sp : Span} {l : List Ast} {ls : List (List Ast)} {x x' : List Mistake} (h : RowE e ts l x ((.comma, sp) :: r1)) (hl : RowsE e r1 ls x' r) :
      RowsE e ts (l :: ls) (x ++ x') r

/-- INSERT, REPLACE with mistakes in the columns and the rows. -/
inductive InsE (e : Env) : List Tk → SAst → List Mistake → List Tk → Prop where
  | mk {t t' : Token} {sp s : Span} {ts r1 r2 r3 r4 r5 r6 r : List Tk} {K : Kind} {fl cols : List Ast} {into : Option Span} {tb : Ast} {rows : List (List Ast)}
      {on : Option Ast × Option Ast} {ret : Option (Span × List Ast)} {x x' : List Mistake}
      (h : insertTypeWords.lookup t.kw = some K) (hf : Flags insertFlagWords ts fl r1)
      (hr : t.isKw .REPLACE = true → ∀ f ∈ fl, ∀ s : Span, f ≠ nd% InsertReplaceFlag_HighPriority [s] ∧ f ≠ nd% InsertReplaceFlag_Ignore [s])
      (hi : OptK .INTO r1 into r2) (ht : QName e r2 tb r3) (hc : ColsE e r3 cols x ((t', s) :: r4)) (hv : t'.isKw .VALUE = true ∨ t'.isKw .VALUES = true)
      (hb : RowsE e r4 rows x' r5) (ho : InsOn e r5 on r6) (hret : Returning e r6 ret r) :
      InsE e ((t, sp) :: ts) ⟨nd% InsertReplace [Ast.node K [.span sp], fl, into, tb, cols, some (s, rows), (none : Option Ast), (none : Option Ast), on.1, on.2, ret]⟩ (x ++ x') r

/-- A statement with mistakes. -/
inductive StmE (e : Env) : List Tk → SAst → List Mistake → List Tk → Prop where
  | table {ts r : List Tk} {v : SAst} {x : List Mistake} (h : TableE e ts v x r) : StmE e ts v x r
  | insert {ts r : List Tk} {v : SAst} {x : List Mistake} (h : InsE e ts v x r) : StmE e ts v x r

/-- A statement, right or with mistakes. -/
inductive StmX (e : Env) : List Tk → SAst → List Mistake → List Tk → Prop where
  | right {ts r : List Tk} {v : SAst} (h : Stm e ts v r) : StmX e ts v [] r
  | wrong {ts r : List Tk} {v : SAst} {x : List Mistake} (h : StmE e ts v x r) : StmX e ts v x r

/-! ### Whole sources -/

/-- One statement; there may be tokens after it; or there is none. -/
inductive OneE (e : Env) : List Tk → Option SAst → List Mistake → Prop where
  | stmt {ts : List Tk} {v : SAst} {x : List Mistake} {sp : Span} (h : StmX e ts v x [(.eof, sp)]) : OneE e ts (some v) x
  | extra {ts tl : List Tk} {v : SAst} {x : List Mistake} {t : Token} {sp : Span} (h : StmX e ts v x ((t, sp) :: tl)) (ht : t ≠ .eof) :
      OneE e ts (some v) (x ++ [(.expected "Unexpected token after statement", sp)])
  | none {tl : List Tk} {t : Token} {sp : Span} (h : NoStmt e t) : OneE e ((t, sp) :: tl) none [(.expected "Statement", sp)]

/-- Statements, each one followed by the delimiter (see `Scr`), with mistakes: a delimiter may be missing, at the end or with other tokens in its place, up to the
next delimiter; and there may be something that is not the beginning of a statement, then what is there up to the next delimiter counts for nothing. -/
inductive ScrE : Env → List Tk → List SAst → List Mistake → Prop where
  | eof {e : Env} {sp : Span} : ScrE e [(.eof, sp)] [] []
  | skip {e : Env} {sp : Span} {ts : List Tk} {l : List SAst} {x : List Mistake} (h : ScrE e ts l x) : ScrE e ((e.delim, sp) :: ts) l x
  | delimiter {e : Env} {t d : Token} {s s' : Span} {ts : List Tk} {l : List SAst} {x : List Mistake} (h : t.isKw .DELIMITER = true)
      (hd : d = .semiColon ∨ d = .doubleDollar) (hs : ScrE { e with delim := d } ts l x) : ScrE e ((t, s) :: (d, s') :: ts) l x
  | stmt {e : Env} {ts r : List Tk} {s : Span} {v : SAst} {l : List SAst} {x x' : List Mistake} (h : StmX e ts v x ((e.delim, s) :: r))
      (hc : takesData v = false) (hs : ScrE e r l x') : ScrE e ts (v :: l) (x ++ x')
  | extra {e : Env} {ts r junk : List Tk} {t : Token} {s sp : Span} {v : SAst} {l : List SAst} {x x' : List Mistake} (h : StmX e ts v x ((t, sp) :: (junk ++ (e.delim, s) :: r)))
      (hj : ∀ q ∈ (t, sp) :: junk, Skippable e q) (hc : takesData v = false) (hs : ScrE e r l x') : ScrE e ts (v :: l) (x ++ ((.expected (.tok e.delim), sp) :: x'))
  | last {e : Env} {ts junk : List Tk} {s sp : Span} {t : Token} {v : SAst} {x : List Mistake} (h : StmX e ts v x (junk ++ [(.eof, s)]))
      (hj : ∀ q ∈ junk, Skippable e q) (hh : (junk ++ [(Token.eof, s)]).head? = some (t, sp)) : ScrE e ts [v] (x ++ [(.expected (.tok e.delim), sp)])
  | none {e : Env} {r junk : List Tk} {t : Token} {s sp : Span} {l : List SAst} {x : List Mistake} (ht : NoStmt e t) (hk : t.isKw .DELIMITER = false)
      (hj : ∀ q ∈ (t, sp) :: junk, Skippable e q) (hs : ScrE e r l x) : ScrE e ((t, sp) :: (junk ++ (e.delim, s) :: r)) l ((.expected "Statement", sp) :: x)
  | noneLast {e : Env} {junk : List Tk} {t : Token} {s sp : Span} (ht : NoStmt e t) (hk : t.isKw .DELIMITER = false)
      (hj : ∀ q ∈ (t, sp) :: junk, Skippable e q) : ScrE e ((t, sp) :: (junk ++ [(.eof, s)])) [] [(.expected "Statement", sp)]

/-- The source is a statement with mistakes `x`, and `v` is what remains of it without them. -/
def IsStatementE (chk : Bool) (opts : Opts) (src : List Char) (v : Option SAst) (x : List Mistake) : Prop :=
  ∃ args ts, Laid chk (fun _ => none) 0 src ts ∧ OneE (Env.start opts (fun _ => none) args ts) ts v x

/-- The source is a script with mistakes `x`, and `l` is what remains of it without them. -/
def IsScriptE (chk : Bool) (opts : Opts) (src : List Char) (l : List SAst) (x : List Mistake) : Prop :=
  ∃ args ts, Laid chk (fun _ => none) 0 src ts ∧ ScrE (Env.start opts (fun _ => none) args ts) ts l x

end SqlParse
