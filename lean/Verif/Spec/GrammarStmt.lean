import Verif.Spec.Grammar
/-!
Specification of the accepted language, part 3: statements.  (From the model only the keyword tables are used.)
-/
namespace SqlParse

/-- Optional keywords `k ks ..`: the span of all. -/
inductive OptKws (k : Keyword) (ks : List Keyword) : List Tk → Option Span → List Tk → Prop where
  | none {r : List Tk} (h : NotKw k r) : OptKws k ks r none r
  | some {ts r : List Tk} {sp : Span} (h : Kws (k :: ks) ts sp r) : OptKws k ks ts (some sp) r

/-- `[RETURNING expr, ..]` -/
abbrev Returning (e : Env) : List Tk → Option (Span × List Ast) → List Tk → Prop :=
  OptKw .RETURNING fun sp ts a r => ∃ l, a = (sp, l) ∧ CommaL (SelE e) ts l r

/-- `[WHERE expr]` -/
abbrev Where (e : Env) : List Tk → Option (Ast × Span) → List Tk → Prop := OptKw .WHERE (ExK e)

/-! ### DELETE, UPDATE, INSERT -/

/-- DELETE -/
inductive Del (e : Env) : List Tk → Ast → List Tk → Prop where
  /-- `DELETE .. FROM a, b [USING c, d] ..` -/
  | «from» {t t' : Token} {d f : Span} {ts r1 r2 r3 r4 r : List Tk} {fl tb : List Ast} {u : Option (List Ast)}
      {w : Option (Ast × Span)} {ret : Option (Span × List Ast)} (h : t.isKw .DELETE = true)
      (hf : Flags deleteFlagWords ts fl ((t', f) :: r1)) (h' : t'.isKw .FROM = true) (ht : CommaL (QName e) r1 tb r2)
      (hu : OptKw .USING (fun _ => CommaL (TR e)) r2 u r3) (hw : Where e r3 w r4) (hr : Returning e r4 ret r) :
      Del e ((t, d) :: ts) (nd% Delete [d, fl, f, tb, u.getD [], w, ret]) r
  /-- `DELETE .. a, b FROM c, d ..` -/
  | multi {t t' : Token} {d f : Span} {ts r1 r2 r3 r4 r : List Tk} {fl tb u : List Ast} {w : Option (Ast × Span)}
      {ret : Option (Span × List Ast)} (h : t.isKw .DELETE = true) (hf : Flags deleteFlagWords ts fl r1)
      (ht : CommaL (QName e) r1 tb ((t', f) :: r2)) (h' : t'.isKw .FROM = true) (hu : CommaL (TR e) r2 u r3)
      (hn : NotKw .USING r3) (hw : Where e r3 w r4) (hr : Returning e r4 ret r) :
      Del e ((t, d) :: ts) (nd% Delete [d, fl, f, tb, u, w, ret]) r

/-- `a.b = expr` -/
inductive USet (e : Env) : List Tk → List Ast × Ast → List Tk → Prop where
  | mk {ts r1 r : List Tk} {p : List (Ast × Span)} {i a : Ast} {q : Span} (h : Dotted e ts p i ((.eq, q) :: r1))
      (ha : Ex e false r1 a r) : USet e ts (p.map Prod.fst ++ [i], a) r

/-- UPDATE; RETURNING in PostgreSQL only -/
inductive Upd (e : Env) : List Tk → Ast → List Tk → Prop where
  | mk {t t' : Token} {d s : Span} {ts r1 r2 r3 r4 r : List Tk} {fl tb : List Ast} {set : List (List Ast × Ast)}
      {w : Option (Ast × Span)} {ret : Option (Span × List Ast)} (h : t.isKw .UPDATE = true)
      (hf : Flags updateFlagWords ts fl r1) (ht : CommaL (TR e) r1 tb ((t', s) :: r2)) (h' : t'.isKw .SET = true)
      (hs : CommaL (USet e) r2 set r3) (hw : Where e r3 w r4) (hr : Returning e r4 ret r)
      (hd : ret ≠ none → e.opts.dialect = .postgreSQL) :
      Upd e ((t, d) :: ts) (nd% Update [d, fl, tb, s, set, w, ret]) r

/-- `( R , .. )` -/
inductive Paren {α : Type} (R : List Tk → α → List Tk → Prop) : List Tk → List α → List Tk → Prop where
  | mk {lp rp : Span} {ts r : List Tk} {l : List α} (h : CommaL R ts l ((.rParen, rp) :: r)) : Paren R ((.lParen, lp) :: ts) l r

/-- `name = expr`, with the span of `=` -/
inductive SetPair (e : Env) : List Tk → Ast → List Tk → Prop where
  | mk {ts r1 r : List Tk} {i a : Ast} {q : Span} (h : Idn e ts i ((.eq, q) :: r1)) (ha : Ex e false r1 a r) :
      SetPair e ts (nd% InsertReplaceSetPair [i, q, a]) r

/-- `name = expr` -/
inductive Assign (e : Env) : List Tk → Ast × Ast → List Tk → Prop where
  | mk {ts r1 r : List Tk} {i a : Ast} {q : Span} (h : Idn e ts i ((.eq, q) :: r1)) (ha : Ex e false r1 a r) : Assign e ts (i, a) r

/-- The columns of INSERT. -/
inductive InsCols (e : Env) : List Tk → List Ast → List Tk → Prop where
  | none {r : List Tk} (h : Next (· ≠ .lParen) r) : InsCols e r [] r
  | some {ts r : List Tk} {l : List Ast} (h : Paren (Idn e) ts l r) : InsCols e ts l r

/-- What is inserted: values, select, set.  SET is not allowed after columns. -/
inductive InsBody (e : Env) (cols : List Ast) :
    List Tk → Option (Span × List (List Ast)) × Option Ast × Option Ast → List Tk → Prop where
  | select {ts r : List Tk} {q : Ast} (h : Sel e ts q r) : InsBody e cols ts (none, some q, none) r
  | values {t : Token} {sp : Span} {ts r : List Tk} {rows : List (List Ast)} (h : t.isKw .VALUE = true ∨ t.isKw .VALUES = true)
      (hr : CommaL (Paren (Ex e false)) ts rows r) : InsBody e cols ((t, sp) :: ts) (some (sp, rows), none, none) r
  | set {t : Token} {sp : Span} {ts r : List Tk} {l : List Ast} (hc : cols = []) (h : t.isKw .SET = true)
      (hl : CommaL (SetPair e) ts l r) : InsBody e cols ((t, sp) :: ts) (none, none, some (nd% InsertReplaceSet [sp, l])) r

/-- The target of ON CONFLICT. -/
inductive ConflictTarget (e : Env) : List Tk → OAst → List Tk → Prop where
  | cols {ts r : List Tk} {l : List Ast} (h : Paren (Idn e) ts l r) : ConflictTarget e ts (ond% OnConflictTarget_Columns [l]) r
  | constraint {ts r1 r : List Tk} {s : Span} {i : Ast} (h : Kws [.ON, .CONSTRAINT] ts s r1) (hi : Idn e r1 i r) :
      ConflictTarget e ts (ond% OnConflictTarget_OnConstraint [s, i]) r
  | none {r : List Tk} (h : Next (fun t => t ≠ .lParen ∧ t.isKw .ON = false) r) : ConflictTarget e r (ond% OnConflictTarget_None []) r

/-- The action of ON CONFLICT. -/
inductive ConflictAction (e : Env) : List Tk → Ast → List Tk → Prop where
  | nothing {ts r : List Tk} {s : Span} (h : Kws [.DO, .NOTHING] ts s r) : ConflictAction e ts (nd% OnConflictAction_DoNothing [s]) r
  | update {ts r1 r2 r : List Tk} {s : Span} {l : List (Ast × Ast)} {w : Option (Ast × Span)} (h : Kws [.DO, .UPDATE, .SET] ts s r1)
      (hl : CommaL (Assign e) r1 l r2) (hw : Where e r2 w r) :
      ConflictAction e ts (nd% OnConflictAction_DoUpdateSet [s, l, w.map fun p => (p.2, p.1)]) r

/-- ON DUPLICATE KEY UPDATE (MariaDB), ON CONFLICT (PostgreSQL). -/
inductive InsOn (e : Env) : List Tk → Option Ast × Option Ast → List Tk → Prop where
  | none {r : List Tk} (h : NotKw .ON r) : InsOn e r (none, none) r
  | dup {ts r1 r : List Tk} {s : Span} {l : List Ast} (hd : e.opts.dialect = .mariaDB) (h : Kws [.ON, .DUPLICATE, .KEY, .UPDATE] ts s r1)
      (hl : CommaL (SetPair e) r1 l r) : InsOn e ts (some (nd% InsertReplaceOnDuplicateKeyUpdate [s, l]), none) r
  | conflict {ts r1 r2 r : List Tk} {s : Span} {g : OAst} {a : Ast} (hd : e.opts.dialect = .postgreSQL)
      (h : Kws [.ON, .CONFLICT] ts s r1) (hg : ConflictTarget e r1 g r2) (ha : ConflictAction e r2 a r) :
      InsOn e ts (none, some (nd% OnConflict [s, g, a])) r

/-- INSERT, REPLACE; not every flag is allowed in REPLACE -/
inductive Ins (e : Env) : List Tk → Ast → List Tk → Prop where
  | mk {t : Token} {sp : Span} {ts r1 r2 r3 r4 r5 r6 r : List Tk} {K : Kind} {fl cols : List Ast} {into : Option Span} {tb : Ast}
      {b : Option (Span × List (List Ast)) × Option Ast × Option Ast} {on : Option Ast × Option Ast} {ret : Option (Span × List Ast)}
      (h : insertTypeWords.lookup t.kw = some K) (hf : Flags insertFlagWords ts fl r1)
      (hr : t.isKw .REPLACE = true → ∀ f ∈ fl, ∀ s : Span, f ≠ nd% InsertReplaceFlag_HighPriority [s] ∧ f ≠ nd% InsertReplaceFlag_Ignore [s])
      (hi : OptK .INTO r1 into r2) (ht : QName e r2 tb r3) (hc : InsCols e r3 cols r4) (hb : InsBody e cols r4 b r5)
      (ho : InsOn e r5 on r6) (hret : Returning e r6 ret r) :
      Ins e ((t, sp) :: ts) (nd% InsertReplace [Ast.node K [.span sp], fl, into, tb, cols, b.1, b.2.1, b.2.2, on.1, on.2, ret]) r

/-! ### RENAME, TRUNCATE, DROP -/

/-- `a TO b` -/
inductive ToTable (e : Env) : List Tk → Ast → List Tk → Prop where
  | mk {ts r1 r : List Tk} {a b : Ast} {t : Token} {s : Span} (ha : QName e ts a ((t, s) :: r1)) (h : t.isKw .TO = true)
      (hb : QName e r1 b r) : ToTable e ts (nd% TableToTable [a, s, b]) r

/-- RENAME TABLE -/
inductive Ren (e : Env) : List Tk → Ast → List Tk → Prop where
  | mk {t : Token} {sp : Span} {ts r1 r : List Tk} {k : Option Span} {l : List Ast} (h : t.isKw .RENAME = true)
      (hk : OptK .TABLE ts k r1) (hl : CommaL (ToTable e) r1 l r) : Ren e ((t, sp) :: ts) (nd% RenameTable [sp, k, l]) r

/-- TRUNCATE TABLE -/
inductive Trunc (e : Env) : List Tk → Ast → List Tk → Prop where
  | mk {t : Token} {sp : Span} {ts r1 r : List Tk} {k : Option Span} {n : Ast} (h : t.isKw .TRUNCATE = true)
      (hk : OptK .TABLE ts k r1) (hn : QName e r1 n r) : Trunc e ((t, sp) :: ts) (nd% TruncateTable [sp, k, n]) r

/-- `k [IF EXISTS] name` -/
inductive DropName (R : List Tk → Ast → List Tk → Prop) (k : Keyword) : List Tk → Span × Option Span × Ast → List Tk → Prop where
  | mk {t : Token} {s : Span} {ts r1 r : List Tk} {ie : Option Span} {n : Ast} (h : t.isKw k = true)
      (he : OptKws .IF [.EXISTS] ts ie r1) (hn : R r1 n r) : DropName R k ((t, s) :: ts) (s, ie, n) r

/-- What is dropped, after `DROP [TEMPORARY]` (TEMPORARY is ignored, except for tables and views). -/
inductive DropWhat (e : Env) (d : Span) (tmp : Option Span) : List Tk → Ast → List Tk → Prop where
  | table {t : Token} {s : Span} {ts r1 r : List Tk} {ie : Option Span} {l : List Ast} (h : t.isKw .TABLE = true)
      (he : OptKws .IF [.EXISTS] ts ie r1) (hl : CommaL (QName e) r1 l r) (hd : e.opts.dialect = .postgreSQL → NotKw .CASCADE r) :
      DropWhat e d tmp ((t, s) :: ts) (nd% DropTable [d, tmp, s, ie, l, (none : Option Span)]) r
  | tableCascade {t t' : Token} {s c : Span} {ts r1 r : List Tk} {ie : Option Span} {l : List Ast} (h : t.isKw .TABLE = true)
      (he : OptKws .IF [.EXISTS] ts ie r1) (hl : CommaL (QName e) r1 l ((t', c) :: r)) (hd : e.opts.dialect = .postgreSQL)
      (h' : t'.isKw .CASCADE = true) : DropWhat e d tmp ((t, s) :: ts) (nd% DropTable [d, tmp, s, ie, l, some c]) r
  | view {t : Token} {s : Span} {ts r1 r : List Tk} {ie : Option Span} {l : List Ast} (h : t.isKw .VIEW = true)
      (he : OptKws .IF [.EXISTS] ts ie r1) (hl : CommaL (QName e) r1 l r) :
      DropWhat e d tmp ((t, s) :: ts) (nd% DropView [d, tmp, s, ie, l]) r
  | database {ts r : List Tk} {x : Span × Option Span × Ast} (h : DropName (Idn e) .DATABASE ts x r) :
      DropWhat e d tmp ts (nd% DropDatabase [d, x.1, x.2.1, x.2.2]) r
  | schema {ts r : List Tk} {x : Span × Option Span × Ast} (h : DropName (Idn e) .SCHEMA ts x r) :
      DropWhat e d tmp ts (nd% DropDatabase [d, x.1, x.2.1, x.2.2]) r
  | event {ts r : List Tk} {x : Span × Option Span × Ast} (h : DropName (QName e) .EVENT ts x r) :
      DropWhat e d tmp ts (nd% DropEvent [d, x.1, x.2.1, x.2.2]) r
  | function {ts r : List Tk} {x : Span × Option Span × Ast} (h : DropName (QName e) .FUNCTION ts x r) :
      DropWhat e d tmp ts (nd% DropFunction [d, x.1, x.2.1, x.2.2]) r
  | procedure {ts r : List Tk} {x : Span × Option Span × Ast} (h : DropName (QName e) .PROCEDURE ts x r) :
      DropWhat e d tmp ts (nd% DropProcedure [d, x.1, x.2.1, x.2.2]) r
  | server {ts r : List Tk} {x : Span × Option Span × Ast} (h : DropName (Idn e) .SERVER ts x r) :
      DropWhat e d tmp ts (nd% DropServer [d, x.1, x.2.1, x.2.2]) r
  | trigger {ts r : List Tk} {x : Span × Option Span × Ast} (h : DropName (QName e) .TRIGGER ts x r) :
      DropWhat e d tmp ts (nd% DropTrigger [d, x.1, x.2.1, x.2.2]) r
  /-- ON is required in MariaDB and not allowed in PostgreSQL -/
  | index {ts r1 r : List Tk} {x : Span × Option Span × Ast} {on : Option (Span × Ast)} (h : DropName (Idn e) .INDEX ts x r1)
      (ho : OptKw .ON (fun sp ts a r => ∃ q, a = (sp, q) ∧ QName e ts q r) r1 on r) (h1 : e.opts.dialect = .mariaDB → on ≠ none)
      (h2 : e.opts.dialect = .postgreSQL → on = none) : DropWhat e d tmp ts (nd% DropIndex [d, x.1, x.2.1, x.2.2, on]) r

/-- DROP -/
inductive Drop (e : Env) : List Tk → Ast → List Tk → Prop where
  | mk {t : Token} {d : Span} {ts r1 r : List Tk} {tmp : Option Span} {a : Ast} (h : t.isKw .DROP = true)
      (ht : OptK .TEMPORARY ts tmp r1) (hw : DropWhat e d tmp r1 a r) : Drop e ((t, d) :: ts) a r

/-! ### SET, SIGNAL, RETURN, COPY -/

/-- SET -/
inductive SetS (e : Env) : List Tk → Ast → List Tk → Prop where
  | mk {t : Token} {sp : Span} {ts r : List Tk} {l : List (Ast × Ast)} (h : t.isKw .SET = true) (hl : CommaL (Assign e) ts l r) :
      SetS e ((t, sp) :: ts) (nd% Set [sp, l]) r

/-- `item = expr` of SIGNAL -/
inductive SignalItem (e : Env) : List Tk → Ast × Span × Ast → List Tk → Prop where
  | mk {t : Token} {sp q : Span} {ts r : List Tk} {K : Kind} {a : Ast} (h : signalWords.lookup t.kw = some K) (ha : Ex e false ts a r) :
      SignalItem e ((t, sp) :: (.eq, q) :: ts) (Ast.node K [.span sp], q, a) r

/-- SIGNAL SQLSTATE -/
inductive Signal (e : Env) : List Tk → Ast → List Tk → Prop where
  | mk {t t' : Token} {s s' : Span} {ts r1 r2 r : List Tk} {v : Option Span} {a : Ast} {l : Option (Span × List (Ast × Span × Ast))}
      (h : t.isKw .SIGNAL = true) (h' : t'.isKw .SQLSTATE = true) (hv : OptK .VALUE ts v r1) (ha : Ex e false r1 a r2)
      (hl : OptKw .SET (fun sp ts a r => ∃ l, a = (sp, l) ∧ CommaL (SignalItem e) ts l r) r2 l r) :
      Signal e ((t, s) :: (t', s') :: ts)
        (nd% Signal [s, s', v, a, l.map Prod.fst, (match l with | some (_, l) => l | none => [] : List (Ast × Span × Ast))]) r

/-- RETURN -/
inductive Ret (e : Env) : List Tk → Ast → List Tk → Prop where
  | mk {t : Token} {sp : Span} {ts r : List Tk} {a : Ast} (h : t.isKw .RETURN = true) (ha : Ex e false ts a r) :
      Ret e ((t, sp) :: ts) (nd% Return [sp, a]) r

/-- `( [name, ..] )` -/
inductive CopyCols (e : Env) : List Tk → List Ast → List Tk → Prop where
  | nil {lp rp : Span} {r : List Tk} : CopyCols e ((.lParen, lp) :: (.rParen, rp) :: r) [] r
  | some {ts r : List Tk} {l : List Ast} (h : Paren (Idn e) ts l r) : CopyCols e ts l r

/-- `COPY table (..) FROM STDIN` -/
inductive CopyS (e : Env) : List Tk → Ast → List Tk → Prop where
  | mk {t f s : Token} {c f' s' : Span} {ts r1 r : List Tk} {n : Ast} {l : List Ast} (h : t.isKw .COPY = true) (hn : Idn e ts n r1)
      (hl : CopyCols e r1 l ((f, f') :: (s, s') :: r)) (hf : f.isKw .FROM = true) (hs : s.isKw .STDIN = true) :
      CopyS e ((t, c) :: ts) (nd% Copy [c, n, l, f', s']) r

/-! ### ALTER TABLE -/

/-- `name` or `name(size)` -/
inductive IdxCol (e : Env) : List Tk → Ast → List Tk → Prop where
  | plain {ts r : List Tk} {i : Ast} (h : Idn e ts i r) (hr : Next (· ≠ .lParen) r) : IdxCol e ts (nd% IndexCol [i, (none : Option (Nat × Span))]) r
  | size {ts r1 r : List Tk} {lp rp : Span} {i : Ast} {n : Nat × Span} (h : Idn e ts i ((.lParen, lp) :: r1))
      (hn : Num (2 ^ 32 - 1) r1 n ((.rParen, rp) :: r)) : IdxCol e ts (nd% IndexCol [i, some n]) r

/-- `USING BTREE` -/
inductive IdxType : List Tk → Ast → List Tk → Prop where
  | mk {t t' : Token} {s s' : Span} {r : List Tk} {K : Kind} (h : t.isKw .USING = true) (h' : indexTypeWords.lookup t'.kw = some K) :
      IdxType ((t, s) :: (t', s') :: r) (Ast.node K [.span s']) r

/-- The options of an index. -/
inductive IdxOpts : List Tk → List Ast → List Tk → Prop where
  | nil {r : List Tk} (h : NoKw [.USING, .COMMENT] r) : IdxOpts r [] r
  | using {ts r1 r : List Tk} {a : Ast} {l : List Ast} (h : IdxType ts a r1) (hr : IdxOpts r1 l r) : IdxOpts ts (a :: l) r
  | comment {t : Token} {s : Span} {ts r1 r : List Tk} {a : Ast} {l : List Ast} (h : t.isKw .COMMENT = true) (ha : Str ts a r1)
      (hr : IdxOpts r1 l r) : IdxOpts ((t, s) :: ts) (nd% IndexOption_Comment [a] :: l) r

/-- An optional name. -/
inductive OptName (e : Env) : List Tk → Option Ast → List Tk → Prop where
  | none {r : List Tk} (h : Next (fun t => plainWord t = false) r) : OptName e r none r
  | some {v : List Char} {k : Keyword} {sp : Span} {ts r : List Tk} {i : Ast} (h : Idn e ((.ident v k, sp) :: ts) i r) :
      OptName e ((.ident v k, sp) :: ts) (some i) r

/-- When a foreign key acts, after ON. -/
inductive FkType (on : Span) : List Tk → Ast → List Tk → Prop where
  | update {t : Token} {s : Span} {r : List Tk} (h : t.isKw .UPDATE = true) : FkType on ((t, s) :: r) (nd% ForeignKeyOnType_Update [joinSpan on s]) r
  | delete {t : Token} {s : Span} {r : List Tk} (h : t.isKw .DELETE = true) : FkType on ((t, s) :: r) (nd% ForeignKeyOnType_Delete [joinSpan on s]) r

/-- The action of a foreign key.  (NO ACTION gives SetNull; SET DEFAULT is not accepted.) -/
inductive FkAction : List Tk → Ast → List Tk → Prop where
  | restrict {ts r : List Tk} {s : Span} (h : Kws [.RESTRICT] ts s r) : FkAction ts (nd% ForeignKeyOnAction_Restrict [s]) r
  | cascade {ts r : List Tk} {s : Span} (h : Kws [.CASCADE] ts s r) : FkAction ts (nd% ForeignKeyOnAction_Cascade [s]) r
  | setNull {ts r : List Tk} {s : Span} (h : Kws [.SET, .NULL] ts s r) : FkAction ts (nd% ForeignKeyOnAction_SetNull [s]) r
  | noAction {ts r : List Tk} {s : Span} (h : Kws [.NO, .ACTION] ts s r) : FkAction ts (nd% ForeignKeyOnAction_SetNull [s]) r

/-- The ON clauses of a foreign key. -/
inductive FkOns : List Tk → List Ast → List Tk → Prop where
  | nil {r : List Tk} (h : NotKw .ON r) : FkOns r [] r
  | cons {t : Token} {s : Span} {ts r1 r2 r : List Tk} {y a : Ast} {l : List Ast} (h : t.isKw .ON = true) (hy : FkType s ts y r1)
      (ha : FkAction r1 a r2) (hr : FkOns r2 l r) : FkOns ((t, s) :: ts) (nd% ForeignKeyOn [y, a] :: l) r

/-- The type of an added index.  (SPATIAL and UNIQUE give FullText.) -/
inductive AddIdxType : List Tk → Ast → List Tk → Prop where
  | primary {ts r : List Tk} {s : Span} (h : Kws [.PRIMARY, .KEY] ts s r) : AddIdxType ts (nd% IndexType_Primary [s]) r
  | index {ts r : List Tk} {s : Span} (h : Kws [.INDEX] ts s r) : AddIdxType ts (nd% IndexType_Index [s]) r
  | key {ts r : List Tk} {s : Span} (h : Kws [.KEY] ts s r) : AddIdxType ts (nd% IndexType_Index [s]) r
  | special {k k' : Keyword} {ts r : List Tk} {s : Span} (hk : k ∈ [Keyword.FULLTEXT, .SPATIAL, .UNIQUE]) (hk' : k' ∈ [Keyword.INDEX, .KEY])
      (h : Kws [k, k'] ts s r) : AddIdxType ts (nd% IndexType_FullText [s]) r

/-- `[CONSTRAINT [name]]` -/
abbrev Constr (e : Env) : List Tk → Option (Span × Option Ast) → List Tk → Prop :=
  OptKw .CONSTRAINT fun sp ts a r => ∃ n, a = (sp, n) ∧ OptName e ts n r

/-- An optional phrase that begins with the keyword `k`. -/
inductive OptAt {α : Type} (k : Keyword) (R : List Tk → α → List Tk → Prop) : List Tk → Option α → List Tk → Prop where
  | none {r : List Tk} (h : NotKw k r) : OptAt k R r none r
  | some {ts r : List Tk} {a : α} (hn : Next (fun t => t.isKw k = true) ts) (h : R ts a r) : OptAt k R ts (some a) r

/-- What is done to a column, after `ALTER COLUMN name`. -/
inductive ColAction (e : Env) : List Tk → Ast → List Tk → Prop where
  | setDefault {ts r1 r : List Tk} {s : Span} {a : Ast} (h : Kws [.SET, .DEFAULT] ts s r1) (ha : Ex e false r1 a r) :
      ColAction e ts (nd% AlterColumnAction_SetDefault [s, a]) r
  | setNotNull {ts r : List Tk} {s : Span} (h : Kws [.SET, .NOT, .NULL] ts s r) : ColAction e ts (nd% AlterColumnAction_SetNotNull [s]) r
  | dropDefault {ts r : List Tk} {s : Span} (h : Kws [.DROP, .DEFAULT] ts s r) : ColAction e ts (nd% AlterColumnAction_DropDefault [s]) r
  | dropNotNull {ts r : List Tk} {s : Span} (h : Kws [.DROP, .NOT, .NULL] ts s r) : ColAction e ts (nd% AlterColumnAction_DropNotNull [s]) r
  | type {t : Token} {s : Span} {ts r : List Tk} {d : Ast} (h : t.isKw .TYPE = true) (hd : DT e false ts d r) :
      ColAction e ((t, s) :: ts) (nd% AlterColumnAction_Type [s, d]) r

/-- One change of a table. -/
inductive AltSpec (e : Env) : List Tk → Ast → List Tk → Prop where
  | addForeignKey {t t' : Token} {add rf : Span} {ts r1 r2 r3 r4 r5 r6 r7 r : List Tk} {con : Option (Span × Option Ast)} {fk : Span}
      {ine : Option Span} {n : Option Ast} {cols rc ons : List Ast} {rt : Ast} (h : t.isKw .ADD = true) (hc : Constr e ts con r1)
      (hk : Kws [.FOREIGN, .KEY] r1 fk r2) (hi : OptKws .IF [.NOT, .EXISTS] r2 ine r3) (hn : OptName e r3 n r4)
      (hl : Paren (IdxCol e) r4 cols ((t', rf) :: r5)) (h' : t'.isKw .REFERENCES = true) (ht : Idn e r5 rt r6)
      (hrc : Paren (Idn e) r6 rc r7) (ho : FkOns r7 ons r) :
      AltSpec e ((t, add) :: ts) (nd% AlterSpecification_AddForeignKey [add, con, fk, ine, n, cols, rf, rt, rc, ons]) r
  | addIndex {t : Token} {add : Span} {ts r1 r2 r3 r4 r5 r6 r : List Tk} {con : Option (Span × Option Ast)} {ty : Ast} {ine : Option Span}
      {n o1 : Option Ast} {cols o2 : List Ast} (h : t.isKw .ADD = true) (hc : Constr e ts con r1) (hy : AddIdxType r1 ty r2)
      (hi : OptKws .IF [.NOT, .EXISTS] r2 ine r3) (hn : OptName e r3 n r4) (h1 : OptAt .USING IdxType r4 o1 r5)
      (hl : Paren (IdxCol e) r5 cols r6) (h2 : IdxOpts r6 o2 r) :
      AltSpec e ((t, add) :: ts) (nd% AlterSpecification_AddIndex [add, ty, ine, n, con, cols, o1.toList ++ o2]) r
  /-- (IF NOT EXISTS is not allowed in MariaDB; a CONSTRAINT before COLUMN is ignored) -/
  | addColumn {t t' : Token} {add c : Span} {ts r1 r2 r3 r : List Tk} {con : Option (Span × Option Ast)} {ine : Option Span} {i d : Ast}
      (h : t.isKw .ADD = true) (hc : Constr e ts con ((t', c) :: r1)) (h' : t'.isKw .COLUMN = true)
      (hi : OptKws .IF [.NOT, .EXISTS] r1 ine r2) (hm : e.opts.dialect = .mariaDB → ine = none) (hn : Idn e r2 i r3) (hd : DT e false r3 d r) :
      AltSpec e ((t, add) :: ts) (nd% AlterSpecification_AddColumn [add, ine, i, d]) r
  | modify {ts r1 r2 r3 r : List Tk} {m : Span} {ie : Option Span} {i d : Ast} (h : Kws [.MODIFY] ts m r1 ∧ NotKw .COLUMN r1 ∨ Kws [.MODIFY, .COLUMN] ts m r1)
      (he : OptKws .IF [.EXISTS] r1 ie r2) (hi : Idn e r2 i r3) (hd : DT e false r3 d r) :
      AltSpec e ts (nd% AlterSpecification_Modify [m, ie, i, d]) r
  | ownerTo {ts r1 r : List Tk} {s : Span} {i : Ast} (h : Kws [.OWNER, .TO] ts s r1) (hi : Idn e r1 i r) :
      AltSpec e ts (nd% AlterSpecification_OwnerTo [s, i]) r
  | dropColumn {ts r1 r2 r : List Tk} {s : Span} {i : Ast} {c : Option Span} (h : Kws [.DROP, .COLUMN] ts s r1) (hi : Idn e r1 i r2)
      (hc : OptK .CASCADE r2 c r) : AltSpec e ts (nd% AlterSpecification_DropColumn [s, i, c]) r
  | alterColumn {ts r1 r2 r : List Tk} {s : Span} {i a : Ast} (h : Kws [.ALTER, .COLUMN] ts s r1) (hi : Idn e r1 i r2)
      (ha : ColAction e r2 a r) : AltSpec e ts (nd% AlterSpecification_AlterColumn [s, i, a]) r

/-- ALTER TABLE; the next token is the delimiter or the end of the source -/
inductive Alt (e : Env) : List Tk → Ast → List Tk → Prop where
  | mk {t t' : Token} {s s' : Span} {ts r1 r2 r3 r4 r : List Tk} {on ig ie : Option Span} {q : Ast} {l : List Ast} (h : t.isKw .ALTER = true)
      (ho : OptK .ONLINE ts on r1) (hi : OptK .IGNORE r1 ig ((t', s') :: r2)) (h' : t'.isKw .TABLE = true)
      (he : OptKws .IF [.EXISTS] r2 ie r3) (hq : QName e r3 q r4) (hl : CommaL (AltSpec e) r4 l r)
      (hr : Next (fun t => t = e.delim ∨ t = .eof) r) : Alt e ((t, s) :: ts) (nd% AlterTable [s, on, ig, s', ie, q, l]) r

/-! ### CREATE -/

/-- `[ON DELETE action]` of a constraint -/
inductive OnDelete : List Tk → List Tk → Prop where
  | none {r : List Tk} (h : NotKw .ON r) : OnDelete r r
  | plain {k : Keyword} {ts r : List Tk} {s : Span} (hk : k ∈ [Keyword.CASCADE, .DELETE, .RESTRICT]) (h : Kws [.ON, .DELETE, k] ts s r) : OnDelete ts r
  | setNull {ts r : List Tk} {s : Span} (h : Kws [.ON, .DELETE, .SET, .NULL] ts s r) : OnDelete ts r

/-- A column or constraint of a table.  (Of a constraint only the name is kept.) -/
inductive Defn (e : Env) : List Tk → Ast → List Tk → Prop where
  | column {v : List Char} {k : Keyword} {sp : Span} {ts r1 r : List Tk} {i d : Ast} (h : Idn e ((.ident v k, sp) :: ts) i r1)
      (hd : DT e false r1 d r) : Defn e ((.ident v k, sp) :: ts) (nd% CreateDefinition_ColumnDefinition [i, d]) r
  | constraint {t t' : Token} {s s' fk : Span} {ts r1 r2 r3 r4 r5 r : List Tk} {i rt : Ast} {l rc : List Ast} (h : t.isKw .CONSTRAINT = true)
      (hi : Idn e ts i r1) (hk : Kws [.FOREIGN, .KEY] r1 fk r2) (hl : Paren (Idn e) r2 l ((t', s') :: r3)) (h' : t'.isKw .REFERENCES = true)
      (ht : Idn e r3 rt r4) (hc : Paren (Idn e) r4 rc r5) (ho : OnDelete r5 r) :
      Defn e ((t, s) :: ts) (nd% CreateDefinition_ConstraintDefinition [s, i]) r

/-- `( [definition, ..] )` -/
inductive Defns (e : Env) : List Tk → List Ast → List Tk → Prop where
  | nil {lp rp : Span} {r : List Tk} : Defns e ((.lParen, lp) :: (.rParen, rp) :: r) [] r
  | some {ts r : List Tk} {l : List Ast} (h : Paren (Defn e) ts l r) : Defns e ts l r

/-- `k [=] value`; the span of `k` -/
inductive OptVal (R : List Tk → Ast → List Tk → Prop) (k : Keyword) : List Tk → Span × Ast → List Tk → Prop where
  | eq {t : Token} {s q : Span} {ts r : List Tk} {a : Ast} (h : t.isKw k = true) (ha : R ts a r) : OptVal R k ((t, s) :: (.eq, q) :: ts) (s, a) r
  | plain {t : Token} {s : Span} {ts r : List Tk} {a : Ast} (h : t.isKw k = true) (hn : Next (· ≠ .eq) ts) (ha : R ts a r) :
      OptVal R k ((t, s) :: ts) (s, a) r

/-- An option of a table. -/
inductive TblOpt (e : Env) : List Tk → Ast → List Tk → Prop where
  | engine {ts r : List Tk} {x : Span × Ast} (h : OptVal (Idn e) .ENGINE ts x r) : TblOpt e ts (nd% TableOption_Engine [x.1, x.2]) r
  | charset {ts r : List Tk} {x : Span × Ast} (h : OptVal (Idn e) .CHARSET ts x r) : TblOpt e ts (nd% TableOption_CharSet [x.1, x.2]) r
  | collate {ts r : List Tk} {x : Span × Ast} (h : OptVal (Idn e) .COLLATE ts x r) : TblOpt e ts (nd% TableOption_Collate [x.1, x.2]) r
  | rowFormat {ts r : List Tk} {x : Span × Ast} (h : OptVal (Idn e) .ROW_FORMAT ts x r) : TblOpt e ts (nd% TableOption_RowFormat [x.1, x.2]) r
  | comment {ts r : List Tk} {x : Span × Ast} (h : OptVal Str .COMMENT ts x r) : TblOpt e ts (nd% TableOption_Comment [x.1, x.2]) r
  | strict {t : Token} {s : Span} {r : List Tk} (h : t.isKw .STRICT = true) : TblOpt e ((t, s) :: r) (nd% TableOption_Strict [s]) r
  | defaultCharset {t : Token} {s : Span} {ts r : List Tk} {x : Span × Ast} (h : t.isKw .DEFAULT = true) (hx : OptVal (Idn e) .CHARSET ts x r) :
      TblOpt e ((t, s) :: ts) (nd% TableOption_DefaultCharSet [s, x.2]) r
  | defaultCollate {t : Token} {s : Span} {ts r : List Tk} {x : Span × Ast} (h : t.isKw .DEFAULT = true) (hx : OptVal (Idn e) .COLLATE ts x r) :
      TblOpt e ((t, s) :: ts) (nd% TableOption_DefaultCollate [s, x.2]) r

/-- The words with which the option of a table begins. -/
def tblOptWords : List Keyword := [.ENGINE, .DEFAULT, .CHARSET, .COLLATE, .ROW_FORMAT, .COMMENT, .STRICT]

/-- The options of a table, up to the delimiter or the end of the source. -/
inductive TblOpts (e : Env) : List Tk → List Ast → List Tk → Prop where
  | nil {r : List Tk} (h : Next (fun t => t = e.delim ∨ t = .eof) r) (hn : NoKw tblOptWords r) : TblOpts e r [] r
  | cons {ts r1 r : List Tk} {a : Ast} {l : List Ast} (h : TblOpt e ts a r1) (hr : TblOpts e r1 l r) : TblOpts e ts (a :: l) r

/-- The options between CREATE and what is created. -/
inductive CrOpts (e : Env) : List Tk → List Ast → List Tk → Prop where
  | nil {r : List Tk} (h : Next (fun t => ∃ k ∈ [Keyword.TABLE, .VIEW, .TRIGGER, .FUNCTION, .INDEX, .TYPE], t.isKw k = true) r) : CrOpts e r [] r
  | orReplace {ts r1 r : List Tk} {s : Span} {l : List Ast} (h : Kws [.OR, .REPLACE] ts s r1) (hr : CrOpts e r1 l r) :
      CrOpts e ts (nd% CreateOption_OrReplace [s] :: l) r
  | temporary {ts r1 r : List Tk} {s : Span} {l : List Ast} (h : Kws [.TEMPORARY] ts s r1) (hr : CrOpts e r1 l r) :
      CrOpts e ts (nd% CreateOption_Temporary [s] :: l) r
  | unique {ts r1 r : List Tk} {s : Span} {l : List Ast} (h : Kws [.UNIQUE] ts s r1) (hr : CrOpts e r1 l r) :
      CrOpts e ts (nd% CreateOption_Unique [s] :: l) r
  | algorithm {t t' : Token} {s q s' : Span} {ts r : List Tk} {K : Kind} {l : List Ast} (h : t.isKw .ALGORITHM = true)
      (h' : algorithmWords.lookup t'.kw = some K) (hr : CrOpts e ts l r) :
      CrOpts e ((t, s) :: (.eq, q) :: (t', s') :: ts) (nd% CreateOption_Algorithm [s, Ast.node K [.span s']] :: l) r
  | definer {t : Token} {s q a : Span} {ts r1 r2 r : List Tk} {u o : Ast} {l : List Ast} (h : t.isKw .DEFINER = true)
      (hu : Idn e ts u ((.at, a) :: r1)) (ho : Idn e r1 o r2) (hr : CrOpts e r2 l r) :
      CrOpts e ((t, s) :: (.eq, q) :: ts) (nd% CreateOption_Definer [s, u, o] :: l) r
  | securityDefiner {t : Token} {ts r1 r : List Tk} {s d : Span} {l : List Ast} (h : Kws [.SQL, .SECURITY] ts s ((t, d) :: r1))
      (ht : t.isKw .DEFINER = true) (hr : CrOpts e r1 l r) : CrOpts e ts (nd% CreateOption_SqlSecurityDefiner [s, d] :: l) r
  | securityUser {t : Token} {ts r1 r : List Tk} {s d : Span} {l : List Ast} (h : Kws [.SQL, .SECURITY] ts s ((t, d) :: r1))
      (ht : t.isKw .USER = true) (hr : CrOpts e r1 l r) : CrOpts e ts (nd% CreateOption_SqlSecurityUser [s, d] :: l) r

/-- Operator classes. -/
def opClasses : List Keyword := [.TEXT_PATTERN_OPS, .VARCHAR_PATTERN_OPS, .BPCHAR_PATTERN_OPS, .INT8_OPS, .INT4_OPS, .INT2_OPS]

/-- A column of an index, in PostgreSQL with an operator class (not kept). -/
inductive CrIdxCol (e : Env) : List Tk → Ast → List Tk → Prop where
  | plain {ts r : List Tk} {i : Ast} (h : Idn e ts i r) (hr : NoKw opClasses r) : CrIdxCol e ts i r
  | op {k : Keyword} {t : Token} {s : Span} {ts r : List Tk} {i : Ast} (h : Idn e ts i ((t, s) :: r)) (hk : k ∈ opClasses)
      (ht : t.isKw k = true) (hd : e.opts.dialect = .postgreSQL) : CrIdxCol e ts i r

/-- The direction of a parameter. -/
inductive Direction : List Tk → Option Ast → List Tk → Prop where
  | none {r : List Tk} (h : NoKw [.IN, .OUT, .INOUT] r) : Direction r none r
  | inOut {ts r : List Tk} {s : Span} (h : Kws [.IN, .OUT] ts s r) : Direction ts (some (nd% FunctionParamDirection_InOut [s])) r
  | in_ {ts r : List Tk} {s : Span} (h : Kws [.IN] ts s r) (hr : NotKw .OUT r) : Direction ts (some (nd% FunctionParamDirection_In [s])) r
  | out {ts r : List Tk} {s : Span} (h : Kws [.OUT] ts s r) : Direction ts (some (nd% FunctionParamDirection_Out [s])) r
  | inout {ts r : List Tk} {s : Span} (h : Kws [.INOUT] ts s r) : Direction ts (some (nd% FunctionParamDirection_InOut [s])) r

/-- A parameter of a function. -/
inductive Param (e : Env) : List Tk → Option Ast × Ast × Ast → List Tk → Prop where
  | mk {ts r1 r2 r : List Tk} {d : Option Ast} {i ty : Ast} (hd : Direction ts d r1) (hi : Idn e r1 i r2) (ht : DT e false r2 ty r) :
      Param e ts (d, i, ty) r

/-- Any tokens up to `$$`, which is included. -/
inductive ToDollars (e : Env) : List Tk → List Tk → Prop where
  | here {s : Span} {r : List Tk} (hd : e.data s = none) : ToDollars e ((.doubleDollar, s) :: r) r
  | next {t : Token} {s : Span} {ts r : List Tk} (h1 : t ≠ .doubleDollar) (h2 : t ≠ .eof) (hm : e.noArg (t, s))
      (hd : e.data s = none) (h : ToDollars e ts r) : ToDollars e ((t, s) :: ts) r

/-- `[AS $$ .. $$]` (PostgreSQL), the text between is not kept -/
inductive FnBody (e : Env) : List Tk → List Tk → Prop where
  | none {r : List Tk} (h : e.opts.dialect = .postgreSQL → NotKw .AS r) : FnBody e r r
  | text {t : Token} {s d : Span} {ts r : List Tk} (hd : e.opts.dialect = .postgreSQL) (h : t.isKw .AS = true) (hn : e.data d = none)
      (hr : ToDollars e ts r) :
      FnBody e ((t, s) :: (.doubleDollar, d) :: ts) r

/-- The characteristics of a function that are words only. -/
def plainChars : List (List Keyword × Kind) := [([.LANGUAGE, .SQL], .FunctionCharacteristic_LanguageSql),
  ([.LANGUAGE, .PLPGSQL], .FunctionCharacteristic_LanguagePlpgsql), ([.NOT, .DETERMINISTIC], .FunctionCharacteristic_NotDeterministic),
  ([.DETERMINISTIC], .FunctionCharacteristic_Deterministic), ([.CONTAINS, .SQL], .FunctionCharacteristic_ContainsSql),
  ([.NO, .SQL], .FunctionCharacteristic_NoSql), ([.READS, .SQL, .DATA], .FunctionCharacteristic_ReadsSqlData),
  ([.MODIFIES, .SQL, .DATA], .FunctionCharacteristic_ModifiesSqlData), ([.SQL, .SECURITY, .DEFINER], .FunctionCharacteristic_SqlSecurityDefiner),
  ([.SQL, .SECURITY, .USER], .FunctionCharacteristic_SqlSecurityUser)]

/-- The words with which a characteristic begins. -/
def charWords : List Keyword := [.LANGUAGE, .NOT, .DETERMINISTIC, .CONTAINS, .NO, .READS, .MODIFIES, .COMMENT, .SQL]

/-- The characteristics of a function. -/
inductive Chars : List Tk → List Ast → List Tk → Prop where
  | nil {r : List Tk} (h : NoKw charWords r) : Chars r [] r
  | plain {ks : List Keyword} {K : Kind} {ts r1 r : List Tk} {s : Span} {l : List Ast} (hk : (ks, K) ∈ plainChars) (h : Kws ks ts s r1)
      (hr : Chars r1 l r) : Chars ts (.node K [.span s] :: l) r
  | comment {t : Token} {s : Span} {ts r1 r : List Tk} {a : Ast} {l : List Ast} (h : t.isKw .COMMENT = true) (ha : Str ts a r1)
      (hr : Chars r1 l r) : Chars ((t, s) :: ts) (nd% FunctionCharacteristic_Comment [a] :: l) r

/-- What is created, without parts that are statements; `c`: the span of CREATE, `os`: its options -/
inductive CrWhat (e : Env) (c : Span) (os : List Ast) : List Tk → Ast → List Tk → Prop where
  | table {t : Token} {s : Span} {ts r1 r2 r3 r : List Tk} {ine : Option Span} {q : Ast} {ds l : List Ast} (h : t.isKw .TABLE = true)
      (hi : OptKw .IF (fun i ts a r => ∃ s, Kws [.NOT, .EXISTS] ts s r ∧ a = (⟨i.start, s.stop⟩ : Span)) ts ine r1) (hq : QName e r1 q r2)
      (hd : Defns e r2 ds r3) (ho : TblOpts e r3 l r) : CrWhat e c os ((t, s) :: ts) (nd% CreateTable [c, os, s, q, ine, ds, l]) r
  | view {t t' : Token} {s a : Span} {ts r1 r2 r : List Tk} {ine : Option Span} {q x : Ast} (h : t.isKw .VIEW = true)
      (hi : OptKws .IF [.NOT, .EXISTS] ts ine r1) (hq : QName e r1 q ((t', a) :: r2)) (h' : t'.isKw .AS = true) (hx : Comp e r2 x r) :
      CrWhat e c os ((t, s) :: ts) (nd% CreateView [c, os, s, ine, q, a, x]) r
  /-- (a WHERE is not allowed in MariaDB) -/
  | index {t t' : Token} {s on lp rp : Span} {ts r1 r2 r3 r4 r5 r : List Tk} {ine g : Option Span} {n q : Ast} {cols : List Ast}
      {w : Option (Span × Ast)} (h : t.isKw .INDEX = true) (hi : OptKws .IF [.NOT, .EXISTS] ts ine r1) (hn : Idn e r1 n ((t', on) :: r2))
      (h' : t'.isKw .ON = true) (hq : QName e r2 q r3) (hg : OptKws .USING [.GIST] r3 g ((.lParen, lp) :: r4))
      (hc : CommaL (CrIdxCol e) r4 cols ((.rParen, rp) :: r5))
      (hw : OptKw .WHERE (fun sp ts a r => ∃ x, a = (sp, x) ∧ Ex e false ts x r) r5 w r) (hm : e.opts.dialect = .mariaDB → w = none) :
      CrWhat e c os ((t, s) :: ts) (nd% CreateIndex [c, os, s, n, ine, on, q,
        (g.map fun g => nd% CreateIndexOption_UsingGist [g]).toList, lp, cols, rp, w]) r
  /-- (PostgreSQL) -/
  | type {t : Token} {s a : Span} {ts r1 r2 r : List Tk} {n : Ast} {l : List Ast} (hd : e.opts.dialect = .postgreSQL) (h : t.isKw .TYPE = true)
      (hn : Idn e ts n r1) (ha : Kws [.AS, .ENUM] r1 a r2) (hl : Paren Str r2 l r) :
      CrWhat e c os ((t, s) :: ts) (nd% CreateTypeEnum [c, os, s, n, a, l]) r

/-! ### All statements -/

/-- The words with which a statement begins (END only where compound statements are not permitted). -/
def stmtWords : List Keyword := [.CREATE, .DROP, .SELECT, .DELETE, .INSERT, .REPLACE, .UPDATE, .SET, .SIGNAL, .BEGIN, .START, .COMMIT, .IF,
  .RETURN, .ALTER, .CASE, .COPY, .DO, .TRUNCATE, .RENAME, .WITH]

/-- No statement begins with this token. -/
def NoStmt (e : Env) (t : Token) : Prop := (∀ k ∈ stmtWords, t.isKw k = false) ∧ t ≠ .lParen ∧ (t.isKw .END = true → e.permit = true)

/-- The handlers after EXCEPTION (not kept). -/
inductive Handlers (e : Env) : List Tk → List Tk → Prop where
  | nil {r : List Tk} (h : NotKw .WHEN r) : Handlers e r r
  | cons {t t' : Token} {s s' m : Span} {ts r1 r2 r : List Tk} {i a : Ast} (h : t.isKw .WHEN = true) (hi : Idn e ts i ((t', s') :: r1))
      (h' : t'.isKw .THEN = true) (ha : Ex e true r1 a ((.semiColon, m) :: r2)) (hd : e.data m = none) (hr : Handlers e r2 r) : Handlers e ((t, s) :: ts) r

/-- `[EXCEPTION handlers]` -/
inductive Exception (e : Env) : List Tk → List Tk → Prop where
  | none {r : List Tk} (h : NotKw .EXCEPTION r) : Exception e r r
  | some {t : Token} {s : Span} {ts r : List Tk} (h : t.isKw .EXCEPTION = true) (hr : Handlers e ts r) : Exception e ((t, s) :: ts) r

/-- The environment inside a list of statements: these end with `;`. -/
def Env.inList (e : Env) : Env := { e with delim := .semiColon }

/-- The kinds of statement that are allowed in WITH. -/
def WithKind (v : SAst) : Prop := ∃ k ∈ [Kind.Select, .InsertReplace, .Update, .Delete], ∃ l, v.ast = .node k l

mutual

/-- A statement. -/
inductive Stm : Env → List Tk → SAst → List Tk → Prop where
  | query {e : Env} {ts r : List Tk} {a : Ast} (h : Comp e ts a r) : Stm e ts ⟨a⟩ r
  | delete {e : Env} {ts r : List Tk} {a : Ast} (h : Del e ts a r) : Stm e ts ⟨a⟩ r
  | update {e : Env} {ts r : List Tk} {a : Ast} (h : Upd e ts a r) : Stm e ts ⟨a⟩ r
  | insert {e : Env} {ts r : List Tk} {a : Ast} (h : Ins e ts a r) : Stm e ts ⟨a⟩ r
  | rename {e : Env} {ts r : List Tk} {a : Ast} (h : Ren e ts a r) : Stm e ts ⟨a⟩ r
  | truncate {e : Env} {ts r : List Tk} {a : Ast} (h : Trunc e ts a r) : Stm e ts ⟨a⟩ r
  | drop {e : Env} {ts r : List Tk} {a : Ast} (h : Drop e ts a r) : Stm e ts ⟨a⟩ r
  | set {e : Env} {ts r : List Tk} {a : Ast} (h : SetS e ts a r) : Stm e ts ⟨a⟩ r
  | signal {e : Env} {ts r : List Tk} {a : Ast} (h : Signal e ts a r) : Stm e ts ⟨a⟩ r
  | ret {e : Env} {ts r : List Tk} {a : Ast} (h : Ret e ts a r) : Stm e ts ⟨a⟩ r
  | copy {e : Env} {ts r : List Tk} {a : Ast} (h : CopyS e ts a r) : Stm e ts ⟨a⟩ r
  | alter {e : Env} {ts r : List Tk} {a : Ast} (h : Alt e ts a r) : Stm e ts ⟨a⟩ r
  | create {e : Env} {t : Token} {c : Span} {ts r1 r : List Tk} {os : List Ast} {a : Ast} (h : t.isKw .CREATE = true) (ho : CrOpts e ts os r1)
      (hw : CrWhat e c os r1 a r) : Stm e ((t, c) :: ts) ⟨a⟩ r
  | start {e : Env} {ts r : List Tk} {s : Span} (h : Kws [.START, .TRANSACTION] ts s r) : Stm e ts (snd% Statement_StartTransaction [s]) r
  | commit {e : Env} {ts r : List Tk} {s : Span} (h : Kws [.COMMIT] ts s r) : Stm e ts (snd% Statement_Commit [s]) r
  | begin {e : Env} {ts r : List Tk} {s : Span} (hp : e.permit = false) (h : Kws [.BEGIN] ts s r) : Stm e ts (snd% Statement_Begin [s]) r
  | «end» {e : Env} {ts r : List Tk} {s : Span} (hp : e.permit = false) (h : Kws [.END] ts s r) : Stm e ts (snd% Statement_End [s]) r
  | block {e : Env} {ts r : List Tk} {l : List SAst} (hp : e.permit = true) (h : Block e ts l r) : Stm e ts (snd% Statement_Block [l]) r
  | doBlock {e : Env} {t : Token} {s d d' : Span} {ts r : List Tk} {l : List SAst} (h : t.isKw .DO = true) (hn : e.data d = none)
      (hb : Block e ts l ((.doubleDollar, d') :: r)) (hn' : e.data d' = none) :
      Stm e ((t, s) :: (.doubleDollar, d) :: ts) (snd% Statement_Do [l]) r
  | ifThen {e : Env} {t : Token} {s f : Span} {ts r1 r2 r : List Tk} {cs : List SAst} {el : Option (Span × List SAst)} (h : t.isKw .IF = true)
      (hc : Branches e none ts cs r1) (he : ElseS e r1 el r2) (hf : Kws [.END, .IF] r2 f r) : Stm e ((t, s) :: ts) (snd% If [s, cs, el, f]) r
  | caseWhen {e : Env} {t t' : Token} {s f : Span} {ts r1 r : List Tk} {ws : List SAst} {el : Option (Span × List SAst)} (h : t.isKw .CASE = true)
      (hw : CaseBranches e ts ws r1) (he : ElseS e r1 el ((t', f) :: r)) (h' : t'.isKw .END = true) :
      Stm e ((t, s) :: ts) (snd% CaseStatement [s, (none : Option Ast), ws, el, f]) r
  | caseOf {e : Env} {t t' : Token} {s f : Span} {ts r0 r1 r : List Tk} {v : Ast} {ws : List SAst} {el : Option (Span × List SAst)}
      (h : t.isKw .CASE = true) (hn : NotKw .WHEN ts) (hv : Ex e false ts v r0) (hw : CaseBranches e r0 ws r1)
      (he : ElseS e r1 el ((t', f) :: r)) (h' : t'.isKw .END = true) : Stm e ((t, s) :: ts) (snd% CaseStatement [s, some v, ws, el, f]) r
  /-- (PostgreSQL) -/
  | withQuery {e : Env} {t : Token} {s : Span} {ts r1 r : List Tk} {bs : List SAst} {v : SAst} (hd : e.opts.dialect = .postgreSQL)
      (h : t.isKw .WITH = true) (hb : WithBlocks e ts bs r1) (hv : Stm e r1 v r) (hk : WithKind v) :
      Stm e ((t, s) :: ts) (snd% WithQuery [s, bs, v]) r
  /-- the body of a trigger can be a compound statement -/
  | trigger {e : Env} {t t1 t2 t3 t4 : Token} {c s s2 s3 on fe : Span} {ts r1 r2 r3 r4 r5 r : List Tk} {os : List Ast} {ine : Option Span}
      {n tb : Ast} {T E : Kind} {v : SAst} (h : t.isKw .CREATE = true) (ho : CrOpts e ts os ((t1, s) :: r1)) (h1 : t1.isKw .TRIGGER = true)
      (hi : OptKws .IF [.NOT, .EXISTS] r1 ine r2) (hn : Idn e r2 n ((t2, s2) :: (t3, s3) :: (t4, on) :: r3))
      (h2 : triggerTimeWords.lookup t2.kw = some T) (h3 : triggerEventWords.lookup t3.kw = some E) (h4 : t4.isKw .ON = true)
      (ht : Idn e r3 tb r4) (hf : Kws [.FOR, .EACH, .ROW] r4 fe r5) (hv : Stm { e with permit := true } r5 v r) :
      Stm e ((t, c) :: ts) (snd% CreateTrigger [c, os, s, ine, n, Ast.node T [.span s2], Ast.node E [.span s3], on, tb, fe, v]) r
  /-- in MariaDB the body is a statement -/
  | function {e : Env} {t t1 t2 : Token} {c s lp rp rs : Span} {ts r1 r2 r3 r4 r5 r6 r7 r : List Tk} {os cs : List Ast} {ine : Option Span}
      {n rt : Ast} {ps : List (Option Ast × Ast × Ast)} {b : Option SAst} (h : t.isKw .CREATE = true) (ho : CrOpts e ts os ((t1, s) :: r1))
      (h1 : t1.isKw .FUNCTION = true) (hi : OptKws .IF [.NOT, .EXISTS] r1 ine r2) (hn : Idn e r2 n ((.lParen, lp) :: r3))
      (hp : CommaL (Param e) r3 ps ((.rParen, rp) :: (t2, rs) :: r4)) (h2 : t2.isKw .RETURNS = true) (hr : DT e true r4 rt r5)
      (hb : FnBody e r5 r6) (hc : Chars r6 cs r7) (hs : FnStmt e r7 b r) :
      Stm e ((t, c) :: ts) (snd% CreateFunction [c, os, s, ine, n, ps, rs, rt, cs, b]) r

/-- The statement of a function. -/
inductive FnStmt : Env → List Tk → Option SAst → List Tk → Prop where
  | none {e : Env} {r : List Tk} (hd : e.opts.dialect ≠ .mariaDB) : FnStmt e r none r
  | some {e : Env} {ts r : List Tk} {v : SAst} (hd : e.opts.dialect = .mariaDB) (h : Stm e ts v r) : FnStmt e ts (some v) r

/-- Statements with `;` between them; further `;` may come before each of them, and after the last.  After `COPY .. FROM STDIN;`
comes data, which is also listed. -/
inductive Stms : Env → List Tk → List SAst → List Tk → Prop where
  | semi {e : Env} {s : Span} {ts r : List Tk} {l : List SAst} (hd : e.data s = none) (h : Stms e ts l r) : Stms e ((.semiColon, s) :: ts) l r
  | nil {e : Env} {r : List Tk} (h : Next (fun t => NoStmt e t ∧ t ≠ .semiColon) r) : Stms e r [] r
  | last {e : Env} {ts r : List Tk} {v : SAst} (h : Stm e.inList ts v r) (hr : Next (· ≠ .semiColon) r) : Stms e ts [v] r
  | cons {e : Env} {s : Span} {ts r1 r : List Tk} {v : SAst} {l : List SAst} (h : Stm e.inList ts v ((.semiColon, s) :: r1))
      (hc : takesData v = false) (hd : e.data s = none) (hl : Stms e r1 l r) : Stms e ts (v :: l) r
  | copy {e : Env} {s sp : Span} {d : List Char} {ts r1 r : List Tk} {v : SAst} {l : List SAst} (h : Stm e.inList ts v ((.semiColon, s) :: r1))
      (hc : takesData v = true) (hd : e.data s = some (d, sp)) (hl : Stms e r1 l r) :
      Stms e ts (v :: ⟨.node .Statement_Stdin [.str d, .span sp]⟩ :: l) r

/-- `BEGIN statements [EXCEPTION ..] END` -/
inductive Block : Env → List Tk → List SAst → List Tk → Prop where
  | mk {e : Env} {t t' : Token} {s s' : Span} {ts r1 r : List Tk} {l : List SAst} (h : t.isKw .BEGIN = true) (hl : Stms e ts l r1)
      (hx : Exception e r1 ((t', s') :: r)) (h' : t'.isKw .END = true) : Block e ((t, s) :: ts) l r

/-- `cond THEN statements ELSEIF cond THEN statements ..` -/
inductive Branches : Env → Option Span → List Tk → List SAst → List Tk → Prop where
  | one {e : Env} {o : Option Span} {ts r1 r : List Tk} {c : Ast} {t : Token} {s : Span} {l : List SAst} (hc : Ex e false ts c ((t, s) :: r1))
      (h : t.isKw .THEN = true) (hl : Stms e r1 l r) (hr : NotKw .ELSEIF r) : Branches e o ts [snd% IfCondition [o, c, s, l]] r
  | cons {e : Env} {o : Option Span} {ts r1 r2 r : List Tk} {c : Ast} {t t' : Token} {s s' : Span} {l cs : List SAst}
      (hc : Ex e false ts c ((t, s) :: r1)) (h : t.isKw .THEN = true) (hl : Stms e r1 l ((t', s') :: r2)) (h' : t'.isKw .ELSEIF = true)
      (hr : Branches e (some s') r2 cs r) : Branches e o ts ((snd% IfCondition [o, c, s, l]) :: cs) r

/-- `WHEN cond THEN statements ..` -/
inductive CaseBranches : Env → List Tk → List SAst → List Tk → Prop where
  | one {e : Env} {ts r1 r : List Tk} {c : Ast} {t t' : Token} {s s' : Span} {l : List SAst} (h : t.isKw .WHEN = true)
      (hc : Ex e false ts c ((t', s') :: r1)) (h' : t'.isKw .THEN = true) (hl : Stms e r1 l r) (hr : NotKw .WHEN r) :
      CaseBranches e ((t, s) :: ts) [snd% WhenStatement [s, c, s', l]] r
  | cons {e : Env} {ts r1 r2 r : List Tk} {c : Ast} {t t' : Token} {s s' : Span} {l ws : List SAst} (h : t.isKw .WHEN = true)
      (hc : Ex e false ts c ((t', s') :: r1)) (h' : t'.isKw .THEN = true) (hl : Stms e r1 l r2) (hr : CaseBranches e r2 ws r) :
      CaseBranches e ((t, s) :: ts) ((snd% WhenStatement [s, c, s', l]) :: ws) r

/-- `[ELSE statements]` -/
inductive ElseS : Env → List Tk → Option (Span × List SAst) → List Tk → Prop where
  | none {e : Env} {r : List Tk} (h : NotKw .ELSE r) : ElseS e r none r
  | some {e : Env} {t : Token} {s : Span} {ts r : List Tk} {l : List SAst} (h : t.isKw .ELSE = true) (hl : Stms e ts l r) :
      ElseS e ((t, s) :: ts) (some (s, l)) r

/-- `name AS ( statement ) , ..` -/
inductive WithBlocks : Env → List Tk → List SAst → List Tk → Prop where
  | one {e : Env} {ts r1 r : List Tk} {i : Ast} {t : Token} {s lp rp : Span} {v : SAst} (hi : Idn e ts i ((t, s) :: (.lParen, lp) :: r1))
      (h : t.isKw .AS = true) (hv : Stm e r1 v ((.rParen, rp) :: r)) (hk : WithKind v) (hr : Next (· ≠ .comma) r) :
      WithBlocks e ts [snd% WithBlock [i, s, lp, v, rp]] r
  | cons {e : Env} {ts r1 r2 r : List Tk} {i : Ast} {t : Token} {s lp rp m : Span} {v : SAst} {l : List SAst}
      (hi : Idn e ts i ((t, s) :: (.lParen, lp) :: r1)) (h : t.isKw .AS = true) (hv : Stm e r1 v ((.rParen, rp) :: (.comma, m) :: r2))
      (hk : WithKind v) (hl : WithBlocks e r2 l r) : WithBlocks e ts ((snd% WithBlock [i, s, lp, v, rp]) :: l) r
end

end SqlParse
