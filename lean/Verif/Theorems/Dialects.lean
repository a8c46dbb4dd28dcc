import Verif.Proofs.OptAll
import Verif.Theorems.Prefix
import Verif.Theorems.Caps
/-! **C56**, **C57**: what the dialect, the argument style and the list hack may change. -/
namespace SqlParse

theorem runFn_d {E : Dsrc} (n : Nat) : CallsD E (runFn n) (runFn n) := by
  induction n with
  | zero => exact ⟨fun _ _ _ _ => trivial, fun _ _ _ _ => trivial, fun _ _ _ _ _ => .inl trivial⟩
  | succ n ih =>
    refine ⟨fun α f s h => runFn_keeps (fun _ _ => op_pastL) (n + 1) α f s h, fun α f s h => runFn_keeps (fun _ _ => op_bad) (n + 1) α f s h, ?_⟩
    intro α f s t hs
    exact DA.h (p := body f) (runFn n) (runFn n) n s t ih hs

theorem lexTo_scan {chk : Bool} {lx lx1 : Lexer} (h : LexTo chk lx lx1) : ∀ {toks}, LexInv chk lx → Scan chk lx toks →
    ∃ l r, toks = l ++ r ∧ Scan chk lx1 r := by
  induction h with
  | refl lx => intro toks hi hs; exact ⟨[], toks, rfl, hs⟩
  | @step lx lx1 lx2 t sp he hr ih =>
    intro toks hi hs
    have hi1 : LexInv chk lx1 := (nextToken_inv hi he).1
    cases hs with
    | last h =>
      have h0 := h
      rw [he] at h
      cases h
      exact ih hi1 (.last (next_eof hi h0))
    | cons h ht hs =>
      rw [he] at h
      cases h
      obtain ⟨l, r, h1, h2⟩ := ih hi1 hs
      exact ⟨_ :: l, r, by rw [h1]; rfl, h2⟩

theorem ahead_of_tokens {E : Dsrc} {src : List Char} {toks : List (Token × Span)} (ht : TokensOf E.chk src toks) (ha : ∀ x ∈ toks, AlikeOpt E.o E.o' x.1) :
    AheadD E (Lexer.new src) := by
  intro lx1 t sp lx2 hr he
  obtain ⟨l, r, rfl, h⟩ := lexTo_scan hr (lexInv_new E.chk src) ht
  cases h with
  | last h =>
    rw [he] at h
    cases h
    exact ha (.eof, sp) (by simp)
  | cons h _ _ =>
    rw [he] at h
    cases h
    exact ha (t, sp) (by simp)

/-- None of the markers of arguments is among the tokens. -/
def NoMarkers (toks : List (Token × Span)) : Prop := ∀ x ∈ toks, (∀ n, x.1 ≠ .dollarArg n) ∧ x.1 ≠ .questionMark ∧ x.1 ≠ .percentS

theorem isKw_of_occurs {k : Keyword} {toks : List (Token × Span)} (h : ¬ Occurs k toks) {x : Token × Span} (hx : x ∈ toks) : x.1.isKw k = false := by
  obtain ⟨t, sp⟩ := x
  rw [Bool.eq_false_iff]
  intro hk
  cases t with
  | ident v k' =>
    simp only [Token.isKw, decide_eq_true_eq] at hk
    subst hk
    exact h ⟨v, sp, hx⟩
  | _ => cases hk

/-- Two calls that differ in options which do not matter to the tokens. -/
theorem options_step {α : Type} (api : Api α) (E : Dsrc) (src : List Char) (toks : List (Token × Span)) (ht : TokensOf E.chk src toks)
    (ha : ∀ x ∈ toks, AlikeOpt E.o E.o' x.1) (n : Nat) {s0 : St} {old : List Issue} (h0 : St.new E.chk src ⟨src, old⟩ E.o = .ok () s0) :
    St.new E.chk src ⟨src, old⟩ E.o' = .ok () (s0.twin E old) ∧ OutD E (api.prog.run n s0) (api.prog.run n (s0.twin E old)) := by
  have hA := ahead_of_tokens ht ha
  unfold St.new at h0 ⊢
  cases he : (Lexer.new src).nextToken E.chk with
  | panic m => rw [he] at h0; cases h0
  | ok t sp lx =>
    rw [he] at h0
    cases h0
    refine ⟨rfl, ?_⟩
    have : D2 E api.prog api.prog := by
      cases api
      · exact DA.h (p := singleStatement)
      · exact DA.h (p := statements)
    exact this (runFn n) (runFn n) n _ _ (runFn_d n) ⟨⟨rfl, rfl, hA.now he, (fun _ h => by cases h), hA.step he⟩, _, .inl rfl, rfl⟩

/-- **C57**: an option that concerns a marker which does not occur in the source does not matter: the argument style if there is no `$n`, `?` or `%s`, the
list hack if there is no `_LIST_`. -/
theorem C57_unused_options {α : Type} (api : Api α) (chk : Bool) (src : List Char) (opts opts' : Opts) (old is : List Issue) (a : α) (toks : List (Token × Span))
    (ht : TokensOf chk src toks) (hc : ¬ Occurs .COPY toks) (hd : opts.dialect = opts'.dialect) (hu : opts.warnUnquoted = opts'.warnUnquoted)
    (hw : opts.warnCaps = opts'.warnCaps) (ha : opts.arguments = opts'.arguments ∨ NoMarkers toks)
    (hl : opts.listHack = opts'.listHack ∨ ¬ Occurs .«_LIST_» toks) :
    api.Returns chk src ⟨src, old⟩ opts a is ↔ api.Returns chk src ⟨src, old⟩ opts' a is := by
  have key : ∀ (o o' : Opts) (_ : o.dialect = o'.dialect) (_ : o.warnUnquoted = o'.warnUnquoted) (_ : o.warnCaps = o'.warnCaps)
      (_ : o.arguments = o'.arguments ∨ NoMarkers toks) (_ : o.listHack = o'.listHack ∨ ¬ Occurs .«_LIST_» toks),
      api.Returns chk src ⟨src, old⟩ o a is → api.Returns chk src ⟨src, old⟩ o' a is := by
    intro o o' hd hu hw ha hl h
    obtain ⟨new, s', e1, e2, ⟨n, s, e3, e4⟩, -⟩ := master h
    have hl0 := not_loaded ht hc e3 e4
    obtain ⟨k1, k2⟩ := options_step api ⟨chk, o, o', hu, hw⟩ src toks ht (fun x hx => ⟨ha.imp id fun h => h x hx, hl.imp id fun h => isKw_of_occurs h hx, fun h => absurd hd h⟩) n e3
    rw [e4] at k2
    refine ⟨n, ?_⟩
    rw [Api.run_eq]
    unfold runApi
    rw [show St.new chk src ⟨src, old⟩ o' = _ from k1]
    rcases k2 with k2 | (k2 | ⟨k2, -⟩) | ⟨k2, -⟩
    · show (api.prog.run n _).res _ = _
      revert k2
      generalize Prog.run n api.prog _ = o
      intro k2
      cases o with
      | ok a' t =>
        obtain ⟨rfl, -, is', k3, rfl⟩ := k2
        rcases k3 with rfl | ⟨k3, -⟩
        · show Res.ret a s'.issues = _
          rw [e2]
        · exact absurd hd k3
      | _ => cases k2
    · exact absurd k2 hl0
    · exact absurd hd k2
    · exact absurd hd k2
  exact ⟨key _ _ hd hu hw ha hl, key _ _ hd.symm hu.symm hw.symm (ha.imp Eq.symm id) (hl.imp Eq.symm id)⟩

/-- **C59**: a feature that a dialect does not have is reported, and understood all the same: if two dialects report no other Error, they agree on what the source
means and on all other issues.  (`REAL` is another type in SQLite, see `C56_real`; the other words are those after which the dialects read on in different ways.) -/
theorem C59_reported_and_understood {α : Type} (api : Api α) (chk : Bool) (src : List Char) (opts : Opts) (d d' : Dialect) (old new new' : List Issue) (a a' : α)
    (toks : List (Token × Span)) (ht : TokensOf chk src toks) (hc : ¬ Occurs .COPY toks)
    (hw : ∀ k ∈ [Keyword.REAL, .PRECISION, .FUNCTION, .CASCADE, .IDENTITY], ¬ Occurs k toks)
    (h : api.Returns chk src ⟨src, old⟩ { opts with dialect := d } a (old ++ new)) (h' : api.Returns chk src ⟨src, old⟩ { opts with dialect := d' } a' (old ++ new'))
    (hn : ∀ i ∈ new, i.level = .error → i.message ∈ dialectMessages) (hn' : ∀ i ∈ new', i.level = .error → i.message ∈ dialectMessages) :
    a = a' ∧ apartFromDialect new = apartFromDialect new' := by
  have z : ∀ {old new : List Issue} {opts : Opts} {a : α}, api.Returns chk src ⟨src, old⟩ opts a (old ++ new) →
      api.Returns chk src ⟨src, []⟩ opts a new := by
    rintro old new opts a ⟨n, h⟩
    rcases C15_independent_of_earlier_issues api n chk src src old [] opts with ⟨b, x, e1, e2⟩ | ⟨m, e1, -⟩ | ⟨e1, -⟩
    · rw [h] at e1
      injection e1 with e3 e4
      cases List.append_cancel_left e4
      exact ⟨n, by rw [e2, e3]; rfl⟩
    · rw [h] at e1; cases e1
    · rw [h] at e1; cases e1
  obtain ⟨n1, s', e1, e2, ⟨n, s, e3, e4⟩, -⟩ := master (old := []) (z h)
  obtain ⟨n1', t', e1', e2', ⟨n', t, e3', e4'⟩, -⟩ := master (old := []) (z h')
  have hl0 := not_loaded ht hc e3 e4
  have g := run_mono e4 (Nat.le_max_left n n')
  have g' := run_mono e4' (Nat.le_max_right n n')
  obtain ⟨k1, k2⟩ := options_step api ⟨chk, { opts with dialect := d }, { opts with dialect := d' }, rfl, rfl⟩ src toks ht
    (fun x hx => ⟨.inl rfl, .inl rfl, fun _ k hk => isKw_of_occurs (hw k (by
      simp only [List.mem_cons, List.not_mem_nil, or_false] at hk ⊢
      rcases hk with h | h | h | h | h <;> simp [h])) hx⟩) (max n n') e3
  rw [show St.new chk src ⟨src, []⟩ { opts with dialect := d' } = _ from k1] at e3'
  cases e3'
  rw [g, g'] at k2
  have other : ∀ {is : List Issue}, (∀ i ∈ is, i.level = .error → i.message ∈ dialectMessages) → ¬ HasOther is := by
    rintro is h ⟨i, h1, h2, h3⟩
    simp [Issue.aboutDialect, h2, h i h1 h2] at h3
  rcases k2 with ⟨k2, -, is', k3, k4⟩ | (k2 | ⟨-, k2⟩) | ⟨-, k2⟩
  · subst k4
    refine ⟨k2, ?_⟩
    rw [← show s'.issues = new from e2, ← show is' = new' from e2']
    rcases k3 with k3 | ⟨-, k3⟩
    · rw [k3]
    · exact k3
  · exact absurd k2 hl0
  · exact absurd k2 (other (show ∀ i ∈ s'.issues, _ from e2 ▸ hn))
  · exact absurd k2 (other (show ∀ i ∈ t'.issues, _ from e2' ▸ hn'))

/-- **C56**: where two dialects both accept a source, they agree on what it means. -/
theorem C56_dialects_agree {α : Type} (api : Api α) (chk : Bool) (src : List Char) (opts : Opts) (d d' : Dialect) (old new new' : List Issue) (a a' : α)
    (toks : List (Token × Span)) (ht : TokensOf chk src toks) (hc : ¬ Occurs .COPY toks)
    (hw : ∀ k ∈ [Keyword.REAL, .PRECISION, .FUNCTION, .CASCADE, .IDENTITY], ¬ Occurs k toks)
    (h : api.Returns chk src ⟨src, old⟩ { opts with dialect := d } a (old ++ new)) (h' : api.Returns chk src ⟨src, old⟩ { opts with dialect := d' } a' (old ++ new'))
    (hn : ¬ ∃ i ∈ new, i.level = .error) (hn' : ¬ ∃ i ∈ new', i.level = .error) : a = a' ∧ new = new' := by
  have e : ∀ {is : List Issue}, (¬ ∃ i ∈ is, i.level = .error) → apartFromDialect is = is := by
    intro is h
    refine List.filter_eq_self.2 fun i hi => ?_
    simp [Issue.aboutDialect, show ¬ i.level = .error from fun h' => h ⟨i, hi, h'⟩]
  have := C59_reported_and_understood api chk src opts d d' old new new' a a' toks ht hc hw h h' (fun i hi h => absurd ⟨i, hi, h⟩ hn) (fun i hi h => absurd ⟨i, hi, h⟩ hn')
  rw [e hn, e hn'] at this
  exact this

/-- The exception: `REAL` is `Type::Double` in SQLite and `Type::Float` in the other dialects (data_type.rs:304-312), without any issue. -/
theorem C56_real : ∃ a a', Api.one.Returns true c!"CREATE TABLE t (a REAL)" ⟨c!"CREATE TABLE t (a REAL)", []⟩ { dialect := .sqlite } (some a) [] ∧
    Api.one.Returns true c!"CREATE TABLE t (a REAL)" ⟨c!"CREATE TABLE t (a REAL)", []⟩ { dialect := .mariaDB } (some a') [] ∧ a ≠ a' := by
  have key : ∀ d b, (Api.one.run 60 true c!"CREATE TABLE t (a REAL)" ⟨c!"CREATE TABLE t (a REAL)", []⟩ { dialect := d }).test
        (fun o is => is.isEmpty && o.any fun v => v.ast.find (fun x => x.kind? == some .Type_Double) == b) = true →
      ∃ v, Api.one.Returns true c!"CREATE TABLE t (a REAL)" ⟨c!"CREATE TABLE t (a REAL)", []⟩ { dialect := d } (some v) [] ∧ v.ast.find (fun x => x.kind? == some .Type_Double) = b := by
    intro d b h
    obtain ⟨o, is, h1, h2⟩ := returns_of_test h
    simp only [Bool.and_eq_true, List.isEmpty_iff] at h2
    obtain ⟨rfl, h2⟩ := h2
    cases o with
    | none => cases h2
    | some v => exact ⟨v, h1, by simpa using h2⟩
  obtain ⟨v, h1, h2⟩ := key .sqlite true (by decide +kernel)
  obtain ⟨w, h3, h4⟩ := key .mariaDB false (by decide +kernel)
  exact ⟨v, w, h1, h3, fun h => by rw [h, h4] at h2; cases h2⟩

/-- The tokens of a source and a test of them. -/
theorem tokens_test {src : List Char} {f : List (Token × Span) → Bool} (h : (scanN true 40 (Lexer.new src)).any f = true) : ∃ toks, TokensOf true src toks ∧ f toks = true := by
  cases e : scanN true 40 (Lexer.new src) with
  | none => rw [e] at h; cases h
  | some toks => exact ⟨toks, scanN_scan e, by rw [e] at h; exact h⟩
theorem not_occurs_all {k : Keyword} {toks : List (Token × Span)} (h : (toks.all fun x => !x.1.isKw k) = true) : ¬ Occurs k toks := by
  rintro ⟨v, sp, h3⟩
  have := List.all_eq_true.1 h _ h3
  simp [Token.isKw] at this

/-- Non-vacuity of C57: the style of arguments does not matter to a query without arguments. -/
example : ∃ l is, Api.many.Returns true c!"SELECT a FROM t; DROP TABLE b" ⟨c!"SELECT a FROM t; DROP TABLE b", []⟩ { arguments := .questionMark, listHack := true } l is ∧ l.length = 2 ∧
    Api.many.Returns true c!"SELECT a FROM t; DROP TABLE b" ⟨c!"SELECT a FROM t; DROP TABLE b", []⟩ { arguments := .dollar } l is := by
  obtain ⟨l, is, h1, h2⟩ := returns_of_test (api := .many) (n := 60) (checked := true) (src := c!"SELECT a FROM t; DROP TABLE b") (iss := ⟨c!"SELECT a FROM t; DROP TABLE b", []⟩)
      (opts := { arguments := .questionMark, listHack := true }) (f := fun l _ => decide (l.length = 2)) (by decide +kernel)
  obtain ⟨toks, h3, h4⟩ := tokens_test (src := c!"SELECT a FROM t; DROP TABLE b") (f := fun l => (l.all fun x => !x.1.isKw .COPY) && ((l.all fun x => !x.1.isKw .«_LIST_») &&
    l.all fun x => (match x.1 with | .dollarArg _ => false | .questionMark => false | .percentS => false | _ => true))) (by decide +kernel)
  simp only [Bool.and_eq_true] at h4
  refine ⟨l, is, h1, by simpa using h2, ?_⟩
  refine (C57_unused_options .many true _ { arguments := .questionMark, listHack := true } { arguments := .dollar } _ _ _ toks h3 (not_occurs_all h4.1) rfl rfl rfl (.inr ?_) (.inr (not_occurs_all h4.2.1))).1 h1
  intro x hx
  have := List.all_eq_true.1 h4.2.2 x hx
  refine ⟨fun n h => ?_, fun h => ?_, fun h => ?_⟩ <;> (rw [h] at this; cases this)

/-- Non-vacuity of C56. -/
example : ∃ toks v is, TokensOf true c!"SELECT `a` FROM `t` WHERE b = 1" toks ∧ ¬ Occurs .COPY toks ∧ (∀ k ∈ [Keyword.REAL, .PRECISION, .FUNCTION, .CASCADE, .IDENTITY], ¬ Occurs k toks) ∧
    Api.one.Returns true c!"SELECT `a` FROM `t` WHERE b = 1" ⟨c!"SELECT `a` FROM `t` WHERE b = 1", []⟩ { dialect := .mariaDB } (some v) is ∧
    Api.one.Returns true c!"SELECT `a` FROM `t` WHERE b = 1" ⟨c!"SELECT `a` FROM `t` WHERE b = 1", []⟩ { dialect := .sqlite } (some v) is := by
  have key : ∀ d, (Api.one.run 60 true c!"SELECT `a` FROM `t` WHERE b = 1" ⟨c!"SELECT `a` FROM `t` WHERE b = 1", []⟩ { dialect := d }).test (fun o is => is.isEmpty && o.isSome) = true →
      ∃ v, Api.one.Returns true c!"SELECT `a` FROM `t` WHERE b = 1" ⟨c!"SELECT `a` FROM `t` WHERE b = 1", []⟩ { dialect := d } (some v) [] := by
    intro d h
    obtain ⟨o, is, h1, h2⟩ := returns_of_test h
    simp only [Bool.and_eq_true, List.isEmpty_iff] at h2
    obtain ⟨rfl, h2⟩ := h2
    cases o with
    | none => cases h2
    | some v => exact ⟨v, h1⟩
  obtain ⟨v, h1⟩ := key .mariaDB (by decide +kernel)
  obtain ⟨w, h2⟩ := key .sqlite (by decide +kernel)
  obtain ⟨toks, h3, h4⟩ := tokens_test (src := c!"SELECT `a` FROM `t` WHERE b = 1") (f := fun l => [Keyword.COPY, .REAL, .PRECISION, .FUNCTION, .CASCADE, .IDENTITY].all fun k => l.all fun x => !x.1.isKw k) (by decide +kernel)
  have h5 : ∀ k ∈ [Keyword.COPY, .REAL, .PRECISION, .FUNCTION, .CASCADE, .IDENTITY], ¬ Occurs k toks := fun k hk => not_occurs_all (List.all_eq_true.1 h4 k hk)
  have h6 := fun k hk => h5 k (List.mem_cons_of_mem _ hk)
  obtain ⟨h7, -⟩ := C56_dialects_agree .one true _ {} .mariaDB .sqlite [] [] [] (some v) (some w) toks h3 (h5 _ (by simp)) h6 h1 h2 (by simp) (by simp)
  cases h7
  exact ⟨toks, v, [], h3, h5 _ (by simp), h6, h1, h2⟩

/-- Non-vacuity of C59: RETURNING of UPDATE is reported in MariaDB, and the AST is that of PostgreSQL. -/
example : ∃ toks v i, TokensOf true c!"UPDATE t SET a = 1 RETURNING b" toks ∧ ¬ Occurs .COPY toks ∧ (∀ k ∈ [Keyword.REAL, .PRECISION, .FUNCTION, .CASCADE, .IDENTITY], ¬ Occurs k toks) ∧
    i.aboutDialect = true ∧
    Api.one.Returns true c!"UPDATE t SET a = 1 RETURNING b" ⟨c!"UPDATE t SET a = 1 RETURNING b", []⟩ { dialect := .mariaDB } (some v) [i] ∧
    Api.one.Returns true c!"UPDATE t SET a = 1 RETURNING b" ⟨c!"UPDATE t SET a = 1 RETURNING b", []⟩ { dialect := .postgreSQL } (some v) [] := by
  obtain ⟨o, is, h1, e1⟩ := returns_of_test (api := .one) (n := 60) (checked := true) (src := c!"UPDATE t SET a = 1 RETURNING b") (iss := ⟨c!"UPDATE t SET a = 1 RETURNING b", []⟩)
      (opts := { dialect := .mariaDB }) (f := fun o is => o.isSome && (decide (is.length = 1) && is.all fun i => decide (i.message = "Only support by postgesql"))) (by decide +kernel)
  obtain ⟨o', is', h2, e2⟩ := returns_of_test (api := .one) (n := 60) (checked := true) (src := c!"UPDATE t SET a = 1 RETURNING b") (iss := ⟨c!"UPDATE t SET a = 1 RETURNING b", []⟩)
      (opts := { dialect := .postgreSQL }) (f := fun o is => o.isSome && is.isEmpty) (by decide +kernel)
  simp only [Bool.and_eq_true, List.isEmpty_iff, decide_eq_true_eq] at e1 e2
  obtain ⟨e1, e3, e4⟩ := e1
  obtain ⟨e5, rfl⟩ := e2
  obtain ⟨toks, h3, h4⟩ := tokens_test (src := c!"UPDATE t SET a = 1 RETURNING b") (f := fun l => [Keyword.COPY, .REAL, .PRECISION, .FUNCTION, .CASCADE, .IDENTITY].all fun k => l.all fun x => !x.1.isKw k) (by decide +kernel)
  have h5 : ∀ k ∈ [Keyword.COPY, .REAL, .PRECISION, .FUNCTION, .CASCADE, .IDENTITY], ¬ Occurs k toks := fun k hk => not_occurs_all (List.all_eq_true.1 h4 k hk)
  have h6 := fun k hk => h5 k (List.mem_cons_of_mem _ hk)
  have h8 : ∀ i ∈ is, i.message ∈ dialectMessages := fun i hi => by
    have : i.message = "Only support by postgesql" := by simpa using List.all_eq_true.1 e4 i hi
    rw [this]; decide
  obtain ⟨h7, h9⟩ := C59_reported_and_understood .one true _ {} .mariaDB .postgreSQL [] is [] o o' toks h3 (h5 _ (by simp)) h6 h1 h2 (fun i hi _ => h8 i hi) (by simp)
  cases h7
  match is, e3, h9, h8, h1 with
  | [i], _, h9, h8, h1 =>
    cases o with
    | none => cases e1
    | some v =>
      refine ⟨toks, v, i, h3, h5 _ (by simp), h6, ?_, h1, h2⟩
      cases hb : i.aboutDialect with
      | true => rfl
      | false => simp [apartFromDialect, hb] at h9

end SqlParse
