import Verif.Spec.Prefix
import Verif.Proofs.Prefix
import Verif.Theorems.Compose
import Verif.Proofs.Stream
import Verif.Theorems.Isolate
/-! **C52**: what is said about the beginning of a source does not depend on what follows. -/
namespace SqlParse
variable {chk : Bool} {opts : Opts}

theorem early_eq (p : Nat) (l : List Issue) : early p l = expectedBefore p l := by
  unfold early expectedBefore
  rw [List.filter_map]
  rfl

theorem api_eh {α : Type} (api : Api α) : EH api.prog := by
  cases api
  · exact singleStatement_eh
  · exact statements_eh

/-- Without COPY no data is read. -/
theorem not_loaded {α : Type} {api : Api α} {a : List Char} {toks : List (Token × Span)} {old : List Issue} (ht : TokensOf chk a toks) (hc : ¬ Occurs .COPY toks)
    {n : Nat} {v : α} {s0 s' : St} (h3 : St.new chk a ⟨a, old⟩ opts = .ok () s0) (hr : api.prog.run n s0 = .ok v s') : ¬ Loaded s' := by
  have hB : (twinPar a a toks toks opts old old ht ht (allAlike_of_map rfl) hc (fun _ _ _ _ _ _ h => by rw [h]) (fun _ _ _ h => h) (fun _ => ⟨fun _ => oneToOne_eq, oneToOne_eq⟩)).B (Lexer.new a) (Lexer.new a) :=
    ⟨lexInv_new chk a, lexInv_new chk a, 0, ht, ht⟩
  obtain ⟨E, hE1, hE2⟩ : ∃ E : Par, SR E s0 s0 ∧ ¬ E.ok .COPY := by
    refine ⟨twinPar a a toks toks opts old old ht ht (allAlike_of_map rfl) hc (fun _ _ _ _ _ _ h => by rw [h]) (fun _ _ _ h => h) (fun _ => ⟨fun _ => oneToOne_eq, oneToOne_eq⟩), ?_, hc⟩
    rcases Par.next _ hB with ⟨m, e1, e2⟩ | ⟨t1, t2, sp, sp', m, m', e1, e2, e3, e4, e5⟩
    · unfold St.new at h3
      rw [show (Lexer.new a).nextToken chk = _ from e1] at h3
      cases h3
    · have e1 : (Lexer.new a).nextToken chk = _ := e1
      have e2 : (Lexer.new a).nextToken chk = _ := e2
      rw [e1] at e2
      cases e2
      unfold St.new at h3
      rw [e1] at h3
      cases h3
      exact { token := e3, span := e4, peeked := trivial, lx := e5, issues := ⟨[], [], by simp [twinPar], by simp [twinPar], trivial⟩, arg := rfl, delim := dl_semi, opts := rfl, opts' := rfl, permit := rfl, chk := rfl, chk' := rfl, data := fun _ => rfl }
  have key : SR E s' s' := by
    cases api with
    | one =>
      have hsr := run_par (E := E) singleStatement_par n hE1
      rw [show singleStatement.run n s0 = _ from hr] at hsr
      cases hsr with | ok h hs => exact hs
    | many =>
      have hsr := run_par (E := E) statements_par n hE1
      rw [show statements.run n s0 = _ from hr] at hsr
      cases hsr with | ok h hs => exact hs
  exact fun h => h (key.data hE2)

/-- **C52**: two sources begin with the same tokens (at the same places), the last of which is `p`; then parsing them gives the
same issues about something expected before `p`: an error that has been made is not undone by what follows, and no error is
reported because of what follows. -/
theorem C52_persist {α : Type} (api : Api α) (src src' : List Char) (toks r r' : List (Token × Span)) (p : Token × Span) (opts : Opts)
    (old old' new new' : List Issue) (a a' : α) (h : TokensOf chk src (toks ++ p :: r)) (h' : TokensOf chk src' (toks ++ p :: r'))
    (hc : ¬ Occurs .COPY (toks ++ p :: r)) (hc' : ¬ Occurs .COPY (toks ++ p :: r'))
    (h1 : api.Returns chk src ⟨src, old⟩ opts a (old ++ new)) (h2 : api.Returns chk src' ⟨src', old'⟩ opts a' (old' ++ new')) :
    expectedBefore p.2.start new = expectedBefore p.2.start new' := by
  have z : ∀ {src : List Char} {old new : List Issue} {a : α}, api.Returns chk src ⟨src, old⟩ opts a (old ++ new) →
      api.Returns chk src ⟨src, []⟩ opts a new := by
    rintro src old new a ⟨n, h⟩
    rcases C15_independent_of_earlier_issues api n chk src src old [] opts with ⟨b, x, e1, e2⟩ | ⟨m, e1, -⟩ | ⟨e1, -⟩
    · rw [h] at e1
      injection e1 with e3 e4
      cases List.append_cancel_left e4
      exact ⟨n, by rw [e2, e3]; rfl⟩
    · rw [h] at e1; cases e1
    · rw [h] at e1; cases e1
  obtain ⟨n1, s', e1, e2, ⟨n, s, e3, e4⟩, -⟩ := master (old := []) (z h1)
  obtain ⟨n1', t', e1', e2', ⟨n', t, e3', e4'⟩, -⟩ := master (old := []) (z h2)
  have hl := not_loaded h hc e3 e4
  have hl' := not_loaded h' hc' e3' e4'
  have g := run_mono e4 (Nat.le_max_left n n')
  have g' := run_mono e4' (Nat.le_max_right n n')
  have hcm : Common chk (Lexer.new src) (Lexer.new src') (toks ++ [p]) :=
    common_of_scan _ (by simpa [TokensOf] using h) (by simpa [TokensOf] using h')
  have hs : PreR chk p.2.start s t := by
    have i1 := (new_binv e3).1
    have i2 := (new_binv e3').1
    have hla : LastAt p.2.start (toks ++ [p]) := by simp [LastAt]
    generalize toks ++ [p] = L at hcm hla
    unfold St.new at e3 e3'
    cases hcm with
    | nil => simp [LastAt] at hla
    | cons k1 k2 hr =>
      rw [k1] at e3
      rw [k2] at e3'
      cases e3
      cases e3'
      exact ⟨⟨_, hr, hla⟩, rfl, rfl, rfl, i1, i2⟩
  have key := run_pre (max n n') (api_eh api) hs
  rw [g, g'] at key
  rw [← early_eq, ← early_eq, ← e2, ← e2']
  cases key with
  | ok h => exact h.early
  | late K h h' =>
    rcases h with h | ⟨-, -, h⟩
    · exact absurd h hl
    rcases h' with h' | ⟨-, -, h'⟩
    · exact absurd h' hl'
    rw [h, h']

theorem expectedBefore_nil {p : Nat} {l : List Issue} (h : expectedBefore p l = []) : ∀ i ∈ l, i.message.isSyntax = true → p ≤ i.span.start := by
  intro i hi hw
  unfold expectedBefore at h
  rw [List.map_eq_nil_iff, List.filter_eq_nil_iff] at h
  have := h i hi
  rw [hw] at this
  simpa using this

/-- **C52**: no error is reported too early.  If a source is accepted without issues, then with any other end, after the token `p`,
everything that is said to be expected is expected where `p` starts or later. -/
theorem C52_viable {α : Type} (api : Api α) (src src' : List Char) (toks r r' : List (Token × Span)) (p : Token × Span) (opts : Opts)
    (old old' new' : List Issue) (a a' : α) (h : TokensOf chk src (toks ++ p :: r)) (h' : TokensOf chk src' (toks ++ p :: r'))
    (hc : ¬ Occurs .COPY (toks ++ p :: r)) (hc' : ¬ Occurs .COPY (toks ++ p :: r'))
    (h1 : api.Returns chk src ⟨src, old⟩ opts a old) (h2 : api.Returns chk src' ⟨src', old'⟩ opts a' (old' ++ new')) :
    ∀ i ∈ new', i.message.isSyntax = true → p.2.start ≤ i.span.start :=
  expectedBefore_nil (C52_persist api src src' toks r r' p opts old old' [] new' a a' h h' hc hc' (by simpa using h1) h2).symm

theorem prefix_toks1 : TokensOf true c!"SELECT a + 1 FROM t" ([(.ident c!"SELECT" .SELECT, ⟨0, 6⟩), (.ident c!"a" .NOT_A_KEYWORD, ⟨7, 8⟩)] ++ (.plus, ⟨9, 10⟩) ::
    [(.integer c!"1", ⟨11, 12⟩), (.ident c!"FROM" .FROM, ⟨13, 17⟩), (.ident c!"t" .NOT_A_KEYWORD, ⟨18, 19⟩), (.eof, ⟨19, 19⟩)]) :=
  written_tokensOf (toks := [(.ident c!"SELECT" .SELECT, ⟨0, 6⟩), (.ident c!"a" .NOT_A_KEYWORD, ⟨7, 8⟩), (.plus, ⟨9, 10⟩),
    (.integer c!"1", ⟨11, 12⟩), (.ident c!"FROM" .FROM, ⟨13, 17⟩), (.ident c!"t" .NOT_A_KEYWORD, ⟨18, 19⟩)])
    ((C37_written_iff true _ _ (by decide)).2 ⟨⟨c!"SELECT a + 1 FROM t", 19, []⟩, by decide +kernel⟩)
theorem prefix_toks2 : TokensOf true c!"SELECT a + , b" ([(.ident c!"SELECT" .SELECT, ⟨0, 6⟩), (.ident c!"a" .NOT_A_KEYWORD, ⟨7, 8⟩)] ++ (.plus, ⟨9, 10⟩) ::
    [(.comma, ⟨11, 12⟩), (.ident c!"b" .NOT_A_KEYWORD, ⟨13, 14⟩), (.eof, ⟨14, 14⟩)]) :=
  written_tokensOf (toks := [(.ident c!"SELECT" .SELECT, ⟨0, 6⟩), (.ident c!"a" .NOT_A_KEYWORD, ⟨7, 8⟩), (.plus, ⟨9, 10⟩),
    (.comma, ⟨11, 12⟩), (.ident c!"b" .NOT_A_KEYWORD, ⟨13, 14⟩)])
    ((C37_written_iff true _ _ (by decide)).2 ⟨⟨c!"SELECT a + , b", 14, []⟩, by decide +kernel⟩)

/-- Non-vacuity of C52: `SELECT a + 1 FROM t` is accepted; `SELECT a + , b` begins with the same three tokens, is not accepted, and
what is expected is expected at or after the `+`. -/
example : ∃ a a' i is, Api.one.Returns true c!"SELECT a + 1 FROM t" ⟨c!"SELECT a + 1 FROM t", []⟩ {} a [] ∧
    Api.one.Returns true c!"SELECT a + , b" ⟨c!"SELECT a + , b", []⟩ {} a' (i :: is) ∧ i.message = .plain "Expected expression" ∧ i.span = ⟨11, 12⟩ ∧
    ∀ j ∈ i :: is, j.message.isSyntax = true → 9 ≤ j.span.start := by
  obtain ⟨a, is1, h1, g1⟩ := returns_of_test (api := .one) (n := 60) (checked := true) (src := c!"SELECT a + 1 FROM t")
    (iss := ⟨c!"SELECT a + 1 FROM t", []⟩) (opts := {}) (f := fun _ is => is.isEmpty) (by decide +kernel)
  obtain ⟨a', is2, h2, g2⟩ := returns_of_test (api := .one) (n := 60) (checked := true) (src := c!"SELECT a + , b")
    (iss := ⟨c!"SELECT a + , b", []⟩) (opts := {}) (f := fun _ is => is.head?.any fun (i : Issue) => decide (i.message = .plain "Expected expression") && decide (i.span = ⟨11, 12⟩)) (by decide +kernel)
  rw [List.isEmpty_iff] at g1
  subst g1
  cases is2 with
  | nil => cases g2
  | cons i is =>
    simp only [List.head?_cons, Option.any_some, Bool.and_eq_true, decide_eq_true_eq] at g2
    exact ⟨a, a', i, is, h1, h2, g2.1, g2.2, C52_viable .one _ _ _ _ _ _ {} [] [] _ a a' prefix_toks1 prefix_toks2
      (not_occurs (by decide +kernel)) (not_occurs (by decide +kernel)) h1 h2⟩

end SqlParse
