import Verif.Proofs.FirstKw
import Verif.Proofs.WatchStmt
import Verif.Theorems.Compose
import Verif.Theorems.Prefix
/-! **C55**: with `warn_none_capital_keywords`, keywords that are not in capitals are reported. -/
namespace SqlParse

/-- The keywords that begin a statement, but for INSERT and REPLACE. -/
def statementKeywords : List Keyword := [.CREATE, .DROP, .SELECT, .DELETE, .UPDATE, .SET, .SIGNAL, .BEGIN, .END, .START, .COMMIT, .IF, .RETURN, .ALTER, .CASE, .COPY, .DO, .TRUNCATE,
  .RENAME, .WITH]

/-- **C55** (what holds): `parse_statement` with `warn_none_capital_keywords` reports the first word of the source if that is a
keyword that begins a statement, other than INSERT and REPLACE, and is not in capitals.  Missing: the other keywords; several are not
reported (see `C55_violated`). -/
theorem C55_first_partial (chk : Bool) (src : List Char) (opts : Opts) (old new : List Issue) (a : Option SAst) (v : List Char) (k : Keyword) (sp : Span)
    (toks : List (Token × Span)) (ht : TokensOf chk src ((.ident v k, sp) :: toks)) (hk : k ∈ statementKeywords) (ho : opts.warnCaps = true)
    (hv : ¬ ∀ c ∈ v, 'A' ≤ c ∧ c ≤ 'Z') (h : Api.one.Returns chk src ⟨src, old⟩ opts a (old ++ new)) : ∃ i ∈ new, CapsIssue v sp i := by
  have z : Api.one.Returns chk src ⟨src, []⟩ opts a new := by
    obtain ⟨n, h⟩ := h
    rcases C15_independent_of_earlier_issues Api.one n chk src src old [] opts with ⟨b, x, e1, e2⟩ | ⟨m, e1, -⟩ | ⟨e1, -⟩
    · rw [h] at e1
      injection e1 with e3 e4
      cases List.append_cancel_left e4
      exact ⟨n, by rw [e2, e3]; rfl⟩
    · rw [h] at e1; cases e1
    · rw [h] at e1; cases e1
  obtain ⟨n1, s', e1, e2, ⟨n, s, e3, e4⟩, -⟩ := master (old := []) z
  obtain ⟨i1, -, -, -, -, -, i2, i3, -⟩ := new_binv e3
  have hu : allUpper v = false := by
    rw [Bool.eq_false_iff]
    intro h
    apply hv
    intro c hc
    have := List.all_eq_true.1 h c hc
    simp only [isUp, Bool.and_eq_true, decide_eq_true_eq] at this
    exact ⟨UInt32.le_iff_toNat_le.2 this.1, UInt32.le_iff_toNat_le.2 this.2⟩
  have hs : s.token = .ident v k ∧ s.span = sp := by
    unfold St.new at e3
    cases ht with
    | cons h1 _ _ => rw [h1] at e3; cases e3; exact ⟨rfl, rfl⟩
  have := single_first hk n s v hs.1 (by rw [i2]; exact ho) hu i3
  rw [show singleStatement.run n s = _ from e4, hs.2] at this
  obtain ⟨i, h1, h2⟩ := this
  exact ⟨i, e2 ▸ h1, h2⟩

/-- After the end of the source there is nothing. -/
theorem scan_eof {chk : Bool} {l : Lexer} {toks : List (Token × Span)} (h : Scan chk l toks) : ∀ {a b sp}, toks = a ++ (.eof, sp) :: b → b = [] := by
  induction h with
  | last h =>
    intro a b sp e
    cases a with
    | nil => cases e; rfl
    | cons x a => cases a <;> cases e
  | cons h ht hs ih =>
    intro a b sp e
    cases a with
    | nil => cases e; exact absurd rfl ht
    | cons x a => cases e; exact ih rfl

theorem notUpper {v : List Char} (hv : ¬ ∀ c ∈ v, 'A' ≤ c ∧ c ≤ 'Z') : allUpper v = false := by
  rw [Bool.eq_false_iff]
  intro h
  apply hv
  intro c hc
  have := List.all_eq_true.1 h c hc
  simp only [isUp, Bool.and_eq_true, decide_eq_true_eq] at this
  exact ⟨UInt32.le_iff_toNat_le.2 this.1, UInt32.le_iff_toNat_le.2 this.2⟩

/-- **C55** (what holds): with `warn_none_capital_keywords`, in MariaDB and SQLite, a call that reports no Error reports every reserved word of the
source that is not in capitals, except for the words of `uncheckedKeywords`; sources with COPY, DELIMITER, `@@GLOBAL` or `@@SESSION` aside.  Missing:
the words of `uncheckedKeywords` and words that are not reserved; several are not reported (see `C55_violated`). -/
theorem C55_reserved_partial {α : Type} (api : Api α) (chk : Bool) (src : List Char) (opts : Opts) (old new : List Issue) (a : α)
    (toks : List (Token × Span)) (ht : TokensOf chk src toks) (ho : opts.warnCaps = true) (hg : opts.dialect ≠ .postgreSQL)
    (hc : ¬ Occurs .COPY toks) (hd : ¬ Occurs .DELIMITER toks) (hx : ∀ sp, (Token.atAtGlobal, sp) ∉ toks ∧ (Token.atAtSession, sp) ∉ toks)
    (h : api.Returns chk src ⟨src, old⟩ opts a (old ++ new)) (hn : ¬ ∃ i ∈ new, i.level = .error)
    (v : List Char) (k : Keyword) (sp : Span) (hk : (.ident v k, sp) ∈ toks) (hr : k.reserved = true) (hu : k ∉ uncheckedKeywords)
    (hv : ¬ ∀ c ∈ v, 'A' ≤ c ∧ c ≤ 'Z') : ∃ i ∈ new, CapsIssue v sp i := by
  have z : api.Returns chk src ⟨src, []⟩ opts a new := by
    obtain ⟨n, h⟩ := h
    rcases C15_independent_of_earlier_issues api n chk src src old [] opts with ⟨b, x, e1, e2⟩ | ⟨m, e1, -⟩ | ⟨e1, -⟩
    · rw [h] at e1
      injection e1 with e3 e4
      cases List.append_cancel_left e4
      exact ⟨n, by rw [e2, e3]; rfl⟩
    · rw [h] at e1; cases e1
    · rw [h] at e1; cases e1
  have hn' : ¬ HasError new := hn
  let E : Wsrc := ⟨chk, toks, fun x hxm => ⟨fun e => (hx x.2).1 (by rw [← e]; exact hxm), fun e => (hx x.2).2 (by rw [← e]; exact hxm), by
    obtain ⟨t, sp⟩ := x
    rw [Bool.eq_false_iff]
    intro hk
    cases t with
    | ident v k =>
      simp only [Token.isKw, decide_eq_true_eq] at hk
      subst hk
      exact hd ⟨v, sp, hxm⟩
    | _ => cases hk⟩⟩
  obtain ⟨n, s0, s', h3, h4, h5, h6⟩ : ∃ n s0 s', St.new chk src ⟨src, []⟩ opts = .ok () s0 ∧ api.prog.run n s0 = .ok a s' ∧ s'.issues = new ∧ s'.token = .eof := by
    cases api with
    | one =>
      obtain ⟨v, rfl, n, s, s', g1, g2, g3, g4, -⟩ := C12_all_input_consumed chk src [] new opts a z hn'
      exact ⟨n, s, s', g1, g2, g3, g4⟩
    | many =>
      obtain ⟨n, s, s', g1, g2, -, g3, -, -, g4, -⟩ := final_state ht hc hd z (endsPlain_of_clean hn')
      exact ⟨n, s, s', g1, g2, g4, g3⟩
  have hs : Core E s0 := by
    obtain ⟨i1, -, -, -, -, -, i2, i3, -⟩ := new_binv h3
    unfold St.new at h3
    obtain ⟨t, sp, m, r', g1, rfl, g2⟩ := scan_inv ht
    rw [g1] at h3
    cases h3
    exact ⟨rfl, ho, hg, rfl, [], r', rfl, by simpa [AfterCur] using g2, fun x hx => by cases hx⟩
  have key := (show Cw E Top api.prog by cases api <;> first | exact singleStatement_cw | exact statements_cw) (runFn n) n s0 (runFn_cw n) hs trivial
  rw [show runWith (runFn n) n api.prog s0 = _ from h4] at key
  have hall : ∀ x ∈ toks, Seen new x := by
    rcases key with (key | key | key) | ⟨key, -⟩
    · exact absurd key (not_loaded ht hc h3 h4)
    · exact absurd (h5 ▸ key) hn'
    · exact h5 ▸ key
    · obtain ⟨l, r, g1, -, g2⟩ := key.pos
      rw [h6, h5] at *
      cases scan_eof ht g1
      intro x hx
      rcases List.mem_append.1 (show x ∈ l ++ [_] from (show toks = _ from g1) ▸ hx) with hx | hx
      · exact g2 x hx
      · rw [List.mem_singleton.1 hx]
        exact seen_unwatched (show Token.eof.kw.watched = false from rfl)
  refine hall _ hk v k rfl ?_ (notUpper hv)
  unfold Keyword.watched
  rw [hr]
  simpa using hu

/-- The tokens of a source, computed. -/
def scanN (chk : Bool) : Nat → Lexer → Option (List (Token × Span))
  | 0, _ => none
  | n + 1, l => match l.nextToken chk with
    | .ok t sp m => if t = .eof then some [(t, sp)] else (scanN chk n m).map ((t, sp) :: ·)
    | .panic _ => none

theorem scanN_scan {chk : Bool} {n : Nat} {l : Lexer} {toks : List (Token × Span)} (h : scanN chk n l = some toks) : Scan chk l toks := by
  induction n generalizing l toks with
  | zero => cases h
  | succ n ih =>
    unfold scanN at h
    split at h
    · next t sp m e =>
      split at h
      · next ht => cases h; subst ht; exact .last e
      · next ht =>
        cases e2 : scanN chk n m with
        | none => rw [e2] at h; cases h
        | some r => rw [e2] at h; cases h; exact .cons e ht (ih e2)
    · cases h

/-- Accepted without any issue, with `warn_none_capital_keywords`. -/
def silentScripts : List (List Char) := [
  c!"SELECT a or b xor c and d, binary e, collate f, not g, h like i, interval 1 DAY, j IS true, j IS false, j IS null, left(a,b), right(a,b), if(a,b,c), values(b);",
  c!"SELECT current_timestamp, localtime, localtimestamp, utc_timestamp, utc_date, utc_time, current_date, current_time;",
  c!"SELECT INTERVAL 1 second_microsecond, INTERVAL 1 minute_microsecond, INTERVAL 1 minute_second, INTERVAL 1 hour_microsecond, INTERVAL 1 hour_second;",
  c!"SELECT INTERVAL 1 hour_minute, INTERVAL 1 day_microsecond, INTERVAL 1 day_second, INTERVAL 1 day_minute, INTERVAL 1 day_hour, INTERVAL 1 year_month;",
  c!"SELECT a FROM t use index FOR join (b) ORDER BY a asc, b desc LIMIT 1 offset 2; SELECT a FROM t ignore key (b); SELECT a FROM t force INDEX (b);",
  c!"insert INTO t VALUES (1); replace INTO t VALUES (1); ALTER TABLE t ALTER COLUMN a set default 1, ALTER COLUMN a drop DEFAULT;",
  c!"CREATE FUNCTION f(x INT) RETURNS INT LANGUAGE sql RETURN 1;"]

/-- The keyword occurs in lower case. -/
def lowerIn (k : Keyword) (toks : List (Token × Span)) : Bool := toks.any fun x => match x.1 with
  | .ident v k' => decide (k' = k) && v.all fun c => !isUp c
  | _ => false

theorem silent_silent : (silentScripts.all fun src => (Api.many.run 60 true src ⟨src, []⟩ { warnCaps := true }).test fun _ is => is.isEmpty) = true := by
  decide +kernel

theorem silent_covers : (uncheckedKeywords.all fun k => silentScripts.any fun src => match scanN true 200 (Lexer.new src) with
    | some toks => lowerIn k toks
    | none => false) = true := by
  decide +kernel

/-- **C55** (violated by the pinned code), for each word that `C55_reserved_partial` excepts: there is a script with that word, in lower case, about which nothing
is reported.  So that theorem can not be extended to any of them. -/
theorem C55_unchecked_missed : ∀ k ∈ uncheckedKeywords, ∃ src toks v sp l, TokensOf true src toks ∧ (.ident v k, sp) ∈ toks ∧ (∀ c ∈ v, ¬ ('A' ≤ c ∧ c ≤ 'Z')) ∧
    Api.many.Returns true src ⟨src, []⟩ { warnCaps := true } l [] := by
  intro k hk
  obtain ⟨src, h1, h2⟩ := List.any_eq_true.1 (List.all_eq_true.1 silent_covers k hk)
  split at h2
  · next toks e =>
    obtain ⟨⟨t, sp⟩, h3, h4⟩ := List.any_eq_true.1 h2
    have h5 := List.all_eq_true.1 silent_silent src h1
    obtain ⟨l, is, h6, h7⟩ := returns_of_test h5
    simp only [List.isEmpty_iff] at h7
    subst h7
    cases t with
    | ident v k' =>
      simp only [Bool.and_eq_true, decide_eq_true_eq] at h4
      obtain ⟨rfl, h4⟩ := h4
      refine ⟨src, toks, v, sp, l, scanN_scan e, h3, ?_, h6⟩
      intro c hc hu
      have := List.all_eq_true.1 h4 c hc
      simp only [isUp, Bool.not_eq_true', Bool.and_eq_false_iff, decide_eq_false_iff_not] at this
      rcases this with h | h
      · exact h (UInt32.le_iff_toNat_le.1 hu.1)
      · exact h (UInt32.le_iff_toNat_le.1 hu.2)
    | _ => cases h4
  · cases h2

/-- **C55** (violated by the pinned code): keywords that are not in capitals and not reported: `insert` and `replace` at the beginning of a
statement, `or`, `asc`, and others. -/
theorem C55_violated :
    (Api.one.run 60 true c!"insert INTO t VALUES (1)" ⟨c!"insert INTO t VALUES (1)", []⟩ { warnCaps := true }).test (fun o is => is.isEmpty && o.isSome) = true ∧
    (Api.one.run 60 true c!"SELECT a or b FROM t ORDER BY a asc" ⟨c!"SELECT a or b FROM t ORDER BY a asc", []⟩ { warnCaps := true }).test (fun o is => is.isEmpty && o.isSome) = true := by
  decide +kernel

/-- Non-vacuity of `C55_first_partial`. -/
example : ∃ a i, TokensOf true c!"select 1" [(.ident c!"select" .SELECT, ⟨0, 6⟩), (.integer c!"1", ⟨7, 8⟩), (.eof, ⟨8, 8⟩)] ∧
    Api.one.Returns true c!"select 1" ⟨c!"select 1", []⟩ { warnCaps := true } a [i] ∧ CapsIssue c!"select" ⟨0, 6⟩ i := by
  obtain ⟨a, is, h1, h2⟩ := returns_of_test (api := .one) (n := 60) (checked := true) (src := c!"select 1") (iss := ⟨c!"select 1", []⟩)
      (opts := { warnCaps := true }) (f := fun o is => decide (is.length = 1) && o.isSome) (by decide +kernel)
  simp only [Bool.and_eq_true, decide_eq_true_eq] at h2
  have ht : TokensOf true c!"select 1" [(.ident c!"select" .SELECT, ⟨0, 6⟩), (.integer c!"1", ⟨7, 8⟩), (.eof, ⟨8, 8⟩)] :=
    written_tokensOf (toks := [(.ident c!"select" .SELECT, ⟨0, 6⟩), (.integer c!"1", ⟨7, 8⟩)])
      ((C37_written_iff true _ _ (by decide)).2 ⟨⟨c!"select 1", 8, []⟩, by decide +kernel⟩)
  match is, h1, h2.1 with
  | [i], h1, _ =>
    obtain ⟨j, hj, h3⟩ := C55_first_partial true _ { warnCaps := true } [] [i] a _ _ _ _ ht (by decide) rfl (by decide) h1
    rw [List.mem_singleton.1 hj] at h3
    exact ⟨a, i, ht, h1, h3⟩

/-- Non-vacuity of `C55_reserved_partial`: a script with two keywords that are reported. -/
example : ∃ toks l is, TokensOf true c!"SELECT a from t; select 1;" toks ∧ Api.many.Returns true c!"SELECT a from t; select 1;" ⟨c!"SELECT a from t; select 1;", []⟩ { warnCaps := true } l is ∧
    (.ident c!"from" .FROM, ⟨9, 13⟩) ∈ toks ∧ (∃ i ∈ is, CapsIssue c!"from" ⟨9, 13⟩ i) ∧ (.ident c!"select" .SELECT, ⟨17, 23⟩) ∈ toks ∧ (∃ i ∈ is, CapsIssue c!"select" ⟨17, 23⟩ i) := by
  obtain ⟨l, is, h1, h2⟩ := returns_of_test (api := .many) (n := 60) (checked := true) (src := c!"SELECT a from t; select 1;") (iss := ⟨c!"SELECT a from t; select 1;", []⟩)
      (opts := { warnCaps := true }) (f := fun _ is => is.all fun i => decide (i.level ≠ .error)) (by decide +kernel)
  have hn : ¬ ∃ i ∈ is, i.level = .error := by
    rintro ⟨i, h3, h4⟩
    have := List.all_eq_true.1 h2 i h3
    simp [h4] at this
  cases e : scanN true 20 (Lexer.new c!"SELECT a from t; select 1;") with
  | none =>
    have : (scanN true 20 (Lexer.new c!"SELECT a from t; select 1;")).isSome = true := by decide +kernel
    rw [e] at this; cases this
  | some toks =>
    have h0 : ∀ {f : List (Token × Span) → Bool}, (scanN true 20 (Lexer.new c!"SELECT a from t; select 1;")).any f = true → f toks = true := by
      intro f hf; rw [e] at hf; exact hf
    have ht : TokensOf true c!"SELECT a from t; select 1;" toks := scanN_scan e
    have hc : ∀ {k : Keyword}, (toks.all fun x => !x.1.isKw k) = true → ¬ Occurs k toks := by
      rintro k h ⟨v, sp, h3⟩
      have := List.all_eq_true.1 h _ h3
      simp [Token.isKw] at this
    have hx : ∀ sp, (Token.atAtGlobal, sp) ∉ toks ∧ (Token.atAtSession, sp) ∉ toks := by
      have h := h0 (f := fun l => l.all fun x => decide (x.1 ≠ .atAtGlobal) && decide (x.1 ≠ .atAtSession)) (by decide +kernel)
      intro sp
      constructor <;> intro h3 <;> have := List.all_eq_true.1 h _ h3 <;> simp at this
    have hm : ∀ {x}, toks.contains x = true → x ∈ toks := fun h => List.contains_iff_mem.1 h
    have m1 := hm (h0 (f := fun l => l.contains (.ident c!"from" .FROM, ⟨9, 13⟩)) (by decide +kernel))
    have m2 := hm (h0 (f := fun l => l.contains (.ident c!"select" .SELECT, ⟨17, 23⟩)) (by decide +kernel))
    have key := C55_reserved_partial .many true c!"SELECT a from t; select 1;" { warnCaps := true } [] is l toks ht rfl (by decide)
      (hc (h0 (f := fun l => l.all fun x => !x.1.isKw .COPY) (by decide +kernel))) (hc (h0 (f := fun l => l.all fun x => !x.1.isKw .DELIMITER) (by decide +kernel))) hx h1 hn
    exact ⟨toks, l, is, ht, h1, m1, key _ _ _ m1 (by decide +kernel) (by decide +kernel) (by decide), m2, key _ _ _ m2 (by decide +kernel) (by decide +kernel) (by decide)⟩

end SqlParse
