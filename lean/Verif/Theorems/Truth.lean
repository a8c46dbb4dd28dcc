import Verif.Theorems.Result
import Verif.Proofs.Script
/-! C46 to C49: the messages of issues are true, the parser never blames itself, and unquoted identifiers are reported. -/
namespace SqlParse

/-- **C46**: whatever a new issue says about the token it points to is true: an "Expected '..' here" never points to the very
keyword or token it asks for, nor to one of those that its text names; a "reserved identifier" is a reserved keyword; an identifier that "should be quoted" is not
quoted, and is no reserved keyword; a keyword that "should be in ALL CAPS" is a keyword with a character that is not a capital
letter; what is "not supported" or "only supported" by a dialect is said when that dialect is, or is not, selected. -/
theorem C46_messages {α : Type} (api : Api α) (chk : Bool) (src : List Char) (old new : List Issue) (opts : Opts) (a : α)
    (h : api.Returns chk src ⟨src, old⟩ opts a (old ++ new)) : ∀ i ∈ new, i.Truth chk src opts := by
  obtain ⟨new', s', h1, h2, -, h3, -⟩ := master h
  have : new' = new := by simpa using h1.symm
  subst this
  intro i hi
  refine h3.says trivial i ?_
  rw [h2, h1]
  simpa [finalCtx] using hi

/-- A call that returns, with an issue that satisfies `f`. -/
theorem issue_of_test {α : Type} {api : Api α} {n : Nat} {src : List Char} {opts : Opts} {f : Issue → Bool}
    (h : (api.run n true src ⟨src, []⟩ opts).test (fun _ is => is.any f) = true) :
    ∃ a is, api.Returns true src ⟨src, []⟩ opts a ([] ++ is) ∧ ∃ i ∈ is, f i = true := by
  obtain ⟨a, is, h1, h2⟩ := returns_of_test h
  exact ⟨a, is, h1, by simpa using h2⟩

/-- Non-vacuity: each kind of message occurs. -/
example : ∃ a is, Api.one.Returns true c!"DROP SELECT" ⟨c!"DROP SELECT", []⟩ {} a ([] ++ is) ∧
    ∃ i ∈ is, decide (i.message = .expected (.lit "droppable") ∧ i.span = ⟨5, 11⟩) = true :=
  issue_of_test (n := 20) (by decide +kernel)
example : ∃ a is, Api.one.Returns true c!"DROP TABLE IF x" ⟨c!"DROP TABLE IF x", []⟩ {} a ([] ++ is) ∧
    ∃ i ∈ is, decide (i.message = .expected (.kw .EXISTS) ∧ i.span = ⟨14, 15⟩) = true :=
  issue_of_test (n := 20) (by decide +kernel)
example : ∃ a is, Api.many.Returns true c!"DROP TABLE x y;" ⟨c!"DROP TABLE x y;", []⟩ {} a ([] ++ is) ∧
    ∃ i ∈ is, decide (i.message = .expected (.tok .semiColon) ∧ i.span = ⟨13, 14⟩) = true :=
  issue_of_test (n := 20) (by decide +kernel)
example : ∃ a is, Api.one.Returns true c!"DROP TABLE `x`, Select" ⟨c!"DROP TABLE `x`, Select", []⟩ {} a ([] ++ is) ∧
    ∃ i ∈ is, decide (i.message = .reserved c!"Select" ∧ i.level = .error ∧ i.span = ⟨16, 22⟩) = true :=
  issue_of_test (n := 20) (by decide +kernel)
example : ∃ a is, Api.one.Returns true c!"drop TABLE x" ⟨c!"drop TABLE x", []⟩ { warnUnquoted := true, warnCaps := true } a ([] ++ is) ∧
    ∃ i ∈ is, decide (i.message = .caps c!"drop" ∧ i.level = .warning ∧ i.span = ⟨0, 4⟩) = true :=
  issue_of_test (n := 20) (by decide +kernel)
example : ∃ a is, Api.one.Returns true c!"DROP INDEX x" ⟨c!"DROP INDEX x", []⟩ {} a ([] ++ is) ∧
    ∃ i ∈ is, decide (i.message = .plain "On required for index drops in MariaDb" ∧ i.span = ⟨0, 12⟩) = true :=
  issue_of_test (n := 20) (by decide +kernel)

/-- Non-vacuity of what the texts name: the words and tokens of a text are looked for, and what is found is something else. -/
example : ¬ Wanted.Missed (.ident c!"table" .TABLE) (.lit "droppable") := fun h => h.1 .TABLE (by decide +kernel) _ rfl
example : ¬ Wanted.Missed .rParen (.lit "')' or ','") := fun h => h.2.1 .rParen (by decide +kernel) rfl
example : ¬ Wanted.Missed (.integer c!"12") (.lit "integer") := fun h => absurd h.2.2 (by decide +kernel)
example : ∃ a is, Api.one.Returns true c!"SELECT f(1 FROM x)" ⟨c!"SELECT f(1 FROM x)", []⟩ {} a ([] ++ is) ∧
    ∃ i ∈ is, decide (i.message = .expected (.lit "')' or ','") ∧ i.span = ⟨11, 15⟩) = true :=
  issue_of_test (n := 40) (by decide +kernel)

/-- One text says something false, and is left out of `namedWords`: "Expected ''NULL' or 'DEFAULT'' here" is said of a DEFAULT
(alter.rs:472 looks for DELETE). -/
theorem C46_default_violated :
    ∃ a is, Api.one.Returns true c!"ALTER TABLE `t` ADD FOREIGN KEY (`a`) REFERENCES `u` (`b`) ON DELETE SET DEFAULT"
        ⟨c!"ALTER TABLE `t` ADD FOREIGN KEY (`a`) REFERENCES `u` (`b`) ON DELETE SET DEFAULT", []⟩ {} a ([] ++ is) ∧
      ∃ i ∈ is, i.message.text = c!"Expected ''NULL' or 'DEFAULT'' here" ∧ i.segment = c!"DEFAULT" := by
  obtain ⟨a, is, h1, i, h2, h3⟩ := issue_of_test (api := Api.one) (n := 40)
    (src := c!"ALTER TABLE `t` ADD FOREIGN KEY (`a`) REFERENCES `u` (`b`) ON DELETE SET DEFAULT") (opts := {})
    (f := fun i => decide (i.message = .expected (.lit "'NULL' or 'DEFAULT'") ∧ i.segment = c!"DEFAULT")) (by decide +kernel)
  simp only [decide_eq_true_eq] at h3
  exact ⟨a, is, h1, i, h2, by rw [h3.1]; decide +kernel, h3.2⟩

/-- The texts of these messages. -/
example : (Msg.expected (.kw .EXISTS)).text = c!"Expected 'EXISTS' here" := by decide +kernel
example : (Msg.caps c!"drop").text = c!"keyword drop should be in ALL CAPS DROP" := by decide +kernel
example : (Msg.reserved c!"Select").text = c!"'Select' is a reserved identifier use `Select`" := by decide +kernel

/-- **C49**: the parser never reports an internal error of its own: none of the places where it reports one can be reached. -/
theorem C49_no_internal_error {α : Type} (api : Api α) (chk : Bool) (src : List Char) (old new : List Issue) (opts : Opts) (a : α)
    (h : api.Returns chk src ⟨src, old⟩ opts a (old ++ new)) :
    ∀ i ∈ new, ∀ s, i.message = .plain s → s ∉
      ["Internal compiler error at src/alter.rs:544", "Internal compiler error at src/expression.rs:1617",
       "Internal compiler error at src/expression.rs:1621", "ICE Reduce stack error 1", "ICE Reduce stack error 2"] := by
  intro i hi s hs
  have := C46_messages api chk src old new opts a h i hi
  unfold Issue.Truth at this
  rw [hs] at this
  exact this.blame

/-- Non-vacuity: expressions that are not closed, or have an operator too many, are reported, but not in this way. -/
example : ∃ a is, Api.one.Returns true c!"SELECT 1 AND OR 2" ⟨c!"SELECT 1 AND OR 2", []⟩ {} a ([] ++ is) ∧
    ∃ i ∈ is, decide (i.message = .plain "Expected expression before here" ∧ i.span = ⟨16, 17⟩) = true :=
  issue_of_test (n := 40) (by decide +kernel)

/-- **C47**, in part: a word that should be "in ALL CAPS" is not in capitals already, if it is made of letters only.  The full
property, for all words, is violated by the pinned code, see `C47_violated`. -/
theorem C47_partial {α : Type} (api : Api α) (chk : Bool) (src : List Char) (old new : List Issue) (opts : Opts) (a : α)
    (h : api.Returns chk src ⟨src, old⟩ opts a (old ++ new)) :
    ∀ i ∈ new, ∀ v, i.message = .caps v → (∀ c ∈ v, (isLow c || isUp c) = true) → v ≠ upper v := by
  intro i hi v hv hl he
  have := C46_messages api chk src old new opts a h i hi
  unfold Issue.Truth at this
  rw [hv] at this
  obtain ⟨-, -, -, ⟨c, hc, hu⟩, -⟩ := this
  have hlow := hl c hc
  rw [hu, Bool.or_false] at hlow
  have : ∀ l : List Char, l = upper l → ∀ c ∈ l, c = upChar c := by
    intro l
    induction l with
    | nil => intro _ _ h; cases h
    | cons d r ih =>
      intro h c hc
      simp only [upper, List.map_cons, List.cons.injEq] at h
      rcases List.mem_cons.1 hc with rfl | hc
      · exact h.1
      · exact ih h.2 c hc
  have h1 := this v he c hc
  unfold upChar at h1
  rw [if_pos hlow] at h1
  simp only [isLow, Bool.and_eq_true, decide_eq_true_eq] at hlow
  have h2 := congrArg Char.toNat h1
  have hz : ('z').toNat = 122 := rfl
  have ha : ('a').toNat = 97 := rfl
  rw [show (Char.ofNat (c.toNat - 32)).toNat = c.toNat - 32 from by
    unfold Char.ofNat
    rw [dif_pos (by left; omega)]
    show (UInt32.ofNatLT _ _).toNat = _
    simp] at h2
  omega

/-- **C47** is false of the pinned code: the keyword SQL_NO_CACHE, written in capitals, is reported as one that should be in
capitals, since `_` is not a capital letter (parser.rs:274). -/
theorem C47_violated : ∃ a is, Api.one.Returns true c!"SELECT SQL_NO_CACHE 1" ⟨c!"SELECT SQL_NO_CACHE 1", []⟩ { warnCaps := true } a ([] ++ is) ∧
    ∃ i ∈ is, ∃ v, i.message = .caps v ∧ v = upper v ∧ i.message.text = c!"keyword SQL_NO_CACHE should be in ALL CAPS SQL_NO_CACHE" := by
  obtain ⟨a, is, h1, i, h2, h3⟩ := issue_of_test (api := Api.one) (n := 40) (src := c!"SELECT SQL_NO_CACHE 1") (opts := { warnCaps := true })
    (f := fun i => decide (i.message = .caps c!"SQL_NO_CACHE")) (by decide +kernel)
  have h3 : i.message = .caps c!"SQL_NO_CACHE" := by simpa using h3
  exact ⟨a, is, h1, i, h2, _, h3, by decide +kernel, by rw [h3]; decide +kernel⟩

/-- **C48**: with `warn_unquoted_identifiers`, every identifier of the returned AST that is not quoted in the source is reported,
at its very place: as one that should be quoted or, if it is a reserved word, as reserved. -/
theorem C48_unquoted {α : Type} (api : Api α) (chk : Bool) (src : List Char) (old new : List Issue) (opts : Opts) (a : α)
    (h : api.Returns chk src ⟨src, old⟩ opts a (old ++ new)) (hw : opts.warnUnquoted = true) :
    ∀ v ∈ api.stmts a, ∀ x sp, v.ast.Has (.ident x sp) → x ≠ [] → SpanIs src sp x →
      ∃ i ∈ new, i.span = sp ∧ (i.message = .unquoted x ∨ i.message = .reserved x) := by
  obtain ⟨new', L, h1, -, -, h2⟩ := master_good h
  have : new' = new := by simpa using h1.symm
  subst this
  intro v hv x sp hb hx hs
  have hg := ((h2 v hv).1 _ hb).2.2
  obtain ⟨i, g1, g2, g3⟩ := hg hw hx (spanIs_slice hs)
  exact ⟨i, g1, g2, g3⟩

/-- Non-vacuity: of three identifiers, the two that are not quoted are reported. -/
example : (Api.one.run 30 true c!"DROP TABLE a.`b`, c" ⟨c!"DROP TABLE a.`b`, c", []⟩ { warnUnquoted := true }).test (fun o is =>
    decide (is.map (fun i => (i.message, i.span)) = [(.unquoted c!"a", ⟨11, 12⟩), (.unquoted c!"c", ⟨18, 19⟩)]) && o.isSome) = true := by
  decide +kernel

end SqlParse
