import Verif.Spec.Api
import Verif.Proofs.Sim
/-! C08, C09, C15: the issue list.  Also: the result of a call is unique (it does not depend on the number
of steps we look at). -/
namespace SqlParse

/-- The program behind an entry point, and its value for a failed run. -/
def Api.prog {α : Type} : Api α → Prog α
  | .one => singleStatement
  | .many => statements
def Api.dflt {α : Type} : Api α → α
  | .one => none
  | .many => []

theorem Api.run_eq {α : Type} (api : Api α) (n : Nat) (checked : Bool) (src : List Char) (iss : Issues) (opts : Opts) :
    api.run n checked src iss opts = runApi api.dflt api.prog n checked src iss opts := by
  cases api <;> rfl

theorem new_cases (checked : Bool) (src : List Char) (iss : Issues) (opts : Opts) :
    (∃ m, St.new checked src iss opts = .panic m ∧ (Lexer.new src).nextToken checked = .panic m) ∨
    (∃ t sp lx, (Lexer.new src).nextToken checked = .ok t sp lx ∧ St.new checked src iss opts = .ok () {
      token := t, span := sp, peeked := none, lx := lx, issueSrc := iss.src, issues := iss.issues
      arg := 0, delim := .semiColon, opts := opts, permit := false, checked := checked, argLog := [], dataLog := [] }) := by
  unfold St.new
  cases h : (Lexer.new src).nextToken checked with
  | ok t sp lx => exact .inr ⟨t, sp, lx, rfl, rfl⟩
  | panic m => exact .inl ⟨m, rfl, rfl⟩

theorem new_binv {checked : Bool} {src : List Char} {iss : Issues} {opts : Opts} {s : St}
    (h : St.new checked src iss opts = .ok () s) : BInv s ∧ s.lx.src = src ∧ s.issueSrc = iss.src ∧
      s.issues = iss.issues ∧ s.arg = 0 ∧ s.delim = .semiColon ∧ s.opts = opts ∧ s.permit = false ∧
      s.checked = checked ∧ s.argLog = [] ∧ s.peeked = none := by
  rcases new_cases checked src iss opts with ⟨m, h1, -⟩ | ⟨t, sp, lx, h1, h2⟩
  · rw [h1] at h; cases h
  · rw [h2] at h; cases h
    obtain ⟨g1, g2, g3, g4, g5, g6, g7, g8⟩ := nextToken_inv (lexInv_new checked src) h1
    have ht := nextToken_tok (lexInv_new checked src) h1
    have hsrc : (Lexer.new src).src = src := rfl
    exact ⟨⟨g1, by simpa [g2, hsrc] using ht, by simp; omega, by simp⟩, by simpa [hsrc] using g2, rfl, rfl, rfl, rfl,
      rfl, rfl, rfl, rfl, rfl⟩

theorem runApi_ret {α : Type} {d : α} {p : Prog α} {n : Nat} {checked : Bool} {src : List Char} {iss : Issues}
    {opts : Opts} {a : α} {is : List Issue} (h : runApi d p n checked src iss opts = .ret a is) :
    ∃ s, St.new checked src iss opts = .ok () s ∧
      ((∃ s', p.run n s = .ok a s' ∧ is = s'.issues) ∨ (∃ s', p.run n s = .err s' ∧ a = d ∧ is = s'.issues)) := by
  unfold runApi at h
  split at h
  · next s heq =>
    refine ⟨s, heq, ?_⟩
    revert h
    generalize hr : p.run n s = o
    intro h
    cases o with
    | ok a' s' => simp [Out.res] at h; exact .inl ⟨s', by rw [h.1], h.2.symm⟩
    | err s' => simp [Out.res] at h; exact .inr ⟨s', rfl, h.1.symm, h.2.symm⟩
    | panic m => simp [Out.res] at h
    | oof => simp [Out.res] at h
  · simp at h
  · simp at h
  · simp at h

theorem runApi_good {α : Type} {d : α} {p : Prog α} {n : Nat} {checked : Bool} {src : List Char} {iss : Issues}
    {opts : Opts} {a : α} {is : List Issue} (h : runApi d p n checked src iss opts = .ret a is) :
    ∃ l, is = iss.issues ++ l ∧ ∀ i ∈ l, IssueOK iss.src i := by
  obtain ⟨s, h1, h2⟩ := runApi_ret h
  obtain ⟨hb, -, hi, hl, -⟩ := new_binv h1
  have hg := run_good n p s hb
  rcases h2 with ⟨s', h2, rfl⟩ | ⟨s', h2, -, rfl⟩
  all_goals
    rw [h2] at hg
    obtain ⟨l, h3, h4⟩ := hg.2.issues
    exact ⟨l, by rw [h3, hl], by rw [← hi]; exact h4⟩

/-- **C08**: the issues that were in the list before the call are still there, unchanged and in front. -/
theorem C08_issues_append_only {α : Type} (api : Api α) (checked : Bool) (src : List Char) (iss : Issues) (opts : Opts)
    (a : α) (is : List Issue) (h : api.Returns checked src iss opts a is) : iss.issues <+: is := by
  obtain ⟨n, h⟩ := h
  rw [Api.run_eq] at h
  obtain ⟨l, rfl, -⟩ := runApi_good h
  exact ⟨l, rfl⟩

theorem slice_spanIs {src seg : List Char} {sp : Span} (h : slice src sp.start sp.stop = some seg) :
    SpanIs src sp seg := by
  obtain ⟨a, b, h1, h2, h3⟩ := slice_eq h
  exact ⟨a, b, by simp [h1], h2, by simp [h3]⟩

/-- **C09**: every issue added by a call, and every fragment of it, carries exactly the text of the source
under its span (in particular the span is inside the source and on character boundaries). -/
theorem C09_issue_segments {α : Type} (api : Api α) (checked : Bool) (src : List Char) (old : List Issue) (opts : Opts)
    (a : α) (is : List Issue) (h : api.Returns checked src ⟨src, old⟩ opts a is) :
    ∃ new, is = old ++ new ∧ ∀ i ∈ new, SpanIs src i.span i.segment ∧
      ∀ f ∈ i.fragments, SpanIs src f.span f.segment := by
  obtain ⟨n, h⟩ := h
  rw [Api.run_eq] at h
  obtain ⟨l, rfl, hl⟩ := runApi_good h
  exact ⟨l, rfl, fun i hi => ⟨slice_spanIs (hl i hi).1, fun f hf => slice_spanIs ((hl i hi).2 f hf)⟩⟩

theorem res_ext {α : Type} (d : α) {l1 l2 : List Issue} {o o' : Out α}
    (h : OutRel (SameBut l1 l2) (fun _ => False) o o') :
    (∃ a l, o.res d = .ret a (l1 ++ l) ∧ o'.res d = .ret a (l2 ++ l)) ∨
    (∃ m, o.res d = .panic m ∧ o'.res d = .panic m) ∨ (o.res d = .running ∧ o'.res d = .running) := by
  cases o <;> cases o' <;> simp [OutRel] at h
  · obtain ⟨rfl, l, h1, rfl⟩ := h
    exact .inl ⟨_, l, by rw [← h1]; rfl, rfl⟩
  · obtain ⟨l, h1, rfl⟩ := h
    exact .inl ⟨_, l, by rw [← h1]; rfl, rfl⟩
  · subst h; exact .inr (.inl ⟨_, rfl, rfl⟩)
  · exact .inr (.inr ⟨rfl, rfl⟩)

theorem runApi_sameBut {α : Type} (d : α) (p : Prog α) (n : Nat) (checked : Bool) (src isrc : List Char)
    (l1 l2 : List Issue) (opts : Opts) :
    (∃ a l, runApi d p n checked src ⟨isrc, l1⟩ opts = .ret a (l1 ++ l) ∧
      runApi d p n checked src ⟨isrc, l2⟩ opts = .ret a (l2 ++ l)) ∨
    (∃ m, runApi d p n checked src ⟨isrc, l1⟩ opts = .panic m ∧ runApi d p n checked src ⟨isrc, l2⟩ opts = .panic m) ∨
    (runApi d p n checked src ⟨isrc, l1⟩ opts = .running ∧ runApi d p n checked src ⟨isrc, l2⟩ opts = .running) := by
  unfold runApi St.new
  cases (Lexer.new src).nextToken checked with
  | panic m => exact .inr (.inl ⟨m, rfl, rfl⟩)
  | ok t sp lx => exact res_ext d (run_rel op_sameBut n p _ _ ⟨[], by simp, by simp⟩)

/-- **C15**: with another list of earlier issues the call does the same: it returns the same AST and adds the
same issues, or panics with the same message, or goes on running. -/
theorem C15_independent_of_earlier_issues {α : Type} (api : Api α) (n : Nat) (checked : Bool) (src isrc : List Char)
    (l1 l2 : List Issue) (opts : Opts) :
    (∃ a new, api.run n checked src ⟨isrc, l1⟩ opts = .ret a (l1 ++ new) ∧
      api.run n checked src ⟨isrc, l2⟩ opts = .ret a (l2 ++ new)) ∨
    (∃ m, api.run n checked src ⟨isrc, l1⟩ opts = .panic m ∧ api.run n checked src ⟨isrc, l2⟩ opts = .panic m) ∨
    (api.run n checked src ⟨isrc, l1⟩ opts = .running ∧ api.run n checked src ⟨isrc, l2⟩ opts = .running) := by
  simp only [Api.run_eq]
  exact runApi_sameBut _ _ _ _ _ _ _ _ _

theorem runApi_le {α : Type} (d : α) (p : Prog α) {n n' : Nat} (hn : n ≤ n') (checked : Bool) (src : List Char)
    (iss : Issues) (opts : Opts) : runApi d p n checked src iss opts = .running ∨
      runApi d p n checked src iss opts = runApi d p n' checked src iss opts := by
  unfold runApi
  cases St.new checked src iss opts with
  | ok _ s =>
    rcases run_le hn p s with h | h
    · simp only [h]; exact .inl rfl
    · simp only [h]; exact .inr trivial
  | err s => exact .inl rfl
  | panic m => exact .inr rfl
  | oof => exact .inl rfl

/-- A finished call stays finished with the same result, however many more steps are allowed. -/
theorem run_stable {α : Type} (api : Api α) {n n' : Nat} (hn : n ≤ n') (checked : Bool) (src : List Char) (iss : Issues)
    (opts : Opts) (h : api.run n checked src iss opts ≠ .running) :
    api.run n' checked src iss opts = api.run n checked src iss opts := by
  rw [Api.run_eq] at *
  rw [Api.run_eq]
  rcases runApi_le api.dflt api.prog hn checked src iss opts with h' | h'
  · exact absurd h' h
  · exact h'.symm

/-- A call has at most one result. -/
theorem returns_unique {α : Type} (api : Api α) {checked : Bool} {src : List Char} {iss : Issues} {opts : Opts}
    {a b : α} {is js : List Issue} (h : api.Returns checked src iss opts a is) (h' : api.Returns checked src iss opts b js) :
    a = b ∧ is = js := by
  obtain ⟨n, h⟩ := h
  obtain ⟨m, h'⟩ := h'
  have h1 := run_stable api (Nat.le_max_left n m) checked src iss opts (by rw [h]; simp)
  have h2 := run_stable api (Nat.le_max_right n m) checked src iss opts (by rw [h']; simp)
  rw [h1, h, h'] at h2
  simpa using h2

/-- An issue for the examples below. -/
def exIssue : Issue := ⟨.warning, "old", ⟨0, 1⟩, c!"D", []⟩

/-- Test a finished call (for examples run by the kernel). -/
def Res.test {α : Type} (f : α → List Issue → Bool) : Res α → Bool
  | .ret a is => f a is
  | _ => false

theorem returns_of_test {α : Type} {api : Api α} {n : Nat} {checked : Bool} {src : List Char} {iss : Issues} {opts : Opts}
    {f : α → List Issue → Bool} (h : (api.run n checked src iss opts).test f = true) :
    ∃ a is, api.Returns checked src iss opts a is ∧ f a is = true := by
  revert h
  generalize hr : api.run n checked src iss opts = r
  intro h
  cases r with
  | ret a is => exact ⟨a, is, ⟨n, hr⟩, h⟩
  | panic m => simp [Res.test] at h
  | running => simp [Res.test] at h

/-- Non-vacuity: a call that returns and adds an issue to a non-empty list. -/
example : ∃ a is, Api.one.Returns true c!"DROP x é" ⟨c!"DROP x é", [exIssue]⟩ {} a is ∧
    (decide (is.length = 2)) = true :=
  returns_of_test (n := 20) (f := fun _ is => decide (is.length = 2)) (by decide +kernel)

end SqlParse
