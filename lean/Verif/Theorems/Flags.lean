import Verif.Theorems.Result
import Verif.Proofs.Style
/-! C14: the two warning flags only control extra issues. -/
namespace SqlParse

theorem not_slice {α : Type} {api : Api α} {chk : Bool} {src : List Char} {old : List Issue} {opts : Opts} {n : Nat} {m : String}
    (h : api.run n chk src ⟨src, old⟩ opts = .panic m) : ¬ isSlice m := by
  intro hm
  have hm : m = "slice" := hm
  subst hm
  rcases C02_panics api chk src old opts _ ⟨n, h⟩ with ⟨h, -⟩ | ⟨lx, bl, l, h1, h2, h3, ⟨h4, -⟩ | ⟨h4, -⟩⟩
  · exact absurd h (by decide)
  · exact absurd h4 (by decide)
  · exact absurd h4 (by decide)

theorem runApi_warn {α : Type} (d : α) (p : Prog α) (n : Nat) (chk : Bool) (src isrc : List Char) (old : List Issue) (opts : Opts)
    (u c : Bool) :
    (∃ a i j, runApi d p n chk src ⟨isrc, old⟩ opts = .ret a i ∧
      runApi d p n chk src ⟨isrc, old⟩ (opts.withWarnings u c) = .ret a j) ∨
    (∃ m, runApi d p n chk src ⟨isrc, old⟩ opts = .panic m ∧ runApi d p n chk src ⟨isrc, old⟩ (opts.withWarnings u c) = .panic m) ∨
    (runApi d p n chk src ⟨isrc, old⟩ opts = .running ∧ runApi d p n chk src ⟨isrc, old⟩ (opts.withWarnings u c) = .running) ∨
    (∃ m, isSlice m ∧ (runApi d p n chk src ⟨isrc, old⟩ opts = .panic m ∨
      runApi d p n chk src ⟨isrc, old⟩ (opts.withWarnings u c) = .panic m)) := by
  unfold runApi St.new
  cases (Lexer.new src).nextToken chk with
  | panic m => exact .inr (.inl ⟨m, rfl, rfl⟩)
  | ok t sp lx =>
    have h0 : SameButWarn ⟨t, sp, none, lx, isrc, old, 0, .semiColon, opts, false, chk, [], []⟩
        ⟨t, sp, none, lx, isrc, old, 0, .semiColon, opts.withWarnings u c, false, chk, [], []⟩ := ⟨u, c, old, rfl⟩
    have h := run_rel op_warn n p _ _ h0
    simp only
    revert h
    generalize p.run n _ = o
    generalize p.run n _ = o'
    intro h
    cases o <;> cases o' <;> simp only [OutRel] at h
    all_goals first
      | exact .inr (.inr (.inl ⟨rfl, rfl⟩))
      | exact .inr (.inr (.inr ⟨_, h, .inl rfl⟩))
      | exact .inr (.inr (.inr ⟨_, h, .inr rfl⟩))
      | (obtain ⟨rfl, h⟩ := h; exact .inl ⟨_, _, _, rfl, rfl⟩)
      | exact .inl ⟨_, _, _, rfl, rfl⟩
      | (rcases h with rfl | h | h
         · exact .inr (.inl ⟨_, rfl, rfl⟩)
         · exact .inr (.inr (.inr ⟨_, h, .inl rfl⟩))
         · exact .inr (.inr (.inr ⟨_, h, .inr rfl⟩)))
      | exact absurd h (by simp)

/-- **C14**: with other values of `warn_unquoted_identifiers` and `warn_none_capital_keywords` the call does the same,
step by step: it returns the same AST, or panics with the same message, or goes on running. -/
theorem C14_warnings {α : Type} (api : Api α) (n : Nat) (chk : Bool) (src : List Char) (old : List Issue) (opts : Opts) (u c : Bool) :
    (∃ a i j, api.run n chk src ⟨src, old⟩ opts = .ret a i ∧ api.run n chk src ⟨src, old⟩ (opts.withWarnings u c) = .ret a j) ∨
    (∃ m, api.run n chk src ⟨src, old⟩ opts = .panic m ∧ api.run n chk src ⟨src, old⟩ (opts.withWarnings u c) = .panic m) ∨
    (api.run n chk src ⟨src, old⟩ opts = .running ∧ api.run n chk src ⟨src, old⟩ (opts.withWarnings u c) = .running) := by
  have h := runApi_warn api.dflt api.prog n chk src src old opts u c
  simp only [← Api.run_eq] at h
  rcases h with h | h | h | ⟨m, h, h' | h'⟩
  · exact .inl h
  · exact .inr (.inl h)
  · exact .inr (.inr h)
  · exact absurd h (not_slice h')
  · exact absurd h (not_slice h')

/-- **C14**, for calls that return. -/
theorem C14_same_ast {α : Type} (api : Api α) (chk : Bool) (src : List Char) (old : List Issue) (opts : Opts) (u c : Bool) (a : α)
    (is : List Issue) (h : api.Returns chk src ⟨src, old⟩ opts a is) :
    ∃ js, api.Returns chk src ⟨src, old⟩ (opts.withWarnings u c) a js := by
  obtain ⟨n, h⟩ := h
  rcases C14_warnings api n chk src old opts u c with ⟨a', i, j, h1, h2⟩ | ⟨m, h1, -⟩ | ⟨h1, -⟩
  · rw [h1] at h; cases h; exact ⟨j, n, h2⟩
  · rw [h1] at h; cases h
  · rw [h1] at h; cases h

theorem runApi_quiet {α : Type} {d : α} {p : Prog α} {n : Nat} {chk : Bool} {src isrc : List Char} {old is js : List Issue} {opts : Opts}
    {u c : Bool} {a b : α} (h : runApi d p n chk src ⟨isrc, old⟩ (opts.withWarnings false false) = .ret a is)
    (h' : runApi d p n chk src ⟨isrc, old⟩ (opts.withWarnings u c) = .ret b js) :
    ∃ x y, is = old ++ x ∧ js = old ++ y ∧ PlusSome (Issue.isStyle u c) x y := by
  unfold runApi St.new at h h'
  cases hn : (Lexer.new src).nextToken chk with
  | panic m => rw [hn] at h; cases h
  | ok t sp lx =>
    rw [hn] at h h'
    simp only at h h'
    have h0 : Quiet old u c ⟨t, sp, none, lx, isrc, old, 0, .semiColon, opts.withWarnings false false, false, chk, [], []⟩
        ⟨t, sp, none, lx, isrc, old, 0, .semiColon, opts.withWarnings u c, false, chk, [], []⟩ :=
      ⟨⟨rfl, rfl⟩, [], [], by simp, .nil, by simp [Opts.withWarnings]⟩
    have h1 := run_rel op_quiet n p _ _ h0
    generalize ho : p.run n ⟨t, sp, none, lx, isrc, old, 0, .semiColon, opts.withWarnings false false, false, chk, [], []⟩ = o at h h1
    generalize ho' : p.run n ⟨t, sp, none, lx, isrc, old, 0, .semiColon, opts.withWarnings u c, false, chk, [], []⟩ = o' at h' h1
    cases o <;> cases o' <;> simp only [OutRel] at h1 <;> simp only [Out.res, Res.ret.injEq, reduceCtorEq] at h h'
    all_goals first
      | (obtain ⟨-, -, x, y, k1, k2, rfl⟩ := h1
         exact ⟨x, y, by rw [← h.2, k1], by rw [← h'.2], k2⟩)
      | (obtain ⟨-, x, y, k1, k2, rfl⟩ := h1
         exact ⟨x, y, by rw [← h.2, k1], by rw [← h'.2], k2⟩)

/-- **C14**, the issues: those added with the flags `u` and `c` are those added with both flags off, in the same order, and
more issues about style, of the kinds that the flags switch on. -/
theorem C14_style {α : Type} (api : Api α) (chk : Bool) (src : List Char) (old : List Issue) (opts : Opts) (u c : Bool) (a : α)
    (is : List Issue) (h : api.Returns chk src ⟨src, old⟩ (opts.withWarnings false false) a is) :
    ∃ x y, is = old ++ x ∧ PlusSome (Issue.isStyle u c) x y ∧ api.Returns chk src ⟨src, old⟩ (opts.withWarnings u c) a (old ++ y) := by
  obtain ⟨n, h⟩ := h
  rcases C14_warnings api n chk src old (opts.withWarnings false false) u c with ⟨a', i, j, h1, h2⟩ | ⟨m, h1, -⟩ | ⟨h1, -⟩
  · rw [h1] at h; cases h
    rw [show (opts.withWarnings false false).withWarnings u c = opts.withWarnings u c from rfl] at h2
    have h3 := h1
    have h4 := h2
    rw [Api.run_eq] at h3 h4
    obtain ⟨x, y, k1, rfl, k3⟩ := runApi_quiet h3 h4
    exact ⟨x, y, k1, k3, n, h2⟩
  · rw [h1] at h; cases h
  · rw [h1] at h; cases h

/-- Non-vacuity: the issue lists differ. -/
example : (∃ a is, Api.one.Returns true c!"drop table /*é*/ t" ⟨c!"drop table /*é*/ t", []⟩ {} a is ∧ (a.isSome && decide (is.length = 0)) = true) ∧
    (∃ a is, Api.one.Returns true c!"drop table /*é*/ t" ⟨c!"drop table /*é*/ t", []⟩ (Opts.withWarnings {} true true) a is ∧
      (a.isSome && decide (is.length = 3)) = true) :=
  ⟨returns_of_test (api := .one) (n := 40) (f := fun a is => a.isSome && decide (is.length = 0)) (by decide +kernel),
   returns_of_test (api := .one) (n := 40) (f := fun a is => a.isSome && decide (is.length = 3)) (by decide +kernel)⟩

end SqlParse
