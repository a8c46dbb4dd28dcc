import Verif.Proofs.TermWalk
import Verif.Proofs.Cut
/-!
Statements do not run past a `;`.  `Near s` says that there is a `;` at or after the current token, that no token up to it
opens a compound statement, and that the delimiter is `;`.  `Sm P p` says that the program `p` keeps this: it does not consume the `;`.
-/
namespace SqlParse

/-- Tokens that may occur: nothing that opens a compound statement.  There are two versions: without THEN, or without FUNCTION (then
statements are only parsed at the top level). -/
structure Okt (md : Bool) (t : Token) : Prop where
  dollars : t ≠ .doubleDollar
  trigger : t.isKw .TRIGGER = false
  delimiter : t.isKw .DELIMITER = false
  th : md = true → t.isKw .THEN = false
  fn : md = false → t.isKw .FUNCTION = false

/-- Tokens with which a statement may begin. -/
def StartOk (md : Bool) (t : Token) : Prop :=
  md = false → t.isKw .IF = false ∧ t.isKw .CASE = false ∧ t.isKw .WITH = false

/-- The rest of the source: statements that end in `;`.  `st` says that a statement begins here. -/
inductive LScript (md chk : Bool) : Bool → Lexer → Prop where
  | eof {l m : Lexer} {sp : Span} (h : l.nextToken chk = .ok .eof sp m) : LScript md chk true l
  | semi {st : Bool} {l m : Lexer} {sp : Span} (h : l.nextToken chk = .ok .semiColon sp m) (hr : LScript md chk true m) : LScript md chk st l
  | tok {st : Bool} {l m : Lexer} {t : Token} {sp : Span} (h : l.nextToken chk = .ok t sp m) (hs : t ≠ .semiColon) (he : t ≠ .eof)
      (ho : Okt md t) (hst : st = true → StartOk md t) (hr : LScript md chk false m) : LScript md chk st l

/-- The token `t` and what comes after it. -/
def SemiAhead (md chk : Bool) (t : Token) (l : Lexer) : Prop :=
  (t = .semiColon ∧ LScript md chk true l) ∨ (t ≠ .semiColon ∧ t ≠ .eof ∧ Okt md t ∧ LScript md chk false l)

/-- There is a `;` at or after the current token. -/
structure Near (md chk : Bool) (s : St) : Prop where
  checked : s.checked = chk
  delim : s.delim = .semiColon
  permit : s.permit = false
  ahead : match s.peeked with
    | none => SemiAhead md chk s.token s.lx
    | some (q, _) => s.token ≠ .semiColon ∧ s.token ≠ .eof ∧ Okt md s.token ∧ SemiAhead md chk q s.lx

variable {md chk : Bool} {P : Token → Prop} {α β σ : Type}

theorem Near.ok {s : St} (h : Near md chk s) (hs : s.token ≠ .semiColon) : s.token ≠ .eof ∧ Okt md s.token := by
  have := h.ahead
  split at this
  · rcases this with ⟨h1, -⟩ | ⟨-, h2, h3, -⟩
    · exact absurd h1 hs
    · exact ⟨h2, h3⟩
  · exact ⟨this.2.1, this.2.2.1⟩

theorem Near.issues {s : St} (h : Near md chk s) (i : List Issue) : Near md chk { s with issues := i } := ⟨h.checked, h.delim, h.permit, h.ahead⟩

theorem Near.arg {s : St} (h : Near md chk s) (i : Nat) (l : List Span) : Near md chk { s with arg := i, argLog := l } := ⟨h.checked, h.delim, h.permit, h.ahead⟩

theorem lscript_next {l : Lexer} (h : LScript md chk false l) : ∃ t sp m, l.nextToken chk = .ok t sp m ∧ SemiAhead md chk t m := by
  cases h with
  | semi h hr => exact ⟨_, _, _, h, .inl ⟨rfl, hr⟩⟩
  | tok h hs he ho hst hr => exact ⟨_, _, _, h, .inr ⟨hs, he, ho, hr⟩⟩

theorem next_near {s : St} (h : Near md chk s) (hs : s.token ≠ .semiColon) : OutG (Near md chk) s.next := by
  have ha := h.ahead
  unfold St.next
  split
  · next q sp hp =>
    rw [hp] at ha
    exact ⟨h.checked, h.delim, h.permit, ha.2.2.2⟩
  · next hp =>
    rw [hp] at ha
    rcases ha with ⟨h1, -⟩ | ⟨-, -, -, h3⟩
    · exact absurd h1 hs
    · obtain ⟨t, sp, m, e1, e2⟩ := lscript_next h3
      rw [h.checked, e1]
      exact ⟨rfl, h.delim, h.permit, by simpa [hp] using e2⟩

theorem leftParenAhead_near {s : St} (h : Near md chk s) : OutG (fun s' => Near md chk s' ∧ s'.token = s.token) (Op.run .leftParenAhead s) := by
  simp only [Op.run]
  by_cases h1 : s.token.isKw .LEFT = true
  · rw [if_pos h1]
    have hs : s.token ≠ .semiColon := by intro e; rw [e] at h1; cases h1
    have ha := h.ahead
    cases hp : s.peeked with
    | some p => exact ⟨h, rfl⟩
    | none =>
      rw [hp] at ha
      rcases ha with ⟨h1, -⟩ | ⟨g1, g2, g3, h3⟩
      · exact absurd h1 hs
      · obtain ⟨t, sp, m, e1, e2⟩ := lscript_next h3
        rw [← h.checked] at e1; simp only [e1]
        exact ⟨⟨h.checked, h.delim, h.permit, ⟨g1, g2, g3, e2⟩⟩, rfl⟩
  · rw [if_neg h1]
    exact ⟨h, rfl⟩

/-- The calls that are allowed. -/
structure CallsNear (md chk : Bool) (R : ∀ α, Fn α → St → Out α) : Prop where
  expression : ∀ b s, Near md chk s → OutG (Near md chk) (R _ (.expression b) s)
  query : ∀ s, Near md chk s → OutG (Near md chk) (R _ .compoundQuery s)
  statement : md = true → ∀ s, Near md chk s → OutG (Near md chk) (R _ .statement s)

/-- `p`, started at a token satisfying `P`, does not run past the `;`. -/
def Sm (md chk : Bool) (P : Token → Prop) (p : Prog α) : Prop :=
  ∀ R n s, CallsNear md chk R → Near md chk s → P s.token → OutG (Near md chk) (runWith R n p s)

/-- `p` never succeeds. -/
def NoOk (md chk : Bool) (P : Token → Prop) (p : Prog α) : Prop :=
  ∀ R n s a s', CallsNear md chk R → Near md chk s → P s.token → runWith R n p s ≠ .ok a s'

theorem Sm.at {p : Prog α} (h : Sm md chk Top p) : Sm md chk P p := fun R n s hR hs _ => h R n s hR hs trivial
theorem NoOk.at {p : Prog α} (h : NoOk md chk Top p) : NoOk md chk P p := fun R n s a s' hR hs _ => h R n s a s' hR hs trivial

theorem bind_sm {p : Prog α} {f : α → Prog β} (h : Sm md chk P p) (hf : ∀ a, Sm md chk Top (f a)) : Sm md chk P (p >>= f) := by
  intro R n s hR hs hp
  have h1 := h R n s hR hs hp
  show OutG _ (runWith R n (.bind p f) s)
  unfold runWith
  split
  · next a s' heq =>
    rw [heq] at h1
    exact hf a R n s' hR h1 trivial
  · next heq => rw [heq] at h1; exact h1
  · trivial
  · trivial

/-- What comes after a program that fails does not matter. -/
theorem NoOk.bind {p : Prog α} {f : α → Prog β} (h : Sm md chk P p) (h' : NoOk md chk P p) : Sm md chk P (p >>= f) := by
  intro R n s hR hs hp
  have h1 := h R n s hR hs hp
  have h2 := h' R n s
  show OutG _ (runWith R n (.bind p f) s)
  unfold runWith
  split
  · next a s' heq => exact absurd heq (h2 a s' hR hs hp)
  · next heq => rw [heq] at h1; exact h1
  · trivial
  · trivial

theorem NoOk.seq {p : Prog α} {f : α → Prog β} (h : NoOk md chk P p) : NoOk md chk P (p >>= f) := by
  intro R n s a s' hR hs hp
  show runWith R n (.bind p f) s ≠ _
  unfold runWith
  split
  · next b s1 heq => exact absurd heq (h R n s b s1 hR hs hp)
  · simp
  · simp
  · simp

theorem NoOk.after {p : Prog α} {f : α → Prog β} (h : Sm md chk P p) (hf : ∀ a, NoOk md chk Top (f a)) : NoOk md chk P (p >>= f) := by
  intro R n s a s' hR hs hp
  have h1 := h R n s hR hs hp
  show runWith R n (.bind p f) s ≠ _
  unfold runWith
  split
  · next b s1 heq =>
    rw [heq] at h1
    exact hf b R n s1 a s' hR h1 trivial
  · simp
  · simp
  · simp

theorem ret_sm {a : α} : Sm md chk P (.ret a) := fun _ _ _ _ h _ => h
theorem pure_sm {a : α} : Sm md chk P (pure a) := ret_sm
theorem throw_sm : Sm md chk P (.throw : Prog α) := fun _ _ _ _ h _ => h
theorem panic_sm {msg : String} : Sm md chk P (.panic msg : Prog α) := fun _ _ _ _ _ _ => trivial
theorem Prog.throw_sm : Sm md chk P (.throw : Prog α) := SqlParse.throw_sm
theorem Prog.panic_sm {msg : String} : Sm md chk P (.panic msg : Prog α) := SqlParse.panic_sm
theorem callExpression_sm {b : Bool} : Sm md chk P (.call (.expression b)) := fun _ _ s hR h _ => hR.expression b s h
theorem callCompoundQuery_sm : Sm md chk P (.call .compoundQuery) := fun _ _ s hR h _ => hR.query s h
theorem callStatement_th : Sm true chk P (.call .statement) := fun _ _ s hR h _ => hR.statement rfl s h
theorem expr_sm : Sm md chk P expr := callExpression_sm
theorem ite_sm {c : Prop} [Decidable c] {p q : Prog α} (h : c → Sm md chk P p) (h' : ¬ c → Sm md chk P q) : Sm md chk P (if c then p else q) := by
  split
  · next hc => exact h hc
  · next hc => exact h' hc

theorem tryP_sm {p : Prog α} (h : Sm md chk P p) : Sm md chk P (.tryP p) := by
  intro R n s hR hs hp
  have h1 := h R n s hR hs hp
  unfold runWith
  split
  · next heq => rw [heq] at h1; exact h1
  · next heq => rw [heq] at h1; exact h1
  · trivial
  · trivial

theorem loopN_sm {R : ∀ α, Fn α → St → Out α} {n : Nat} (hR : CallsNear md chk R) {body : σ → Prog (Step σ β)}
    (hb : ∀ x, Sm md chk Top (body x)) (j : Nat) (x : σ) (s : St) (hs : Near md chk s) :
    OutG (Near md chk) (loopN (fun x s => runWith R n (body x) s) j x s) := by
  induction j generalizing x s with
  | zero => trivial
  | succ j ih =>
    have h1 := hb x R n s hR hs trivial
    unfold loopN
    split
    · next heq => rw [heq] at h1; exact ih _ _ h1
    · next heq => rw [heq] at h1; exact h1
    · next heq => rw [heq] at h1; exact h1
    · trivial
    · trivial

theorem loop_sm {body : σ → Prog (Step σ β)} {x : σ} (hb : ∀ x, Sm md chk Top (body x)) : Sm md chk P (.loop body x) :=
  fun _ n s hR hs _ => loopN_sm hR hb n x s hs

/-! ### Programs that only look, and report issues -/

/-- Nothing changes but that issues may be added, an Error if the outcome is an error. -/
def StillO (s : St) : Out α → Prop
  | .ok _ s' => ∃ i, s' = { s with issues := s.issues ++ i }
  | .err s' => (∃ i, s' = { s with issues := s.issues ++ i }) ∧ HasError s'.issues
  | _ => True

theorem still_refl {s : St} : ∃ i, s = { s with issues := s.issues ++ i } := ⟨[], by simp⟩

/-- The program only looks, and reports issues. -/
def Still (p : Prog α) : Prop := ∀ R n s, StillO s (runWith R n p s)

theorem Still.sm {p : Prog α} (h : Still p) : Sm md chk P p := by
  intro R n s hR hs hp
  have := h R n s
  unfold StillO at this
  unfold OutG
  split
  · next heq => rw [heq] at this; obtain ⟨i, rfl⟩ := this; exact hs.issues _
  · next heq => rw [heq] at this; obtain ⟨⟨i, rfl⟩, -⟩ := this; exact hs.issues _
  · trivial

theorem Still.bind {p : Prog α} {f : α → Prog β} (h : Still p) (hf : ∀ a, Sm md chk P (f a)) : Sm md chk P (p >>= f) := by
  intro R n s hR hs hp
  have h1 := h R n s
  show OutG _ (runWith R n (.bind p f) s)
  unfold runWith
  split
  · next a s' heq =>
    rw [heq] at h1
    obtain ⟨i, rfl⟩ := h1
    exact hf a R n _ hR (hs.issues _) hp
  · next heq => rw [heq] at h1; obtain ⟨⟨i, rfl⟩, -⟩ := h1; exact hs.issues _
  · trivial
  · trivial

theorem Still.seq {p : Prog α} {f : α → Prog β} (h : Still p) (hf : ∀ a, Still (f a)) : Still (p >>= f) := by
  intro R n s
  have h1 := h R n s
  show StillO s (runWith R n (.bind p f) s)
  unfold runWith
  split
  · next a s' heq =>
    rw [heq] at h1
    obtain ⟨i, rfl⟩ := h1
    have := hf a R n { s with issues := s.issues ++ i }
    unfold StillO at this ⊢
    split
    · next heq => rw [heq] at this; obtain ⟨j, rfl⟩ := this; exact ⟨i ++ j, by simp⟩
    · next heq => rw [heq] at this; obtain ⟨⟨j, rfl⟩, he⟩ := this; exact ⟨⟨i ++ j, by simp⟩, he⟩
    · trivial
  · next heq => rw [heq] at h1; exact h1
  · trivial
  · trivial

theorem Still.ret {a : α} : Still (.ret a) := fun _ _ _ => still_refl
theorem Still.pure {a : α} : Still (pure a) := fun _ _ _ => still_refl
theorem Still.panic {msg : String} : Still (.panic msg : Prog α) := fun _ _ _ => trivial
theorem Still.ite {c : Prop} [Decidable c] {p q : Prog α} (h : Still p) (h' : Still q) : Still (if c then p else q) := by
  split
  · exact h
  · exact h'

theorem still_issue {s : St} {l : Level} {msg : Msg} {sp : Span} {fr : List (String × Span)} : StillO s (s.issue l msg sp fr) := by
  unfold St.issue
  split
  · exact ⟨_, rfl⟩
  · trivial

theorem cur_still : Still cur := fun _ _ _ => still_refl
theorem curT_still : Still curT := cur_still.seq fun _ => Still.pure
theorem curS_still : Still curS := cur_still.seq fun _ => Still.pure
theorem err_still {msg : Msg} {sp : Span} {fr} : Still (err msg sp fr) := fun _ _ _ => still_issue
theorem warn_still {msg : Msg} {sp : Span} {fr} : Still (warn msg sp fr) := fun _ _ _ => still_issue
theorem issueIf_still {f : WarnFlag} {l : Level} {v : List Char} {sp : Span} : Still (issueIf f l v sp) := by
  intro R n s
  show StillO s (if s.opts.flag f then s.issue l (f.msg v) sp [] else .ok () s)
  cases s.opts.flag f
  · exact still_refl
  · exact still_issue
theorem dialect_still : Still dialect := fun _ _ _ => still_refl
theorem isPg_still : Still isPg := dialect_still.seq fun _ => Still.pure
theorem isMaria_still : Still isMaria := dialect_still.seq fun _ => Still.pure
theorem isSqlite_still : Still isSqlite := dialect_still.seq fun _ => Still.pure
theorem delim_still : Still (.op .delim) := fun _ _ _ => still_refl
theorem permit_still : Still (.op .permit) := fun _ _ _ => still_refl
theorem arguments_still : Still (.op .arguments) := fun _ _ _ => still_refl
theorem listHack_still : Still (.op .listHack) := fun _ _ _ => still_refl
theorem when_still {c : Bool} {p : Prog Unit} (h : Still p) : Still (Prog.when c p) := by
  unfold Prog.when; split
  · exact h
  · exact Still.ret
theorem expectedError_still {msg : Wanted} : Still (expectedError msg) := curS_still.seq fun _ => err_still
/-- What comes after an error message is of no importance. -/
theorem issue_throw {l : List Issue} {s : St} {msg : Msg} {sp : Span} {fr : List (String × Span)} (_ : l = s.issues) (R : ∀ α, Fn α → St → Out α) (n : Nat) :
    StillO s (runWith R n (.bind (err msg sp fr) fun _ => .throw : Prog α) s) := by
  unfold runWith
  rw [show runWith R n (err msg sp fr) s = s.issue .error msg sp fr from rfl]
  unfold St.issue
  split
  · next heq =>
    split at heq
    · cases heq
      exact ⟨⟨_, rfl⟩, _, List.mem_append_right _ (List.mem_singleton.2 rfl), rfl⟩
    · cases heq
  · next heq => split at heq <;> cases heq
  · trivial
  · trivial
theorem errThrow_still {msg : Msg} {sp : Span} {fr : List (String × Span)} : Still (.bind (err msg sp fr) fun _ => .throw : Prog α) := fun R n _ => issue_throw rfl R n
theorem expectedFailure_still {msg : Wanted} : Still (expectedFailure msg : Prog α) := by
  intro R n s
  have := issue_throw (α := α) (s := s) (msg := .expected msg) (sp := s.span) (fr := []) rfl R n
  have e : runWith R n (expectedFailure msg : Prog α) s = runWith R n (.bind (err (.expected msg) s.span) fun _ => .throw) s := by
    rw [show (expectedFailure msg : Prog α) = .bind (expectedError msg) fun _ => .throw from rfl]
    simp only [runWith]
    rfl
  rwa [e]
theorem errHere_still {msg : String} : Still (errHere msg : Prog α) := curS_still.seq fun _ => errThrow_still
theorem spanOf_still [ToF α] {a : α} : Still (spanOf a) := by
  unfold spanOf
  split
  · exact Still.ret
  · exact Still.panic
  · exact Still.panic
theorem orExpected_still {o : Option α} {msg : String} : Still (orExpected o msg) := by
  cases o
  · exact expectedFailure_still
  · exact Still.ret
theorem capsWarn_still {v : List Char} {sp : Span} : Still (capsWarn v sp) := when_still issueIf_still
theorem tokenToIdent_still {t : Token} {sp : Span} : Still (tokenToIdent t sp) := by
  unfold tokenToIdent
  split
  · exact Still.seq (Still.ite err_still (Still.ite issueIf_still Still.ret)) fun _ => Still.pure
  · exact expectedFailure_still

theorem expectedFailure_sm {msg : Wanted} : Sm md chk P (expectedFailure msg : Prog α) := expectedFailure_still.sm
theorem errHere_sm {msg : String} : Sm md chk P (errHere msg : Prog α) := errHere_still.sm

/-! ### Tokens -/

/-- Reading the token makes it known. -/
theorem cur_sbindS {f : Token × Span → Prog β} (hf : ∀ t sp, P t → Sm md chk (· = t) (f (t, sp))) : Sm md chk P (cur >>= f) :=
  fun R n s hR hs hp => hf s.token s.span hp R n s hR hs rfl
theorem curT_sbindS {f : Token → Prog β} (hf : ∀ t, P t → Sm md chk (· = t) (f t)) : Sm md chk P (curT >>= f) :=
  fun R n s hR hs hp => hf s.token hp R n s hR hs rfl
/-- The delimiter is `;`. -/
theorem delim_sbindS {f : Token → Prog β} (hf : Sm md chk P (f .semiColon)) : Sm md chk P ((Prog.op .delim : Prog Token) >>= f) := by
  intro R n s hR hs hp
  have := hf R n s hR hs hp
  rw [← hs.delim] at this
  exact this
/-- The mode is off. -/
theorem permit_sbindS {f : Bool → Prog β} (hf : Sm md chk P (f false)) : Sm md chk P ((Prog.op .permit : Prog Bool) >>= f) := by
  intro R n s hR hs hp
  have := hf R n s hR hs hp
  rw [← hs.permit] at this
  exact this
theorem leftParenAhead_sbindS {f : Bool → Prog β} (hf : ∀ a, Sm md chk P (f a)) : Sm md chk P ((Prog.op .leftParenAhead : Prog Bool) >>= f) := by
  intro R n s hR hs hp
  have h1 := leftParenAhead_near hs
  show OutG _ (runWith R n (.bind (.op .leftParenAhead) f) s)
  unfold runWith
  rw [show runWith R n (Prog.op .leftParenAhead) s = Op.run .leftParenAhead s from rfl]
  split
  · next a s' heq =>
    rw [heq] at h1
    exact hf a R n s' hR h1.1 (by rw [h1.2]; exact hp)
  · next heq => rw [heq] at h1; exact h1.1
  · trivial
  · trivial

theorem next_sm (h : ∀ t, P t → t ≠ .semiColon) : Sm md chk P next := fun _ _ _ _ hs hp => next_near hs (h _ hp)
theorem consume_sm (h : ∀ t, P t → t ≠ .semiColon) : Sm md chk P consume :=
  curS_still.bind fun _ => bind_sm (next_sm h) fun _ => pure_sm
theorem takeArg_sm (h : ∀ t, P t → t ≠ .semiColon) : Sm md chk P (.op .takeArg) := by
  intro R n s _ hs hp
  have := next_near (hs.arg (s.arg + 1) (s.argLog ++ [s.span])) (h _ hp)
  show OutG _ (Op.run .takeArg s)
  simp only [Op.run]
  revert this
  generalize St.next { s with arg := s.arg + 1, argLog := s.argLog ++ [s.span] } = o
  cases o <;> exact id

theorem isKw_ns {t : Token} {k : Keyword} (h : t.isKw k = true) : ∀ t', t' = t → t' ≠ .semiColon := by
  rintro _ rfl rfl; simp [Token.isKw] at h
theorem eq_ns {t u : Token} (h : t = u) (hu : u ≠ .semiColon) : ∀ t', t' = t → t' ≠ .semiColon := by
  rintro _ rfl rfl; exact hu h.symm
theorem ne_ns {t : Token} (h : ¬ t = .semiColon) : ∀ t', t' = t → t' ≠ .semiColon := by
  rintro _ rfl; exact h
theorem known_ns {t : Token} (h : ∀ t, P t → t ≠ .semiColon) (hp : P t) : ∀ t', t' = t → t' ≠ .semiColon := by
  rintro _ rfl; exact h _ hp
theorem tableFind_ns {tbl : List (Keyword × Kind)} {t : Token} {K : Kind} (hK : tableFind t.kw tbl = some K)
    (h : tableFind .NOT_A_KEYWORD tbl = none) : ∀ t', t' = t → t' ≠ .semiColon := by
  rintro _ rfl rfl
  rw [show Token.kw .semiColon = .NOT_A_KEYWORD from rfl, h] at hK
  cases hK
theorem strVal_ns {t : Token} {v : List Char} (h : t.strVal? = some v) : ∀ t', t' = t → t' ≠ .semiColon := by
  rintro _ rfl rfl; cases h

/-! ### Combinators -/

theorem when_sm {c : Bool} {p : Prog Unit} (h : c = true → Sm md chk P p) : Sm md chk P (Prog.when c p) := by
  unfold Prog.when
  split
  · next hc => exact h hc
  · exact ret_sm
theorem optMap_sm {o : Option α} {f : α → Prog β} (h : ∀ a, o = some a → Sm md chk P (f a)) : Sm md chk P (optMap o f) := by
  cases o with
  | none => exact ret_sm
  | some a => exact bind_sm (h a rfl) fun _ => pure_sm
theorem optIf_sm {c : Bool} {p : Prog β} (h : c = true → Sm md chk P p) : Sm md chk P (optIf c p) := by
  unfold optIf
  split
  · next hc => exact bind_sm (h hc) fun _ => pure_sm
  · exact ret_sm
theorem recover_sm {e : Token → Bool} : Sm md chk P (recover e) := by
  unfold recover
  refine loop_sm fun br => ?_
  refine curT_sbindS fun t _ => ?_
  refine ite_sm (fun _ => pure_sm) fun _ => ?_
  refine ite_sm (fun _ => throw_sm) fun ht => ?_
  refine delim_sbindS ?_
  refine ite_sm (fun _ => throw_sm) fun hd => ?_
  exact bind_sm (next_sm (ne_ns hd)) fun _ => pure_sm
theorem recoveredEnd_sm {msg : String} {e : Token → Bool} {ok : Bool} : Sm md chk P (recoveredEnd msg e ok) :=
  bind_sm (when_sm fun _ => recover_sm) fun _ => curT_still.bind fun _ => when_sm fun _ => expectedError_still.bind fun _ => recover_sm
theorem recoveredAcc_sm {msg : String} {e : Token → Bool} {p : Prog (Bool × σ)} (h : Sm md chk P p) :
    Sm md chk P (recoveredAcc msg e p) := bind_sm h fun _ => bind_sm recoveredEnd_sm fun _ => pure_sm
theorem recovered_sm {msg : String} {e : Token → Bool} {p : Prog α} (h : Sm md chk P p) :
    Sm md chk P (recovered msg e p) := bind_sm (tryP_sm h) fun _ => bind_sm recoveredEnd_sm fun _ => pure_sm
theorem accLoop_sm {body : σ → Prog (Step σ σ)} {x : σ} (h : ∀ x, Sm md chk Top (body x)) : Sm md chk P (accLoop body x) := by
  unfold accLoop
  exact loop_sm fun x => bind_sm (tryP_sm (h x)) fun _ => pure_sm
theorem sepLoop_sm {more : Prog Bool} {item : Prog α} (hm : Sm md chk Top more) (hi : Sm md chk Top item) : Sm md chk P (sepLoop more item) := by
  unfold sepLoop
  exact loop_sm fun acc => bind_sm hi fun a => bind_sm hm fun _ => pure_sm
theorem ckw_sm {k : Keyword} : Sm md chk P (ckw k) := by
  unfold ckw
  refine cur_sbindS fun t sp _ => ?_
  simp only
  split
  · refine ite_sm (fun _ => capsWarn_still.bind fun _ => consume_sm ?_) fun _ => expectedFailure_sm
    rintro _ rfl h; cases h
  · exact expectedFailure_sm
theorem ckwsTail_sm {sp : Span} {ks : List Keyword} : Sm md chk P (ckwsTail sp ks) := by
  induction ks generalizing sp P with
  | nil => exact ret_sm
  | cons k ks ih => exact bind_sm ckw_sm fun _ => ih
theorem ckws_sm {k : Keyword} {ks : List Keyword} : Sm md chk P (ckws k ks) := bind_sm ckw_sm fun _ => ckwsTail_sm
theorem skw_sm {k : Keyword} : Sm md chk P (skw k) := by
  unfold skw
  refine cur_sbindS fun t sp _ => ?_
  simp only
  split
  · refine ite_sm (fun _ => capsWarn_still.bind fun _ => bind_sm (consume_sm ?_) fun _ => pure_sm) fun _ => pure_sm
    rintro _ rfl h; cases h
  · exact pure_sm
theorem ctk_sm {t : Token} (h : t ≠ .semiColon) : Sm md chk P (ctk t) :=
  curT_sbindS fun _ _ => ite_sm (fun ht => consume_sm (eq_ns ht h)) fun _ => expectedFailure_sm
theorem stk_sm {t : Token} (h : t ≠ .semiColon) : Sm md chk P (stk t) :=
  curT_sbindS fun _ _ => ite_sm (fun ht => bind_sm (consume_sm (eq_ns ht h)) fun _ => pure_sm) fun _ => pure_sm
theorem skips_sm {t : Token} (h : t ≠ .semiColon) : Sm md chk P (skips t) := bind_sm (stk_sm h) fun _ => pure_sm
theorem commaList_sm {item : Prog α} (hi : Sm md chk Top item) : Sm md chk P (commaList item) := sepLoop_sm (skips_sm nofun) hi
theorem recList_sm {msg : String} {e : Token → Bool} {item : Prog α} (hi : Sm md chk Top item) : Sm md chk P (recList msg e item) := by
  unfold recList
  exact loop_sm fun acc => bind_sm (recovered_sm hi) fun r => bind_sm (skips_sm nofun) fun _ => pure_sm
theorem manyOpt_sm {p : Prog (Option α)} (h : Sm md chk Top p) : Sm md chk P (manyOpt p) := by
  unfold manyOpt
  exact loop_sm fun acc => bind_sm h fun _ => pure_sm
theorem ident_sm : Sm md chk P ident := by
  unfold ident
  refine cur_sbindS fun t sp _ => ?_
  simp only
  split
  · refine isPg_still.bind fun pg => ?_
    refine Still.bind (Still.ite err_still (Still.ite issueIf_still (when_still err_still))) fun _ => ?_
    refine bind_sm (next_sm ?_) fun _ => pure_sm
    rintro _ rfl h; cases h
  · refine isPg_still.bind fun pg => ite_sm (fun _ => bind_sm (next_sm ?_) fun _ => pure_sm) fun _ => expectedFailure_sm
    rintro _ rfl h; cases h
  · exact expectedFailure_sm
theorem strPair_sm : Sm md chk P strPair := by
  unfold strPair
  refine cur_sbindS fun t sp _ => ?_
  simp only
  split
  · next v hv =>
    refine bind_sm (next_sm (strVal_ns hv)) fun _ => loop_sm fun ab => ?_
    refine cur_sbindS fun t' sp' _ => ?_
    simp only
    split
    · next v' hv' => exact bind_sm (next_sm (strVal_ns hv')) fun _ => pure_sm
    · exact pure_sm
  · exact expectedFailure_sm
theorem string_sm : Sm md chk P string := bind_sm strPair_sm fun _ => pure_sm
theorem int_sm {max : Nat} : Sm md chk P (int max) := by
  unfold int
  refine cur_sbindS fun t sp _ => ?_
  simp only
  split
  · refine (when_still err_still).bind fun _ => bind_sm (next_sm ?_) fun _ => pure_sm
    rintro _ rfl h; cases h
  · exact expectedFailure_sm
theorem float_sm : Sm md chk P float := by
  unfold float
  refine cur_sbindS fun t sp _ => ?_
  simp only
  split
  · refine bind_sm (next_sm ?_) fun _ => pure_sm
    rintro _ rfl h; cases h
  · exact expectedFailure_sm
theorem qualifiedName_sm : Sm md chk P qualifiedName := by
  unfold qualifiedName
  exact bind_sm ident_sm fun i => loop_sm fun x => bind_sm (stk_sm nofun) fun _ => by
    split
    · exact bind_sm ident_sm fun _ => pure_sm
    · exact pure_sm
theorem kwNode_sm {tbl : List (Keyword × Kind)} : Sm md chk P (kwNode tbl) := by
  refine curT_sbindS fun t _ => ?_
  split
  · exact bind_sm ckw_sm fun _ => pure_sm
  · exact pure_sm
theorem consNode_sm {tbl : List (Keyword × Kind)} (h : tableFind .NOT_A_KEYWORD tbl = none) : Sm md chk P (consNode tbl) := by
  refine curT_sbindS fun t _ => ?_
  split
  · next K hK => exact bind_sm (consume_sm (tableFind_ns hK h)) fun _ => pure_sm
  · exact pure_sm

/-! ### Tokens that do not occur -/

theorem expected_noOk {R : ∀ α, Fn α → St → Out α} {n : Nat} {s s' : St} {a : α} {msg : Wanted}
    (hr : runWith R n (expectedFailure msg : Prog α) s = .ok a s') : False := by
  rw [show (expectedFailure msg : Prog α) = Prog.bind (expectedError msg) fun _ => .throw from rfl, runWith] at hr
  split at hr <;> cases hr

theorem ckw_noOk {k : Keyword} (h : ∀ t, Okt md t → t.isKw k = false) : NoOk md chk P (ckw k) := by
  intro R n s a s' hR hs hp hr
  have h1 : s.token.isKw k = false := by
    by_cases hsm : s.token = .semiColon
    · rw [hsm]; rfl
    · exact h _ (hs.ok hsm).2
  rw [show (ckw k : Prog Span) = Prog.bind cur _ from rfl] at hr
  rw [runWith] at hr
  rw [show runWith R n cur s = .ok (s.token, s.span) s from rfl] at hr
  simp only at hr
  cases ht : s.token with
  | ident v k' =>
    rw [ht] at h1 hr
    have : ¬ k' = k := by intro e; subst e; simp [Token.isKw] at h1
    simp only [this, if_false] at hr
    exact expected_noOk hr
  | _ => rw [ht] at hr; exact expected_noOk hr

theorem ctk_noOk {t : Token} (hs : t ≠ .semiColon) (h : ¬ Okt md t) : NoOk md chk P (ctk t) := by
  intro R n s a s' hR hs' hp hr
  have h1 : s.token ≠ t := by
    rintro rfl
    exact h (hs'.ok hs).2
  rw [show (ctk t : Prog Span) = Prog.bind curT _ from rfl] at hr
  rw [runWith] at hr
  rw [show runWith R n curT s = .ok s.token s from rfl] at hr
  simp only [h1, if_false] at hr
  exact expected_noOk hr

end SqlParse
