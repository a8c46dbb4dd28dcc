import Verif.Proofs.SemiWalk
import Verif.Spec.Caps
/-!
Keywords that should be in capitals are reported before they are consumed.  `Core s` says that the watched keywords before the current token
have been reported, `Past s` that there is nothing more to show (an Error has been reported, data of COPY has been read, or all is done).
`Cw P p`: the program `p`, started at a token satisfying `P`, keeps this.
-/
namespace SqlParse

/-- If the token is a watched keyword that is not in capitals then it has been reported. -/
def Seen (is : List Issue) (x : Token × Span) : Prop :=
  ∀ v k, x.1 = .ident v k → k.watched = true → allUpper v = false → ∃ i ∈ is, CapsIssue v x.2 i

/-- The token need not be reported. -/
def Unwatched (t : Token) : Prop := t.kw.watched = false

/-- The tokens that may occur. -/
structure Tame (t : Token) : Prop where
  global : t ≠ .atAtGlobal
  session : t ≠ .atAtSession
  delimiter : t.isKw .DELIMITER = false

/-- The source. -/
structure Wsrc where
  chk : Bool
  toks : List (Token × Span)
  tame : ∀ x ∈ toks, Tame x.1

/-- There is nothing more to show. -/
def Past (E : Wsrc) (s : St) : Prop := Loaded s ∨ HasError s.issues ∨ ∀ x ∈ E.toks, Seen s.issues x

/-- What comes after the current token. -/
def AfterCur (chk : Bool) (s : St) (rest : List (Token × Span)) : Prop :=
  match s.peeked with
  | none => (s.token = .eof ∧ rest = []) ∨ (s.token ≠ .eof ∧ Scan chk s.lx rest)
  | some q => ∃ r, rest = q :: r ∧ ((q.1 = .eof ∧ r = []) ∨ (q.1 ≠ .eof ∧ Scan chk s.lx r))

/-- The watched keywords before the current token have been reported. -/
structure Core (E : Wsrc) (s : St) : Prop where
  checked : s.checked = E.chk
  caps : s.opts.warnCaps = true
  dialect : s.opts.dialect ≠ .postgreSQL
  delim : Unwatched s.delim
  pos : ∃ l rest, E.toks = l ++ (s.token, s.span) :: rest ∧ AfterCur E.chk s rest ∧ ∀ x ∈ l, Seen s.issues x

variable {E : Wsrc} {P : Token → Prop} {α β σ : Type}

/-- The outcome is fine, a result in a state that is not past satisfies `Q`. -/
def OutW (E : Wsrc) (Q : α → Prop) : Out α → Prop
  | .ok a s => Past E s ∨ (Core E s ∧ Q a)
  | .err s => Past E s
  | _ => True

/-- The calls. -/
structure CallsW (E : Wsrc) (R : ∀ α, Fn α → St → Out α) : Prop where
  past : ∀ α (f : Fn α) s, Past E s → OutG (Past E) (R α f s)
  core : ∀ α (f : Fn α) s, Core E s → OutW E (fun _ => True) (R α f s)

/-- `p`, started at a token satisfying `P`, reports what it consumes; its results satisfy `Q`. -/
def CwQ (E : Wsrc) (P : Token → Prop) (p : Prog α) (Q : α → Prop) : Prop :=
  ∀ R n s, CallsW E R → Core E s → P s.token → OutW E Q (runWith R n p s)

/-- `p`, started at a token satisfying `P`, reports what it consumes. -/
def Cw (E : Wsrc) (P : Token → Prop) (p : Prog α) : Prop := CwQ E P p fun _ => True

theorem seen_more {is js : List Issue} {x : Token × Span} (h : Seen is x) : Seen (is ++ js) x := by
  intro v k h1 h2 h3
  obtain ⟨i, hi, h⟩ := h v k h1 h2 h3
  exact ⟨i, by simp [hi], h⟩

theorem hasError_more {is js : List Issue} (h : HasError is) : HasError (is ++ js) := by
  obtain ⟨i, hi, h⟩ := h
  exact ⟨i, by simp [hi], h⟩

theorem Past.more {s : St} (h : Past E s) {s' : St} (hl : Loaded s → Loaded s') {i : List Issue} (hi : s'.issues = s.issues ++ i) : Past E s' := by
  rcases h with h | h | h
  · exact .inl (hl h)
  · exact .inr (.inl (hi ▸ hasError_more h))
  · exact .inr (.inr fun x hx => hi ▸ seen_more (h x hx))

theorem Past.same {s : St} (h : Past E s) {s' : St} (hl : s'.dataLog = s.dataLog) (hi : s'.issues = s.issues) : Past E s' :=
  h.more (i := []) (fun h => by unfold Loaded at *; rwa [hl]) (by simpa using hi)

theorem next_past {s : St} (h : Past E s) : OutG (Past E) s.next := by
  unfold St.next
  split
  · exact h.same rfl rfl
  · split
    · exact h.same rfl rfl
    · trivial

theorem issue_past {s : St} (h : Past E s) {l : Level} {m : Msg} {sp : Span} {fr : List (String × Span)} : OutG (Past E) (s.issue l m sp fr) := by
  unfold St.issue
  split
  · exact h.more id rfl
  · trivial

theorem op_past {o : Op α} {s : St} (h : Past E s) : OutG (Past E) (o.run s) := by
  cases o with
  | next => exact next_past h
  | cur => exact h
  | leftParenAhead =>
    simp only [Op.run]
    split
    · split
      · exact h
      · split
        · exact h.same rfl rfl
        · trivial
    · exact h
  | issue l m sp fr => exact issue_past h
  | issueIf f l v sp =>
    simp only [Op.run]
    split
    · exact issue_past h
    · exact h
  | takeArg =>
    have := next_past (s := { s with arg := s.arg + 1, argLog := s.argLog ++ [s.span] }) (h.same rfl rfl)
    simp only [Op.run]
    revert this
    generalize St.next { s with arg := s.arg + 1, argLog := s.argLog ++ [s.span] } = o
    cases o <;> exact id
  | delim => exact h
  | setDelim t => exact h.same rfl rfl
  | permit => exact h
  | setPermit x => exact h.same rfl rfl
  | dialect => exact h
  | arguments => exact h
  | listHack => exact h
  | stdin => exact outG_imp (fun _ => .inl) stdin_loaded

theorem runWith_past {R : ∀ α, Fn α → St → Out α} (hR : CallsW E R) (n : Nat) (p : Prog α) (s : St) (h : Past E s) : OutG (Past E) (runWith R n p s) :=
  runWith_keeps (fun _ _ => op_past) hR.past n p s h

theorem runFn_past (n : Nat) (f : Fn α) (s : St) (h : Past E s) : OutG (Past E) (runFn n α f s) := runFn_keeps (fun _ _ => op_past) n α f s h

theorem outW_of_past {Q : α → Prop} {o : Out α} (h : OutG (Past E) o) : OutW E Q o := by
  cases o with
  | ok a s => exact .inl h
  | err s => exact h
  | panic m => trivial
  | oof => trivial

theorem CwQ.imp {Q Q' : α → Prop} {p : Prog α} (h : CwQ E P p Q) (hq : ∀ a, Q a → Q' a) : CwQ E P p Q' := by
  intro R n s hR hs hp
  have := h R n s hR hs hp
  revert this
  generalize runWith R n p s = o
  cases o with
  | ok a s => exact fun h => h.imp id fun h => ⟨h.1, hq a h.2⟩
  | err s => exact id
  | panic m => exact id
  | oof => exact id

theorem CwQ.cw {Q : α → Prop} {p : Prog α} (h : CwQ E P p Q) : Cw E P p := h.imp fun _ _ => trivial

theorem Cw.at {p : Prog α} (h : Cw E Top p) : Cw E P p := fun R n s hR hs _ => h R n s hR hs trivial
theorem CwQ.at {p : Prog α} {Q : α → Prop} (h : CwQ E Top p Q) : CwQ E P p Q := fun R n s hR hs _ => h R n s hR hs trivial

theorem bindQ_cw {Q : α → Prop} {Q' : β → Prop} {p : Prog α} {f : α → Prog β} (h : CwQ E P p Q) (hf : ∀ a, Q a → CwQ E Top (f a) Q') : CwQ E P (p >>= f) Q' := by
  intro R n s hR hs hp
  have h1 := h R n s hR hs hp
  show OutW E _ (runWith R n (.bind p f) s)
  unfold runWith
  split
  · next a s' heq =>
    rw [heq] at h1
    rcases h1 with h1 | ⟨h1, h2⟩
    · exact outW_of_past (runWith_past hR n (f a) s' h1)
    · exact hf a h2 R n s' hR h1 trivial
  · next heq => rw [heq] at h1; exact h1
  · trivial
  · trivial

theorem bind_cw {p : Prog α} {f : α → Prog β} (h : Cw E P p) (hf : ∀ a, Cw E Top (f a)) : Cw E P (p >>= f) := bindQ_cw h fun a _ => hf a

theorem ret_cwQ {a : α} {Q : α → Prop} (h : Q a) : CwQ E P (.ret a) Q := fun _ _ _ _ hs _ => .inr ⟨hs, h⟩
theorem ret_cw {a : α} : Cw E P (.ret a) := ret_cwQ trivial
theorem pure_cw {a : α} : Cw E P (pure a) := ret_cw
theorem panic_cw {msg : String} : Cw E P (.panic msg : Prog α) := fun _ _ _ _ _ _ => trivial
theorem Prog.panic_cw {msg : String} : Cw E P (.panic msg : Prog α) := SqlParse.panic_cw
theorem callExpression_cw {b : Bool} : Cw E P (.call (.expression b)) := fun _ _ s hR h _ => hR.core _ _ s h
theorem callCompoundQuery_cw : Cw E P (.call .compoundQuery) := fun _ _ s hR h _ => hR.core _ _ s h
theorem callStatement_cw : Cw E P (.call .statement) := fun _ _ s hR h _ => hR.core _ _ s h
theorem expr_cw : Cw E P expr := callExpression_cw
theorem ite_cw {c : Prop} [Decidable c] {p q : Prog α} (h : c → Cw E P p) (h' : ¬ c → Cw E P q) : Cw E P (if c then p else q) := by
  split
  · next hc => exact h hc
  · next hc => exact h' hc

theorem tryP_cwQ {Q : α → Prop} {p : Prog α} (h : CwQ E P p Q) : CwQ E P (.tryP p) (fun o => ∃ a, o = some a ∧ Q a) := by
  intro R n s hR hs hp
  have h1 := h R n s hR hs hp
  unfold runWith
  split
  · next heq => rw [heq] at h1; exact h1.imp id fun h => ⟨h.1, _, rfl, h.2⟩
  · next heq => rw [heq] at h1; exact .inl h1
  · trivial
  · trivial
theorem tryP_cw {p : Prog α} (h : Cw E P p) : Cw E P (.tryP p) := (tryP_cwQ h).cw
/-- When the attempt fails an error has been reported. -/
theorem tryP_cbind {p : Prog α} {f : Option α → Prog β} (h : Cw E P p) (hf : ∀ a, Cw E Top (f (some a))) : Cw E P (Prog.tryP p >>= f) :=
  bindQ_cw (tryP_cwQ h) fun _ ⟨a, h, _⟩ => h ▸ hf a

theorem loopN_cw {R : ∀ α, Fn α → St → Out α} {n : Nat} (hR : CallsW E R) {body : σ → Prog (Step σ β)} {Q : β → Prop}
    (hb : ∀ x, CwQ E Top (body x) (fun r => ∀ b, r = .done b → Q b)) (j : Nat) (x : σ) (s : St) (hs : Past E s ∨ Core E s) :
    OutW E Q (loopN (fun x s => runWith R n (body x) s) j x s) := by
  induction j generalizing x s with
  | zero => trivial
  | succ j ih =>
    have h1 : OutW E (fun r => ∀ b, r = .done b → Q b) (runWith R n (body x) s) := by
      rcases hs with hs | hs
      · exact outW_of_past (runWith_past hR n _ s hs)
      · exact hb x R n s hR hs trivial
    unfold loopN
    split
    · next heq => rw [heq] at h1; exact ih _ _ (h1.imp id And.left)
    · next heq => rw [heq] at h1; exact h1.imp id fun h => ⟨h.1, h.2 _ rfl⟩
    · next heq => rw [heq] at h1; exact h1
    · trivial
    · trivial

theorem loop_cwQ {body : σ → Prog (Step σ β)} {x : σ} {Q : β → Prop} (hb : ∀ x, CwQ E Top (body x) (fun r => ∀ b, r = .done b → Q b)) : CwQ E P (.loop body x) Q :=
  fun _ n s hR hs _ => loopN_cw hR hb n x s (.inr hs)
theorem loop_cw {body : σ → Prog (Step σ β)} {x : σ} (hb : ∀ x, Cw E Top (body x)) : Cw E P (.loop body x) :=
  loop_cwQ fun x => (hb x).imp fun _ _ _ _ => trivial

/-! ### Programs that only look, and report issues -/

theorem Core.still {s : St} (h : Core E s) (i : List Issue) : Core E { s with issues := s.issues ++ i } :=
  ⟨h.checked, h.caps, h.dialect, h.delim, by
    obtain ⟨l, r, h1, h2, h3⟩ := h.pos
    exact ⟨l, r, h1, h2, fun x hx => seen_more (h3 x hx)⟩⟩

theorem Still.cw {p : Prog α} (h : Still p) : Cw E P p := by
  intro R n s hR hs hp
  have := h R n s
  revert this
  generalize runWith R n p s = o
  cases o with
  | ok a s' => rintro ⟨i, rfl⟩; exact .inr ⟨hs.still i, trivial⟩
  | err s' => rintro ⟨-, h⟩; exact .inr (.inl h)
  | panic m => exact fun _ => trivial
  | oof => exact fun _ => trivial

theorem Still.cbindQ {p : Prog α} {f : α → Prog β} {Q : β → Prop} (h : Still p) (hf : ∀ a, CwQ E P (f a) Q) : CwQ E P (p >>= f) Q := by
  intro R n s hR hs hp
  have h1 := h R n s
  show OutW E _ (runWith R n (.bind p f) s)
  unfold runWith
  split
  · next a s' heq =>
    rw [heq] at h1
    obtain ⟨i, rfl⟩ := h1
    exact hf a R n _ hR (hs.still i) hp
  · next heq => rw [heq] at h1; exact .inr (.inl h1.2)
  · trivial
  · trivial
theorem Still.cbind {p : Prog α} {f : α → Prog β} (h : Still p) (hf : ∀ a, Cw E P (f a)) : Cw E P (p >>= f) := h.cbindQ hf

theorem expectedFailure_cw {msg : Wanted} : Cw E P (expectedFailure msg : Prog α) := expectedFailure_still.cw
theorem errHere_cw {msg : String} : Cw E P (errHere msg : Prog α) := errHere_still.cw

/-- After an error message there is nothing more to show. -/
theorem err_cbindQ {msg : Msg} {sp : Span} {fr : List (String × Span)} {f : Unit → Prog β} {Q : β → Prop} : CwQ E P (err msg sp fr >>= f) Q := by
  intro R n s hR hs hp
  show OutW E _ (runWith R n (.bind (err msg sp fr) f) s)
  unfold runWith
  rw [show runWith R n (err msg sp fr) s = s.issue .error msg sp fr from rfl]
  unfold St.issue
  split
  · next heq =>
    split at heq
    · cases heq
      exact outW_of_past (runWith_past hR n _ _ (.inr (.inl ⟨_, List.mem_append_right _ (List.mem_singleton.2 rfl), rfl⟩)))
    · cases heq
  · next heq => split at heq <;> cases heq
  · trivial
  · trivial
theorem err_cbind {msg : Msg} {sp : Span} {fr : List (String × Span)} {f : Unit → Prog β} : Cw E P (err msg sp fr >>= f) := err_cbindQ
theorem expectedError_cbindQ {msg : Wanted} {f : Unit → Prog β} {Q : β → Prop} : CwQ E P (expectedError msg >>= f) Q := by
  intro R n s hR hs hp
  have h := err_cbindQ (E := E) (P := P) (msg := .expected msg) (sp := s.span) (fr := []) (f := f) (Q := Q) R n s hR hs hp
  have e : runWith R n (expectedError msg >>= f) s = runWith R n (err (.expected msg) s.span >>= f) s := by
    show runWith R n (.bind (.bind curS fun sp => err (.expected msg) sp) f) s = runWith R n (.bind (err (.expected msg) s.span) f) s
    simp only [runWith]
    rfl
  rwa [e]
theorem expectedError_cbind {msg : Wanted} {f : Unit → Prog β} : Cw E P (expectedError msg >>= f) := expectedError_cbindQ

/-! ### Tokens -/

/-- Reading the token makes it known. -/
theorem cur_cbind {f : Token × Span → Prog β} (hf : ∀ t sp, P t → Cw E (· = t) (f (t, sp))) : Cw E P (cur >>= f) :=
  fun R n s hR hs hp => hf s.token s.span hp R n s hR hs rfl
theorem Core.tame {s : St} (h : Core E s) : Tame s.token := by
  obtain ⟨l, r, h1, -⟩ := h.pos
  exact E.tame (s.token, s.span) (by rw [h1]; simp)
theorem curT_cbindQ {f : Token → Prog β} {Q : β → Prop} (hf : ∀ t, P t → CwQ E (· = t) (f t) Q) : CwQ E P (curT >>= f) Q :=
  fun R n s hR hs hp => hf s.token hp R n s hR hs rfl
theorem curT_cbind {f : Token → Prog β} (hf : ∀ t, P t → Cw E (· = t) (f t)) : Cw E P (curT >>= f) := curT_cbindQ hf
theorem delim_cbind {f : Token → Prog β} (hf : ∀ d, Unwatched d → Cw E P (f d)) : Cw E P ((Prog.op .delim : Prog Token) >>= f) :=
  fun R n s hR hs hp => hf s.delim hs.delim R n s hR hs hp
theorem setDelim_cw {t : Token} (h : Unwatched t) : Cw E P (.op (.setDelim t)) :=
  fun _ _ _ _ hs _ => .inr ⟨⟨hs.checked, hs.caps, hs.dialect, h, hs.pos⟩, trivial⟩
theorem setPermit_cw {b : Bool} : Cw E P (.op (.setPermit b)) :=
  fun _ _ _ _ hs _ => .inr ⟨⟨hs.checked, hs.caps, hs.dialect, hs.delim, hs.pos⟩, trivial⟩
/-- The dialect is not PostgreSQL. -/
theorem isPg_cbind {f : Bool → Prog β} (hf : Cw E P (f false)) : Cw E P (isPg >>= f) := by
  intro R n s hR hs hp
  have := hf R n s hR hs hp
  have e : decide (s.opts.dialect = .postgreSQL) = false := by simp [hs.dialect]
  rw [← e] at this
  exact this
theorem stdin_cw : Cw E P (.op .stdin) := fun _ _ _ _ _ _ => outW_of_past (outG_imp (fun _ => .inl) stdin_loaded)

theorem scan_inv {chk : Bool} {l : Lexer} {r : List (Token × Span)} (h : Scan chk l r) :
    ∃ t sp m r', l.nextToken chk = .ok t sp m ∧ r = (t, sp) :: r' ∧ ((t = .eof ∧ r' = []) ∨ (t ≠ .eof ∧ Scan chk m r')) := by
  cases h with
  | last h => exact ⟨_, _, _, _, h, rfl, .inl ⟨rfl, rfl⟩⟩
  | cons h ht hs => exact ⟨_, _, _, _, h, rfl, .inr ⟨ht, hs⟩⟩

/-- A token that has been reported, or need not be, may be consumed. -/
theorem next_core {s : St} (h : Core E s) (hs : Seen s.issues (s.token, s.span)) : OutW E (fun _ => True) s.next := by
  obtain ⟨l, r, e1, e2, e3⟩ := h.pos
  have h3 : ∀ x ∈ l ++ [(s.token, s.span)], Seen s.issues x := by
    intro x hx
    rcases List.mem_append.1 hx with hx | hx
    · exact e3 x hx
    · rw [List.mem_singleton.1 hx]; exact hs
  unfold AfterCur at e2
  unfold St.next
  split
  · next q sp hp =>
    rw [hp] at e2
    obtain ⟨r', rfl, e4⟩ := e2
    exact .inr ⟨⟨h.checked, h.caps, h.dialect, h.delim, l ++ [(s.token, s.span)], r', by simpa using e1, by simpa [AfterCur] using e4, h3⟩, trivial⟩
  · next hp =>
    rw [hp] at e2
    rcases e2 with ⟨e2, rfl⟩ | ⟨e2, e4⟩
    · split
      · exact .inl (.inr (.inr fun x hx => h3 x (e1 ▸ hx)))
      · trivial
    · obtain ⟨t, sp, m, r', g1, rfl, g2⟩ := scan_inv e4
      rw [h.checked, g1]
      exact .inr ⟨⟨rfl, h.caps, h.dialect, h.delim, l ++ [(s.token, s.span)], r', by simpa using e1, by simpa [AfterCur, hp] using g2, h3⟩, trivial⟩

theorem seen_unwatched {is : List Issue} {t : Token} {sp : Span} (h : Unwatched t) : Seen is (t, sp) := by
  intro v k h1 h2
  simp only at h1
  subst h1
  rw [show Unwatched (.ident v k) = (k.watched = false) from rfl] at h
  rw [h] at h2; cases h2

theorem next_cw (h : ∀ t, P t → Unwatched t) : Cw E P next := fun _ _ _ _ hs hp => next_core hs (seen_unwatched (h _ hp))
theorem consume_cw (h : ∀ t, P t → Unwatched t) : Cw E P consume :=
  curS_still.cbind fun _ => bind_cw (next_cw h) fun _ => pure_cw
theorem takeArg_cw (h : ∀ t, P t → Unwatched t) : Cw E P (.op .takeArg) := by
  intro R n s _ hs hp
  have := next_core (E := E) (s := { s with arg := s.arg + 1, argLog := s.argLog ++ [s.span] }) ⟨hs.checked, hs.caps, hs.dialect, hs.delim, hs.pos⟩ (seen_unwatched (h _ hp))
  show OutW E _ (Op.run .takeArg s)
  simp only [Op.run]
  revert this
  generalize St.next { s with arg := s.arg + 1, argLog := s.argLog ++ [s.span] } = o
  cases o <;> exact id

theorem isKw_uw {t : Token} {k : Keyword} (h : t.isKw k = true) (hk : k.watched = false) : ∀ t', t' = t → Unwatched t' := by
  rintro _ rfl
  unfold Token.isKw at h
  split at h
  · next v k' => simp only [decide_eq_true_eq] at h; subst h; exact hk
  · cases h
theorem eq_uw {t u : Token} (h : t = u) (hu : Unwatched u) : ∀ t', t' = t → Unwatched t' := by
  rintro _ rfl; rw [h]; exact hu
theorem known_uw {t : Token} (h : ∀ t, P t → Unwatched t) (hp : P t) : ∀ t', t' = t → Unwatched t' := by
  rintro _ rfl; exact h _ hp
theorem leftParenAhead_cbind {f : Bool → Prog β} (hf : ∀ a, (a = true → ∃ t, P t ∧ Unwatched t) → Cw E P (f a)) : Cw E P ((Prog.op .leftParenAhead : Prog Bool) >>= f) := by
  intro R n s hR hs hp
  show OutW E _ (runWith R n (.bind (.op .leftParenAhead) f) s)
  have h1 : ∀ a s', Op.run .leftParenAhead s = .ok a s' → Core E s' ∧ s'.token = s.token ∧ (a = true → s.token.isKw .LEFT = true) := by
    intro a s' h
    simp only [Op.run] at h
    by_cases h1 : s.token.isKw .LEFT = true
    · rw [if_pos h1] at h
      cases hp : s.peeked with
      | some p => rw [hp] at h; cases h; exact ⟨hs, rfl, fun _ => h1⟩
      | none =>
        rw [hp] at h
        obtain ⟨l, r, e1, e2, e3⟩ := hs.pos
        unfold AfterCur at e2
        rw [hp] at e2
        rcases e2 with ⟨e2, -⟩ | ⟨e2, e4⟩
        · rw [e2] at h1; cases h1
        · obtain ⟨t, sp, m, r', g1, rfl, g2⟩ := scan_inv e4
          rw [hs.checked, g1] at h
          cases h
          exact ⟨⟨rfl, hs.caps, hs.dialect, hs.delim, l, _, e1, ⟨r', rfl, g2⟩, e3⟩, rfl, fun _ => h1⟩
    · rw [if_neg h1] at h; cases h; exact ⟨hs, rfl, fun h => by cases h⟩
  unfold runWith
  rw [show runWith R n (Prog.op .leftParenAhead) s = Op.run .leftParenAhead s from rfl]
  split
  · next a s' heq =>
    obtain ⟨g1, g2, g3⟩ := h1 a s' heq
    exact hf a (fun h => ⟨s.token, hp, isKw_uw (g3 h) (by decide +kernel) _ rfl⟩) R n s' hR g1 (by rw [g2]; exact hp)
  · next heq =>
    simp only [Op.run] at heq
    split at heq
    · split at heq
      · cases heq
      · split at heq <;> cases heq
    · cases heq
  · trivial
  · trivial

/-- No watched keyword is in the table. -/
def tableUnwatched (tbl : List (Keyword × Kind)) : Bool := tbl.all fun p => !p.1.watched
theorem tableFind_uw {tbl : List (Keyword × Kind)} {t : Token} {K : Kind} (hK : tableFind t.kw tbl = some K)
    (h : tableUnwatched tbl = true) : ∀ t', t' = t → Unwatched t' := by
  intro t' ht
  subst ht
  unfold Unwatched
  generalize t'.kw = k at hK ⊢
  induction tbl with
  | nil => cases hK
  | cons p tbl ih =>
    unfold tableUnwatched at h ih
    simp only [List.all_cons, Bool.and_eq_true, Bool.not_eq_true'] at h
    unfold tableFind at hK
    split at hK
    · next e => rw [e]; exact h.1
    · exact ih h.2 hK
theorem strVal_uw {t : Token} {v : List Char} (h : t.strVal? = some v) : ∀ t', t' = t → Unwatched t' := by
  intro t' ht
  subst ht
  cases t' <;> first | (cases h; done) | rfl

/-! ### Combinators -/

theorem when_cw {c : Bool} {p : Prog Unit} (h : c = true → Cw E P p) : Cw E P (Prog.when c p) := by
  unfold Prog.when
  split
  · next hc => exact h hc
  · exact ret_cw
theorem optMap_cw {o : Option α} {f : α → Prog β} (h : ∀ a, o = some a → Cw E P (f a)) : Cw E P (optMap o f) := by
  cases o with
  | none => exact ret_cw
  | some a => exact bind_cw (h a rfl) fun _ => pure_cw
theorem optIf_cw {c : Bool} {p : Prog β} (h : c = true → Cw E P p) : Cw E P (optIf c p) := by
  unfold optIf
  split
  · next hc => exact bind_cw (h hc) fun _ => pure_cw
  · exact ret_cw
/-- The end of a list, if there was no error. -/
theorem recoveredEnd_cw {msg : String} {e : Token → Bool} : Cw E P (recoveredEnd msg e true) := by
  unfold recoveredEnd
  exact bind_cw ret_cw fun _ => curT_cbind fun t _ => when_cw fun _ => expectedError_cbind
/-- The closure says whether it has succeeded. -/
def Succ (r : Bool × σ) : Prop := r.1 = true
theorem recoveredAcc_cw {msg : String} {e : Token → Bool} {p : Prog (Bool × σ)} (h : CwQ E P p Succ) : Cw E P (recoveredAcc msg e p) :=
  bindQ_cw h fun r (hr : r.1 = true) => bind_cw (by rw [hr]; exact recoveredEnd_cw) fun _ => pure_cw
theorem recovered_cw {msg : String} {e : Token → Bool} {p : Prog α} (h : Cw E P p) : Cw E P (recovered msg e p) :=
  tryP_cbind h fun _ => bind_cw recoveredEnd_cw fun _ => pure_cw
theorem accLoop_cwQ {body : σ → Prog (Step σ σ)} {x : σ} (h : ∀ x, Cw E Top (body x)) : CwQ E P (accLoop body x) Succ := by
  unfold accLoop
  refine loop_cwQ fun x => bindQ_cw (tryP_cwQ (h x)) ?_
  rintro _ ⟨a, rfl, -⟩
  refine ret_cwQ ?_
  cases a with
  | cont y => intro b hb; cases hb
  | done y => intro b hb; cases hb; rfl
theorem sepLoop_cw {more : Prog Bool} {item : Prog α} (hm : Cw E Top more) (hi : Cw E Top item) : Cw E P (sepLoop more item) := by
  unfold sepLoop
  exact loop_cw fun acc => bind_cw hi fun a => bind_cw hm fun _ => pure_cw

/-- A keyword is reported before it is consumed. -/
theorem capsWarn_core {R : ∀ α, Fn α → St → Out α} {n : Nat} {s : St} {v : List Char} {k : Keyword} (hR : CallsW E R) (hs : Core E s) (ht : s.token = .ident v k)
    {f : Unit → Prog β} {Q : β → Prop} (hf : ∀ s', Core E s' → s'.token = s.token → Seen s'.issues (s'.token, s'.span) → OutW E Q (runWith R n (f ()) s')) :
    OutW E Q (runWith R n (capsWarn v s.span >>= f) s) := by
  show OutW E _ (runWith R n (.bind (capsWarn v s.span) f) s)
  unfold runWith
  by_cases hu : allUpper v = true
  · have e : runWith R n (capsWarn v s.span) s = .ok () s := by simp [capsWarn, hu, Prog.when, runWith]
    rw [e]
    refine hf s hs rfl ?_
    intro v' k' h1 _ h2
    simp only [ht, Token.ident.injEq] at h1
    rw [← h1.1, hu] at h2; cases h2
  · have e : runWith R n (capsWarn v s.span) s = s.issue .warning (.caps v) s.span [] := by
      simp only [Bool.not_eq_true] at hu
      simp [capsWarn, hu, Prog.when, issueIf, runWith, Op.run, Opts.flag, hs.caps, WarnFlag.msg]
    rw [e]
    unfold St.issue
    split
    · next heq =>
      split at heq
      · cases heq
        refine hf _ (hs.still _) rfl ?_
        intro v' k' h1 _ h2
        simp only [ht, Token.ident.injEq] at h1
        exact ⟨_, List.mem_append_right _ (List.mem_singleton.2 rfl), rfl, by rw [h1.1], rfl⟩
      · cases heq
    · next heq => split at heq <;> cases heq
    · trivial
    · trivial

theorem consume_core {R : ∀ α, Fn α → St → Out α} {n : Nat} {s : St} (hs : Core E s) (h : Seen s.issues (s.token, s.span)) :
    OutW E (fun _ => True) (runWith R n consume s) := by
  have := next_core hs h
  rw [show (consume : Prog Span) = .bind curS fun sp => .bind next fun _ => .ret sp from rfl]
  simp only [runWith, curS]
  rw [show runWith R n (cur >>= fun p => pure p.2) s = .ok s.span s from rfl]
  simp only
  rw [show runWith R n next s = s.next from rfl]
  revert this
  generalize s.next = o
  cases o <;> exact id

theorem ckw_cw {k : Keyword} : Cw E P (ckw k) := by
  intro R n s hR hs hp
  rw [show (ckw k : Prog Span) = Prog.bind cur _ from rfl]
  unfold runWith
  rw [show runWith R n cur s = .ok (s.token, s.span) s from rfl]
  simp only
  cases ht : s.token with
  | ident v k' =>
    simp only
    by_cases hk : k' = k
    · rw [if_pos hk]
      exact capsWarn_core hR hs ht fun s' h1 _ h2 => consume_core h1 h2
    · rw [if_neg hk]
      exact expectedFailure_cw (P := Top) R n s hR hs trivial
  | _ => exact expectedFailure_cw (P := Top) R n s hR hs trivial
theorem ckwsTail_cw {sp : Span} {ks : List Keyword} : Cw E P (ckwsTail sp ks) := by
  induction ks generalizing sp P with
  | nil => exact ret_cw
  | cons k ks ih => exact bind_cw ckw_cw fun _ => ih
theorem ckws_cw {k : Keyword} {ks : List Keyword} : Cw E P (ckws k ks) := bind_cw ckw_cw fun _ => ckwsTail_cw
theorem skw_cw {k : Keyword} : Cw E P (skw k) := by
  intro R n s hR hs hp
  rw [show (skw k : Prog (Option Span)) = Prog.bind cur _ from rfl]
  unfold runWith
  rw [show runWith R n cur s = .ok (s.token, s.span) s from rfl]
  simp only
  cases ht : s.token with
  | ident v k' =>
    simp only
    by_cases hk : k' = k
    · rw [if_pos hk]
      refine capsWarn_core hR hs ht fun s' h1 _ h2 => ?_
      have := consume_core (R := R) (n := n) h1 h2
      show OutW E _ (runWith R n (.bind consume fun s => .ret (some s)) s')
      simp only [runWith]
      revert this
      generalize runWith R n consume s' = o
      cases o <;> exact id
    · rw [if_neg hk]
      exact pure_cw (P := Top) R n s hR hs trivial
  | _ => exact pure_cw (P := Top) R n s hR hs trivial
theorem ctk_cw {t : Token} (h : Unwatched t) : Cw E P (ctk t) :=
  curT_cbind fun _ _ => ite_cw (fun ht => consume_cw (eq_uw ht h)) fun _ => expectedFailure_cw
theorem stk_cw {t : Token} (h : Unwatched t) : Cw E P (stk t) :=
  curT_cbind fun _ _ => ite_cw (fun ht => bind_cw (consume_cw (eq_uw ht h)) fun _ => pure_cw) fun _ => pure_cw
theorem skips_cw {t : Token} (h : Unwatched t) : Cw E P (skips t) := bind_cw (stk_cw h) fun _ => pure_cw
theorem commaList_cw {item : Prog α} (hi : Cw E Top item) : Cw E P (commaList item) := sepLoop_cw (skips_cw rfl) hi
theorem recList_cw {msg : String} {e : Token → Bool} {item : Prog α} (hi : Cw E Top item) : Cw E P (recList msg e item) := by
  unfold recList
  exact loop_cw fun acc => bind_cw (recovered_cw hi) fun r => bind_cw (skips_cw rfl) fun _ => pure_cw
theorem manyOpt_cw {p : Prog (Option α)} (h : Cw E Top p) : Cw E P (manyOpt p) := by
  unfold manyOpt
  exact loop_cw fun acc => bind_cw h fun _ => pure_cw
theorem notReserved {v : List Char} {k : Keyword} (h : ¬ k.reserved = true) : ∀ t', t' = .ident v k → Unwatched t' := by
  rintro _ rfl
  show (k.reserved && _) = false
  rw [Bool.not_eq_true] at h
  rw [h]; rfl
theorem ident_cw : Cw E P ident := by
  unfold ident
  refine cur_cbind fun t sp _ => ?_
  simp only
  split
  · next v k _ =>
    refine isPg_cbind ?_
    by_cases hk : k.reserved = true
    · simp only [hk, if_true]
      exact err_cbind
    · simp only [hk, Bool.false_eq_true, if_false]
      refine Still.cbind (Still.ite issueIf_still (when_still err_still)) fun _ => ?_
      exact bind_cw (next_cw (notReserved hk)) fun _ => pure_cw
  · refine isPg_cbind ?_
    exact ite_cw (fun h => by cases h) fun _ => expectedFailure_cw
  · exact expectedFailure_cw
theorem strPair_cw : Cw E P strPair := by
  unfold strPair
  refine cur_cbind fun t sp _ => ?_
  simp only
  split
  · next v hv =>
    refine bind_cw (next_cw (strVal_uw hv)) fun _ => loop_cw fun ab => ?_
    refine cur_cbind fun t' sp' _ => ?_
    simp only
    split
    · next v' hv' => exact bind_cw (next_cw (strVal_uw hv')) fun _ => pure_cw
    · exact pure_cw
  · exact expectedFailure_cw
theorem string_cw : Cw E P string := bind_cw strPair_cw fun _ => pure_cw
theorem int_cw {max : Nat} : Cw E P (int max) := by
  unfold int
  refine cur_cbind fun t sp _ => ?_
  simp only
  split
  · refine (when_still err_still).cbind fun _ => bind_cw (next_cw ?_) fun _ => pure_cw
    rintro _ rfl; rfl
  · exact expectedFailure_cw
theorem float_cw : Cw E P float := by
  unfold float
  refine cur_cbind fun t sp _ => ?_
  simp only
  split
  · refine bind_cw (next_cw ?_) fun _ => pure_cw
    rintro _ rfl; rfl
  · exact expectedFailure_cw
theorem qualifiedName_cw : Cw E P qualifiedName := by
  unfold qualifiedName
  exact bind_cw ident_cw fun i => loop_cw fun x => bind_cw (stk_cw rfl) fun _ => by
    split
    · exact bind_cw ident_cw fun _ => pure_cw
    · exact pure_cw
theorem kwNode_cw {tbl : List (Keyword × Kind)} : Cw E P (kwNode tbl) := by
  refine curT_cbind fun t _ => ?_
  split
  · exact bind_cw ckw_cw fun _ => pure_cw
  · exact pure_cw
theorem consNode_cw {tbl : List (Keyword × Kind)} (h : tableUnwatched tbl = true) : Cw E P (consNode tbl) := by
  refine curT_cbind fun t _ => ?_
  split
  · next K hK => exact bind_cw (consume_cw (tableFind_uw hK h)) fun _ => pure_cw
  · exact pure_cw

end SqlParse
