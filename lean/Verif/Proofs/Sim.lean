import Verif.Proofs.Meta
/-!
Two runs of the same program: fuel does not matter once a run finishes; runs from related states stay
related.
-/
namespace SqlParse

/-! ### Fuel -/

/-- `o` is `o'`, unless it is unfinished. -/
def OutLe {α : Type} (o o' : Out α) : Prop := o = .oof ∨ o = o'

theorem OutLe.refl {α : Type} (o : Out α) : OutLe o o := .inr rfl

def CallsLe (R R' : ∀ α, Fn α → St → Out α) : Prop := ∀ α (f : Fn α) s, OutLe (R α f s) (R' α f s)

theorem loopN_le {σ β : Type} {step step' : σ → St → Out (Step σ β)} (h : ∀ x s, OutLe (step x s) (step' x s))
    {n n' : Nat} (hn : n ≤ n') (x : σ) (s : St) : OutLe (loopN step n x s) (loopN step' n' x s) := by
  induction n generalizing n' x s with
  | zero => exact .inl rfl
  | succ n ih =>
    obtain ⟨m, rfl⟩ : ∃ m, n' = m + 1 := ⟨n' - 1, by omega⟩
    unfold loopN
    rcases h x s with h | h
    · rw [h]; exact .inl rfl
    · rw [← h]
      split
      · exact ih (by omega) _ _
      all_goals exact .inr rfl

theorem runWith_le {R R' : ∀ α, Fn α → St → Out α} (hR : CallsLe R R') {n n' : Nat} (hn : n ≤ n') {α : Type}
    (p : Prog α) (s : St) : OutLe (runWith R n p s) (runWith R' n' p s) := by
  induction p generalizing s with
  | ret a => exact .inr rfl
  | bind p f ihp ihf =>
    unfold runWith
    rcases ihp s with h | h
    · rw [h]; exact .inl rfl
    · rw [← h]
      split
      · exact ihf _ _
      all_goals exact .inr rfl
  | op o => exact .inr rfl
  | throw => exact .inr rfl
  | tryP p ih =>
    unfold runWith
    rcases ih s with h | h
    · rw [h]; exact .inl rfl
    · rw [← h]; exact .inr rfl
  | loop body x ih => exact loopN_le ih hn x s
  | call f => exact hR _ f s
  | panic m => exact .inr rfl

theorem runFn_le {n n' : Nat} (hn : n ≤ n') : CallsLe (runFn n) (runFn n') := by
  induction n generalizing n' with
  | zero => intro α f s; exact .inl rfl
  | succ n ih =>
    obtain ⟨m, rfl⟩ : ∃ m, n' = m + 1 := ⟨n' - 1, by omega⟩
    intro α f s
    exact runWith_le (ih (by omega)) (by omega) (body f) s

theorem run_le {n n' : Nat} (hn : n ≤ n') {α : Type} (p : Prog α) (s : St) : OutLe (p.run n s) (p.run n' s) :=
  runWith_le (runFn_le hn) hn p s

/-! ### Related states -/

/-- Two outcomes agree up to the relation `S` on states; panics with a message in `X` are excused. -/
def OutRel (S : St → St → Prop) (X : String → Prop) {α : Type} : Out α → Out α → Prop
  | .ok a s, .ok b t => a = b ∧ S s t
  | .err s, .err t => S s t
  | .oof, .oof => True
  | .panic m, .panic m' => m = m' ∨ X m ∨ X m'
  | .panic m, _ => X m
  | _, .panic m => X m
  | _, _ => False

variable {S : St → St → Prop} {X : String → Prop}

theorem OutRel.panic_left {α : Type} {m : String} (h : X m) (o : Out α) : OutRel S X (.panic m) o := by
  cases o <;> simp [OutRel, h]
theorem OutRel.panic_right {α : Type} {m : String} (h : X m) (o : Out α) : OutRel S X o (.panic m) := by
  cases o <;> simp [OutRel, h]

def CallsRel (S : St → St → Prop) (X : String → Prop) (R : ∀ α, Fn α → St → Out α) : Prop :=
  ∀ α (f : Fn α) s t, S s t → OutRel S X (R α f s) (R α f t)

def Out.andThen {α β : Type} (o : Out α) (k : α → St → Out β) : Out β :=
  match o with
  | .ok a s' => k a s' | .err s' => .err s' | .panic m => .panic m | .oof => .oof

theorem takeArg_run (s : St) : Op.run .takeArg s =
    (St.next { s with arg := s.arg + 1, argLog := s.argLog ++ [s.span] }).andThen
      (fun _ s' => .ok (s.arg, s.span) s') := by
  simp only [Op.run]
  cases St.next { s with arg := s.arg + 1, argLog := s.argLog ++ [s.span] } <;> rfl

theorem stdin_run {s : St} {d sp lx} (h : s.lx.readStdin = some (d, sp, lx)) : Op.run .stdin s =
    (St.next { s with lx := lx, dataLog := s.dataLog ++ [(s.span, d, sp)] }).andThen (fun _ s' => .ok (d, sp) s') := by
  simp only [Op.run, h]
  cases St.next { s with lx := lx, dataLog := s.dataLog ++ [(s.span, d, sp)] } <;> rfl

theorem bind_rel {α β : Type} {o o' : Out α} (h : OutRel S X o o') {k k' : α → St → Out β}
    (hk : ∀ a s t, S s t → OutRel S X (k a s) (k' a t)) :
    OutRel S X (o.andThen k) (o'.andThen k') := by
  unfold Out.andThen
  cases o with
  | ok a s =>
    cases o' with
    | ok b t => obtain ⟨rfl, h⟩ := h; exact hk _ _ _ h
    | err t => exact absurd h (by simp [OutRel])
    | panic m => exact .panic_right h _
    | oof => exact absurd h (by simp [OutRel])
  | err s =>
    cases o' with
    | ok b t => exact absurd h (by simp [OutRel])
    | err t => exact h
    | panic m => exact h
    | oof => exact absurd h (by simp [OutRel])
  | panic m =>
    cases o' with
    | ok b t => exact .panic_left h _
    | err t => exact h
    | panic m => exact h
    | oof => exact h
  | oof =>
    cases o' with
    | ok b t => exact absurd h (by simp [OutRel])
    | err t => exact absurd h (by simp [OutRel])
    | panic m => exact h
    | oof => exact h

theorem loopN_rel {σ β : Type} {step : σ → St → Out (Step σ β)}
    (h : ∀ x s t, S s t → OutRel S X (step x s) (step x t)) (n : Nat) (x : σ) (s t : St) (hs : S s t) :
    OutRel S X (loopN step n x s) (loopN step n x t) := by
  induction n generalizing x s t with
  | zero => trivial
  | succ n ih =>
    have h1 := h x s t hs
    have key : ∀ s, loopN step (n + 1) x s = (step x s).andThen
        (fun a s' => match a with | .cont y => loopN step n y s' | .done b => .ok b s') := by
      intro s
      conv => lhs; unfold loopN
      unfold Out.andThen
      cases step x s with
      | ok a s' => cases a <;> rfl
      | err s' => rfl
      | panic m => rfl
      | oof => rfl
    rw [key, key]
    refine bind_rel h1 ?_
    intro a s t hst
    cases a with
    | cont y => exact ih _ _ _ hst
    | done b => exact ⟨rfl, hst⟩

theorem runWith_rel (hop : ∀ {α : Type} (o : Op α) (s t : St), S s t → OutRel S X (o.run s) (o.run t))
    {R : ∀ α, Fn α → St → Out α} (hR : CallsRel S X R) (n : Nat) {α : Type} (p : Prog α) (s t : St) (hs : S s t) :
    OutRel S X (runWith R n p s) (runWith R n p t) := by
  induction p generalizing s t with
  | ret a => exact ⟨rfl, hs⟩
  | bind p f ihp ihf =>
    unfold runWith
    exact bind_rel (ihp s t hs) (fun a s t hst => ihf a s t hst)
  | op o => exact hop o s t hs
  | throw => exact hs
  | @tryP α p ih =>
    have h := ih s t hs
    unfold runWith
    revert h
    generalize runWith R n p s = o
    generalize runWith R n p t = o'
    intro h
    cases o <;> cases o' <;> simp_all [OutRel]
  | loop body x ih => exact loopN_rel ih n x s t hs
  | call f => exact hR _ f s t hs
  | panic m => exact .inl rfl

theorem runFn_rel (hop : ∀ {α : Type} (o : Op α) (s t : St), S s t → OutRel S X (o.run s) (o.run t)) (n : Nat) :
    CallsRel S X (runFn n) := by
  induction n with
  | zero => intro α f s t _; trivial
  | succ n ih => intro α f s t hs; exact runWith_rel hop ih n (body f) s t hs

theorem run_rel (hop : ∀ {α : Type} (o : Op α) (s t : St), S s t → OutRel S X (o.run s) (o.run t)) (n : Nat) {α : Type}
    (p : Prog α) (s t : St) (hs : S s t) : OutRel S X (p.run n s) (p.run n t) :=
  runWith_rel hop (runFn_rel hop n) n p s t hs

/-! ### Earlier issues are never read (C15) -/

/-- The states differ only in the issues present before: `s` has `l1`, `t` has `l2`. -/
def SameBut (l1 l2 : List Issue) (s t : St) : Prop :=
  ∃ l, s.issues = l1 ++ l ∧ t = { s with issues := l2 ++ l }

theorem next_sameBut {l1 l2 : List Issue} {s t : St} (h : SameBut l1 l2 s t) :
    OutRel (SameBut l1 l2) (fun _ => False) s.next t.next := by
  obtain ⟨l, h1, rfl⟩ := h
  unfold St.next
  simp only
  cases hp : s.peeked with
  | some p => exact ⟨rfl, l, h1, rfl⟩
  | none =>
    simp only
    cases s.lx.nextToken s.checked with
    | ok t sp lx => exact ⟨rfl, l, h1, rfl⟩
    | panic m => exact .inl rfl

theorem issue_sameBut {l1 l2 : List Issue} {s t : St} (h : SameBut l1 l2 s t) (l : Level) (m : Msg) (sp : Span) (fr) :
    OutRel (SameBut l1 l2) (fun _ => False) (s.issue l m sp fr) (t.issue l m sp fr) := by
  obtain ⟨l', h1, rfl⟩ := h
  unfold St.issue
  simp only
  split
  · next seg fs _ _ => exact ⟨rfl, l' ++ [⟨l, m, sp, seg, fs⟩], by simp [h1], by simp⟩
  · exact .inl rfl

theorem op_sameBut {l1 l2 : List Issue} {α : Type} (o : Op α) (s t : St) (h : SameBut l1 l2 s t) :
    OutRel (SameBut l1 l2) (fun _ => False) (o.run s) (o.run t) := by
  cases o with
  | cur => obtain ⟨l, h1, rfl⟩ := h; exact ⟨rfl, l, h1, rfl⟩
  | next => exact next_sameBut h
  | leftParenAhead =>
    obtain ⟨l, h1, rfl⟩ := h
    simp only [Op.run]
    split
    · cases hp : s.peeked with
      | some p => exact ⟨rfl, l, h1, by simp [hp]⟩
      | none =>
        simp only
        cases s.lx.nextToken s.checked with
        | ok t sp lx => exact ⟨rfl, l, h1, rfl⟩
        | panic m => exact .inl rfl
    · exact ⟨rfl, l, h1, rfl⟩
  | issue l m sp fr => exact issue_sameBut h _ _ _ _
  | issueIf f l v sp =>
    simp only [Op.run]
    have : t.opts = s.opts := by obtain ⟨l, h1, rfl⟩ := h; rfl
    rw [this]
    split
    · exact issue_sameBut h _ _ _ _
    · exact ⟨rfl, h⟩
  | takeArg =>
    rw [takeArg_run, takeArg_run]
    have h0 : SameBut l1 l2 { s with arg := s.arg + 1, argLog := s.argLog ++ [s.span] }
        { t with arg := t.arg + 1, argLog := t.argLog ++ [t.span] } := by
      obtain ⟨l, h1, rfl⟩ := h; exact ⟨l, h1, rfl⟩
    refine bind_rel (next_sameBut h0) (k := fun _ s' => .ok (s.arg, s.span) s') (k' := fun _ s' => .ok (t.arg, t.span) s') ?_
    intro _ s' t' hst
    obtain ⟨l, h1, rfl⟩ := h
    exact ⟨rfl, hst⟩
  | delim => obtain ⟨l, h1, rfl⟩ := h; exact ⟨rfl, l, h1, rfl⟩
  | setDelim d => obtain ⟨l, h1, rfl⟩ := h; exact ⟨rfl, l, h1, rfl⟩
  | permit => obtain ⟨l, h1, rfl⟩ := h; exact ⟨rfl, l, h1, rfl⟩
  | setPermit b => obtain ⟨l, h1, rfl⟩ := h; exact ⟨rfl, l, h1, rfl⟩
  | dialect => obtain ⟨l, h1, rfl⟩ := h; exact ⟨rfl, l, h1, rfl⟩
  | arguments => obtain ⟨l, h1, rfl⟩ := h; exact ⟨rfl, l, h1, rfl⟩
  | listHack => obtain ⟨l, h1, rfl⟩ := h; exact ⟨rfl, l, h1, rfl⟩
  | stdin =>
    have this : t.lx = s.lx := by obtain ⟨l, h1, rfl⟩ := h; rfl
    cases hr : s.lx.readStdin with
    | none => simp only [Op.run, this, hr]; exact .inl rfl
    | some r =>
      obtain ⟨d, sp, lx⟩ := r
      rw [stdin_run hr, stdin_run (this ▸ hr)]
      have h0 : SameBut l1 l2 { s with lx := lx, dataLog := s.dataLog ++ [(s.span, d, sp)] } { t with lx := lx, dataLog := t.dataLog ++ [(t.span, d, sp)] } := by
        obtain ⟨l, h1, rfl⟩ := h; exact ⟨l, h1, rfl⟩
      exact bind_rel (next_sameBut h0) (k := fun _ s' => .ok (d, sp) s') (k' := fun _ s' => .ok (d, sp) s')
        (fun _ _ _ hst => ⟨rfl, hst⟩)

/-! ### The warning flags (C14) -/

/-- The states differ only in the two warning flags and in the issues. -/
def SameButWarn (s t : St) : Prop :=
  ∃ wu wc l, t = { s with opts := { s.opts with warnUnquoted := wu, warnCaps := wc }, issues := l }

/-- The excused message: an issue could not be created because its span is not a span of the source. -/
def isSlice (m : String) : Prop := m = "slice"

theorem next_warn {s t : St} (h : SameButWarn s t) : OutRel SameButWarn isSlice s.next t.next := by
  obtain ⟨wu, wc, l, rfl⟩ := h
  unfold St.next
  simp only
  cases hp : s.peeked with
  | some p => exact ⟨rfl, wu, wc, l, rfl⟩
  | none =>
    simp only
    cases s.lx.nextToken s.checked with
    | ok t sp lx => exact ⟨rfl, wu, wc, l, rfl⟩
    | panic m => exact .inl rfl

theorem issue_warn_left {s t : St} (h : SameButWarn s t) (l : Level) (m : Msg) (sp : Span) (fr) :
    OutRel SameButWarn isSlice (s.issue l m sp fr) (.ok () t) := by
  unfold St.issue
  split
  · next seg fs _ _ =>
    obtain ⟨wu, wc, l', rfl⟩ := h
    exact ⟨rfl, wu, wc, l', rfl⟩
  · exact (rfl : isSlice _)

theorem issue_warn_right {s t : St} (h : SameButWarn s t) (l : Level) (m : Msg) (sp : Span) (fr) :
    OutRel SameButWarn isSlice (.ok () s) (t.issue l m sp fr) := by
  unfold St.issue
  split
  · next seg fs _ _ =>
    obtain ⟨wu, wc, l', rfl⟩ := h
    exact ⟨rfl, wu, wc, _, rfl⟩
  · exact (rfl : isSlice _)

theorem issue_warn {s t : St} (h : SameButWarn s t) (l : Level) (m : Msg) (sp : Span) (fr) :
    OutRel SameButWarn isSlice (s.issue l m sp fr) (t.issue l m sp fr) := by
  unfold St.issue
  split
  · next seg fs _ _ =>
    split
    · obtain ⟨wu, wc, l', rfl⟩ := h
      exact ⟨rfl, wu, wc, _, rfl⟩
    · exact (rfl : isSlice _)
  · split
    · exact (rfl : isSlice _)
    · exact .inl rfl

theorem op_warn {α : Type} (o : Op α) (s t : St) (h : SameButWarn s t) :
    OutRel SameButWarn isSlice (o.run s) (o.run t) := by
  cases o with
  | cur => obtain ⟨wu, wc, l, rfl⟩ := h; exact ⟨rfl, wu, wc, l, rfl⟩
  | next => exact next_warn h
  | leftParenAhead =>
    obtain ⟨wu, wc, l, rfl⟩ := h
    simp only [Op.run]
    split
    · cases hp : s.peeked with
      | some p => exact ⟨rfl, wu, wc, l, by simp [hp]⟩
      | none =>
        simp only
        cases s.lx.nextToken s.checked with
        | ok t sp lx => exact ⟨rfl, wu, wc, l, rfl⟩
        | panic m => exact .inl rfl
    · exact ⟨rfl, wu, wc, l, rfl⟩
  | issue l m sp fr => exact issue_warn h _ _ _ _
  | issueIf f l v sp =>
    simp only [Op.run]
    split <;> split
    · exact issue_warn h _ _ _ _
    · exact issue_warn_left h _ _ _ _
    · exact issue_warn_right h _ _ _ _
    · exact ⟨rfl, h⟩
  | takeArg =>
    rw [takeArg_run, takeArg_run]
    have h0 : SameButWarn { s with arg := s.arg + 1, argLog := s.argLog ++ [s.span] }
        { t with arg := t.arg + 1, argLog := t.argLog ++ [t.span] } := by
      obtain ⟨wu, wc, l, rfl⟩ := h; exact ⟨wu, wc, l, rfl⟩
    refine bind_rel (next_warn h0) (k := fun _ s' => .ok (s.arg, s.span) s') (k' := fun _ s' => .ok (t.arg, t.span) s') ?_
    intro _ s' t' hst
    obtain ⟨wu, wc, l, rfl⟩ := h
    exact ⟨rfl, hst⟩
  | delim => obtain ⟨wu, wc, l, rfl⟩ := h; exact ⟨rfl, wu, wc, l, rfl⟩
  | setDelim d => obtain ⟨wu, wc, l, rfl⟩ := h; exact ⟨rfl, wu, wc, l, rfl⟩
  | permit => obtain ⟨wu, wc, l, rfl⟩ := h; exact ⟨rfl, wu, wc, l, rfl⟩
  | setPermit b => obtain ⟨wu, wc, l, rfl⟩ := h; exact ⟨rfl, wu, wc, l, rfl⟩
  | dialect => obtain ⟨wu, wc, l, rfl⟩ := h; exact ⟨rfl, wu, wc, l, rfl⟩
  | arguments => obtain ⟨wu, wc, l, rfl⟩ := h; exact ⟨rfl, wu, wc, l, rfl⟩
  | listHack => obtain ⟨wu, wc, l, rfl⟩ := h; exact ⟨rfl, wu, wc, l, rfl⟩
  | stdin =>
    have this : t.lx = s.lx := by obtain ⟨wu, wc, l, rfl⟩ := h; rfl
    cases hr : s.lx.readStdin with
    | none => simp only [Op.run, this, hr]; exact .inl rfl
    | some r =>
      obtain ⟨d, sp, lx⟩ := r
      rw [stdin_run hr, stdin_run (this ▸ hr)]
      have h0 : SameButWarn { s with lx := lx, dataLog := s.dataLog ++ [(s.span, d, sp)] } { t with lx := lx, dataLog := t.dataLog ++ [(t.span, d, sp)] } := by
        obtain ⟨wu, wc, l, rfl⟩ := h; exact ⟨wu, wc, l, rfl⟩
      exact bind_rel (next_warn h0) (k := fun _ s' => .ok (d, sp) s') (k' := fun _ s' => .ok (d, sp) s')
        (fun _ _ _ hst => ⟨rfl, hst⟩)

end SqlParse
