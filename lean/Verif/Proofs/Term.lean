import Verif.Proofs.Walk
/-!
Termination.  `mu` is the amount of input that is left.  `Tm m P p D` says that the program `p` terminates, and that
results satisfying `D` are only reached by consuming a token.
-/
namespace SqlParse
variable {m : Bool} {P : Token → Prop} {α β σ : Type} {D : α → Prop} {E : β → Prop}

/-- The input that is left. -/
def mu (s : St) : Nat := (blen s.lx.src - s.span.stop) + (if s.token = .eof then 0 else 1)

theorem eof_end {chk : Bool} {src : List Char} {sp : Span} (h : TokOK chk src .eof sp) : sp.start = blen src ∧ sp.stop = blen src := by
  obtain ⟨a, w, b, h1, h2, h3, h4, h5, -⟩ := h
  obtain ⟨rfl, rfl⟩ := h4
  simp at h1 h3
  subst h1
  exact ⟨h2, h3⟩

theorem eof_of_start {chk : Bool} {src : List Char} {t : Token} {sp : Span} (h : TokOK chk src t sp)
    (hs : blen src ≤ sp.start) : t = .eof := by
  obtain ⟨a, w, b, h1, h2, h3, h4, h5, -⟩ := h
  refine h5.2 ?_
  cases w with
  | nil => rfl
  | cons c w =>
    subst h1
    have := utf8Size_pos c
    simp at hs
    omega

theorem mu_mono {s s' : St} (h : BInv s) (h' : BInv s') (hm : Mono s s') : mu s' ≤ mu s := by
  unfold mu
  have h1 := hm.stop
  have h2 := hm.start
  rw [hm.src]
  by_cases ht : s.token = .eof
  · have h3 := h.tok
    rw [ht] at h3
    have h4 := eof_end h3
    have h5 : s'.token = .eof := eof_of_start h'.tok (by rw [hm.src]; omega)
    simp [ht, h5]; omega
  · simp only [ht, if_false]
    split <;> omega

theorem mu_next {s s' : St} (h : BInv s) (ht : s.token ≠ .eof) (heq : s.next = .ok () s') : mu s' < mu s := by
  have h1 := next_ok h heq
  have h2 := next_good h
  rw [heq] at h2
  have h3 := h2.2.src
  have h4 := h2.1.tok.bounds
  have h5 := h2.2.stop
  rw [h3] at h4
  unfold mu
  rw [h3]
  simp only [ht, if_false]
  by_cases ht' : s'.token = .eof
  · simp [ht']; omega
  · have := h1.2.2.2.2.2.2.2 ht'
    simp [ht']; omega

/-- The calls that are allowed: `k` bounds the input left. -/
structure Calls (R : ∀ α, Fn α → St → Out α) (n k : Nat) : Prop where
  good : CallsGood R
  fin : ∀ α (f : Fn α) s, BInv s → mu s < k → R α f s ≠ .oof
  lt : k < n

/-- The outcome of a terminating run. -/
def Fin (D : α → Prop) (s : St) : Out α → Prop
  | .ok a s' => D a → mu s' < mu s
  | .oof => False
  | _ => True

/-- The input that must be left for a program to run: `m` says that something has been consumed. -/
def Left (m : Bool) (s : St) (k : Nat) : Prop := if m then mu s < k else mu s ≤ k

/-- `p` terminates when calls with less than `k` input left do; started with less than `k` (`m = true`) or at most `k`
(`m = false`) left, at a token satisfying `P`.  A result satisfying `D` needs a consumed token. -/
def Tm (m : Bool) (P : Token → Prop) (p : Prog α) (D : α → Prop) : Prop :=
  ∀ R n k s, Calls R n k → BInv s → P s.token → Left m s k → Fin D s (runWith R n p s)

/-- No condition. -/
def Top {α : Type} : α → Prop := fun _ => True
/-- Never. -/
def Bot {α : Type} : α → Prop := fun _ => False
/-- The loop goes on. -/
def IsCont {σ β : Type} : Step σ β → Prop
  | .cont _ => True
  | .done _ => False
/-- There is a value. -/
def IsSome {α : Type} : Option α → Prop
  | some _ => True
  | none => False
/-- The Boolean is true. -/
def IsTrue (b : Bool) : Prop := b = true

theorem Left.le {s : St} {k : Nat} (h : Left m s k) : mu s ≤ k := by
  unfold Left at h; split at h <;> omega

theorem Left.mono {s s' : St} {k : Nat} (h : Left m s k) (hl : mu s' ≤ mu s) : Left m s' k := by
  unfold Left at *; split at h <;> simp_all <;> omega

theorem Left.lt {m' : Bool} {s s' : St} {k : Nat} (h : Left m s k) (hl : mu s' < mu s) : Left m' s' k := by
  have := h.le
  cases m' <;> simp [Left] <;> omega

theorem Left.up {s : St} {k : Nat} (h : Left m s k) : Left false s k := by
  have := h.le; simpa [Left]

theorem Tm.weaken {Q : Token → Prop} {D' : α → Prop} {p : Prog α} (h : Tm m Q p D) (hP : ∀ t, P t → Q t) (hD : ∀ a, D' a → D a) :
    Tm m P p D' := by
  intro R n k s hR hs ht hl
  have := h R n k s hR hs (hP _ ht) hl
  revert this
  unfold Fin
  split
  · exact fun h h' => h (hD _ h')
  · exact id
  · exact fun _ => trivial

/-- Forget about progress. -/
theorem Tm.bot {p : Prog α} (h : Tm m Top p D) : Tm m P p Bot := h.weaken (fun _ _ => trivial) (fun _ h => h.elim)

/-- The weakest start. -/
theorem Tm.gen {p : Prog α} (h : Tm false P p D) : Tm m P p D := fun R n k s hR hs ht hl => h R n k s hR hs ht hl.up

theorem Tm.at {p : Prog α} (h : Tm m Top p D) : Tm m P p D := h.weaken (fun _ _ => trivial) (fun _ h => h)

theorem run_mu {R : ∀ α, Fn α → St → Out α} (hR : CallsGood R) {n : Nat} {p : Prog α} {s s' : St} {a : α} (hs : BInv s)
    (h : runWith R n p s = .ok a s') : BInv s' ∧ mu s' ≤ mu s := by
  have := runWith_good hR n p s hs
  rw [h] at this
  exact ⟨this.1, mu_mono hs this.1 this.2⟩

theorem run_mu_err {R : ∀ α, Fn α → St → Out α} (hR : CallsGood R) {n : Nat} {p : Prog α} {s s' : St} (hs : BInv s)
    (h : runWith R n p s = .err s') : BInv s' ∧ mu s' ≤ mu s := by
  have := runWith_good hR n p s hs
  rw [h] at this
  exact ⟨this.1, mu_mono hs this.1 this.2⟩

/-- General rule for sequencing. -/
theorem bind_gen {p : Prog α} {f : α → Prog β} {m' : α → Bool} {E' : α → β → Prop} (h : Tm m P p D)
    (hm : ∀ a, ¬ D a → m' a = true → m = true) (hE : ∀ a b, ¬ D a → E b → E' a b)
    (hf : ∀ a, Tm (m' a) Top (f a) (E' a)) : Tm m P (.bind p f) E := by
  intro R n k s hR hs ht hl
  have h1 := h R n k s hR hs ht hl
  unfold runWith
  split
  · next a s' heq =>
    rw [heq] at h1
    obtain ⟨hs', hmu⟩ := run_mu hR.good hs heq
    have hl' : Left (m' a) s' k := by
      by_cases hd : D a
      · exact hl.lt (h1 hd)
      · by_cases hm' : m' a = true
        · rw [hm']
          have := hm a hd hm'
          subst this
          exact hl.mono hmu
        · simp only [Bool.not_eq_true] at hm'
          rw [hm']
          exact (hl.mono hmu).up
    have h2 := hf a R n k s' hR hs' trivial hl'
    revert h2
    unfold Fin
    split
    · intro h2 he
      by_cases hd : D a
      · next b s2 heq2 =>
        have := (run_mu hR.good hs' heq2).2
        have := h1 hd
        omega
      · have := h2 (hE _ _ hd he)
        omega
    · exact id
    · exact fun _ => trivial
  · trivial
  · trivial
  · next heq => rw [heq] at h1; exact h1

/-- Sequencing without progress in the first program. -/
theorem bind_tm {p : Prog α} {f : α → Prog β} (h : Tm m P p Bot) (hf : ∀ a, Tm m Top (f a) E) : Tm m P (p >>= f) E :=
  bind_gen (m' := fun _ => m) (E' := fun _ => E) h (fun _ _ h => h) (fun _ _ _ h => h) hf

/-- Sequencing after progress. -/
theorem bind_pr {p : Prog α} {f : α → Prog β} (h : Tm m P p Top) (hf : ∀ a, Tm true Top (f a) Bot) : Tm m P (p >>= f) E :=
  bind_gen (m' := fun _ => true) (E' := fun _ => Bot) h (fun _ h => (h trivial).elim) (fun _ _ h => (h trivial).elim) hf

theorem bind_po {p : Prog (Option α)} {f : Option α → Prog β} (h : Tm m P p IsSome) (hf : ∀ a, Tm true Top (f (some a)) Bot)
    (hn : Tm m Top (f none) E) : Tm m P (p >>= f) E := by
  refine bind_gen (m' := fun a => match a with | some _ => true | none => m) (E' := fun a => match a with | some _ => Bot | none => E)
    h ?_ ?_ ?_
  · intro a h1 h2
    cases a with
    | some a => exact (h1 trivial).elim
    | none => exact h2
  · intro a b h1 h2
    cases a with
    | some a => exact (h1 trivial).elim
    | none => exact h2
  · intro a
    cases a with
    | some a => exact hf a
    | none => exact hn

theorem bind_pb {p : Prog Bool} {f : Bool → Prog β} (h : Tm m P p IsTrue) (hf : Tm true Top (f true) Bot)
    (hn : Tm m Top (f false) E) : Tm m P (p >>= f) E := by
  refine bind_gen (m' := fun a => match a with | true => true | false => m) (E' := fun a => match a with | true => Bot | false => E)
    h ?_ ?_ ?_
  · intro a h1 h2
    cases a with
    | true => exact (h1 rfl).elim
    | false => exact h2
  · intro a b h1 h2
    cases a with
    | true => exact (h1 rfl).elim
    | false => exact h2
  · intro a
    cases a with
    | true => exact hf
    | false => exact hn

theorem ret_tm {a : α} (h : D a → False) : Tm m P (.ret a) D := fun _ _ _ _ _ _ _ _ hd => (h hd).elim
theorem pure_tm {a : α} (h : D a → False) : Tm m P (pure a) D := ret_tm h
theorem throw_tm : Tm m P (.throw : Prog α) D := fun _ _ _ _ _ _ _ _ => trivial
theorem panic_tm {msg : String} : Tm m P (.panic msg : Prog α) D := fun _ _ _ _ _ _ _ _ => trivial
theorem call_tm {f : Fn α} : Tm true P (.call f) Bot := by
  intro R n k s hR hs ht hl
  have h1 := hR.fin _ f s hs (by simpa [Left] using hl)
  unfold runWith
  unfold Fin
  split
  · exact fun h => h.elim
  · next h => exact h1 h
  · trivial
theorem ite_tm {c : Prop} [Decidable c] {p q : Prog α} (h : c → Tm m P p D) (h' : ¬ c → Tm m P q D) :
    Tm m P (if c then p else q) D := by
  split
  · next hc => exact h hc
  · next hc => exact h' hc

theorem tryP_tm {p : Prog α} (h : Tm m P p Bot) : Tm m P (.tryP p) Bot := by
  intro R n k s hR hs ht hl
  have h1 := h R n k s hR hs ht hl
  unfold runWith
  split
  · exact fun h => h.elim
  · exact fun h => h.elim
  · trivial
  · next heq => rw [heq] at h1; exact h1

theorem tryP_po {p : Prog α} (h : Tm m P p Top) : Tm m P (.tryP p) IsSome := by
  intro R n k s hR hs ht hl
  have h1 := h R n k s hR hs ht hl
  unfold runWith
  split
  · next heq => rw [heq] at h1; exact fun _ => h1 trivial
  · exact fun h => h.elim
  · trivial
  · next heq => rw [heq] at h1; exact h1

theorem loopN_tm {R : ∀ α, Fn α → St → Out α} {n k : Nat} (hR : Calls R n k) {body : σ → Prog (Step σ β)}
    (hb : ∀ x, Tm m Top (body x) IsCont) (j : Nat) (x : σ) (s : St) (hs : BInv s) (hl : Left m s k) (hj : mu s < j) :
    Fin Bot s (loopN (fun x s => runWith R n (body x) s) j x s) := by
  induction j generalizing x s with
  | zero => omega
  | succ j ih =>
    have h1 := hb x R n k s hR hs trivial hl
    unfold loopN
    split
    · next x' s' heq =>
      rw [heq] at h1
      obtain ⟨hs', hmu⟩ := run_mu hR.good hs heq
      have hlt := h1 trivial
      have := ih x' s' hs' (hl.mono hmu) (by omega)
      revert this
      unfold Fin
      split
      · exact fun _ h => h.elim
      · exact id
      · exact fun _ => trivial
    · exact fun h => h.elim
    · trivial
    · trivial
    · next heq => rw [heq] at h1; exact h1

theorem loop_tm {body : σ → Prog (Step σ β)} {x : σ} (hb : ∀ x, Tm m Top (body x) IsCont) : Tm m P (.loop body x) Bot := by
  intro R n k s hR hs ht hl
  unfold runWith
  have := hR.lt
  have := hl.le
  exact loopN_tm hR hb n x s hs hl (by omega)

/-- Nothing is consumed. -/
def StayO (s : St) : Out α → Prop
  | .ok _ s' => s'.token = s.token ∧ s'.span = s.span ∧ s'.lx.src = s.lx.src
  | .oof => False
  | _ => True

/-- The program does not consume anything. -/
def Stay (p : Prog α) : Prop := ∀ R n s, StayO s (runWith R n p s)

theorem Stay.tm {p : Prog α} (h : Stay p) : Tm m P p Bot := by
  intro R n k s hR hs ht hl
  have := h R n s
  revert this
  unfold Fin StayO
  split
  · exact fun _ h => h.elim
  · exact id
  · exact fun _ => trivial

theorem Stay.bind {p : Prog α} {f : α → Prog β} (h : Stay p) (hf : ∀ a, Tm m P (f a) E) : Tm m P (p >>= f) E := by
  intro R n k s hR hs ht hl
  have h1 := h R n s
  show Fin E s (runWith R n (.bind p f) s)
  unfold runWith
  split
  · next a s' heq =>
    rw [heq] at h1
    obtain ⟨hs', -⟩ := run_mu hR.good hs heq
    have hmu : mu s' = mu s := by unfold mu; rw [h1.1, h1.2.1, h1.2.2]
    have hl' : Left m s' k := hl.mono (by omega)
    have h2 := hf a R n k s' hR hs' (by rw [h1.1]; exact ht) hl'
    unfold Fin at h2 ⊢
    rw [hmu] at h2
    exact h2
  · trivial
  · trivial
  · next heq => rw [heq] at h1; exact h1

theorem Stay.seq {p : Prog α} {f : α → Prog β} (h : Stay p) (hf : ∀ a, Stay (f a)) : Stay (p >>= f) := by
  intro R n s
  have h1 := h R n s
  show StayO s (runWith R n (.bind p f) s)
  unfold runWith
  split
  · next a s1 heq =>
    rw [heq] at h1
    have h2 := hf a R n s1
    revert h2
    cases runWith R n (f a) s1 with
    | ok b s2 => exact fun h2 => ⟨h2.1.trans h1.1, h2.2.1.trans h1.2.1, h2.2.2.trans h1.2.2⟩
    | err s2 => exact id
    | panic _ => exact id
    | oof => exact id
  · trivial
  · trivial
  · next heq => rw [heq] at h1; exact h1

theorem Stay.ret {a : α} : Stay (.ret a) := fun _ _ _ => ⟨rfl, rfl, rfl⟩
theorem Stay.pure {a : α} : Stay (pure a) := fun _ _ _ => ⟨rfl, rfl, rfl⟩
theorem Stay.throw : Stay (.throw : Prog α) := fun _ _ _ => trivial
theorem Stay.panic {msg : String} : Stay (.panic msg : Prog α) := fun _ _ _ => trivial
theorem Stay.ite {c : Prop} [Decidable c] {p q : Prog α} (h : Stay p) (h' : Stay q) : Stay (if c then p else q) := by
  split
  · exact h
  · exact h'

theorem stay_issue {s : St} {l : Level} {msg : Msg} {sp : Span} {fr : List (String × Span)} :
    StayO s (s.issue l msg sp fr) := by
  unfold St.issue
  split
  · exact ⟨rfl, rfl, rfl⟩
  · trivial

theorem cur_stay : Stay cur := fun _ _ _ => ⟨rfl, rfl, rfl⟩
theorem curT_stay : Stay curT := cur_stay.seq fun _ => Stay.pure
theorem curS_stay : Stay curS := cur_stay.seq fun _ => Stay.pure
theorem err_stay {msg : Msg} {sp : Span} {fr} : Stay (err msg sp fr) := fun _ _ _ => stay_issue
theorem warn_stay {msg : Msg} {sp : Span} {fr} : Stay (warn msg sp fr) := fun _ _ _ => stay_issue
theorem issueIf_stay {f : WarnFlag} {l : Level} {v : List Char} {sp : Span} : Stay (issueIf f l v sp) := by
  intro R n s
  show StayO s (if s.opts.flag f then s.issue l (f.msg v) sp [] else .ok () s)
  cases s.opts.flag f
  · exact ⟨rfl, rfl, rfl⟩
  · exact stay_issue
theorem dialect_stay : Stay dialect := fun _ _ _ => ⟨rfl, rfl, rfl⟩
theorem isPg_stay : Stay isPg := dialect_stay.seq fun _ => Stay.pure
theorem isMaria_stay : Stay isMaria := dialect_stay.seq fun _ => Stay.pure
theorem isSqlite_stay : Stay isSqlite := dialect_stay.seq fun _ => Stay.pure
theorem delim_stay : Stay (.op .delim) := fun _ _ _ => ⟨rfl, rfl, rfl⟩
theorem setDelim_stay {t : Token} : Stay (.op (.setDelim t)) := fun _ _ _ => ⟨rfl, rfl, rfl⟩
theorem permit_stay : Stay (.op .permit) := fun _ _ _ => ⟨rfl, rfl, rfl⟩
theorem setPermit_stay {b : Bool} : Stay (.op (.setPermit b)) := fun _ _ _ => ⟨rfl, rfl, rfl⟩
theorem arguments_stay : Stay (.op .arguments) := fun _ _ _ => ⟨rfl, rfl, rfl⟩
theorem listHack_stay : Stay (.op .listHack) := fun _ _ _ => ⟨rfl, rfl, rfl⟩

/-- Peeking needs the invariant (the source stays the same). -/
theorem leftParenAhead_sbind {f : Bool → Prog β} (hf : ∀ a, Tm m P (f a) E) : Tm m P ((Prog.op .leftParenAhead : Prog Bool) >>= f) E := by
  intro R n k s hR hs ht hl
  have hg := op_good .leftParenAhead hs
  show Fin E s (runWith R n (.bind (.op .leftParenAhead) f) s)
  have h2 : (match Op.run .leftParenAhead s with | .ok _ s' => s'.token = s.token ∧ s'.span = s.span | .oof => False | _ => True) := ?_
  · unfold runWith
    rw [show runWith R n (Prog.op .leftParenAhead) s = Op.run .leftParenAhead s from rfl]
    revert h2 hg
    cases Op.run .leftParenAhead s with
    | ok a s' =>
      intro h1 h2
      have hmu : mu s' = mu s := by unfold mu; rw [h2.1, h2.2, h1.2.src]
      have h3 := hf a R n k s' hR h1.1 (by rw [h2.1]; exact ht) (hl.mono (by omega))
      unfold Fin at h3 ⊢
      rw [hmu] at h3
      exact h3
    | err s' => exact fun _ _ => trivial
    | panic _ => exact fun _ _ => trivial
    | oof => exact fun _ => id
  simp only [Op.run]
  by_cases h1 : s.token.isKw .LEFT = true
  · rw [if_pos h1]
    cases s.peeked with
    | some p => exact ⟨rfl, rfl⟩
    | none =>
      simp only
      cases s.lx.nextToken s.checked with
      | ok t sp lx => exact ⟨rfl, rfl⟩
      | panic msg => trivial
  · rw [if_neg h1]; exact ⟨rfl, rfl⟩

theorem when_stay {c : Bool} {p : Prog Unit} (h : Stay p) : Stay (Prog.when c p) := by
  unfold Prog.when; split
  · exact h
  · exact Stay.ret
theorem expectedError_stay {msg : Wanted} : Stay (expectedError msg) := curS_stay.seq fun _ => err_stay
theorem expectedFailure_stay {msg : Wanted} : Stay (expectedFailure msg : Prog α) := expectedError_stay.seq fun _ => Stay.throw
theorem errHere_stay {msg : String} : Stay (errHere msg : Prog α) := curS_stay.seq fun _ => err_stay.seq fun _ => Stay.throw
theorem expectedFailure_tm {msg : Wanted} : Tm m P (expectedFailure msg : Prog α) D :=
  expectedError_stay.bind fun _ => throw_tm
theorem errHere_tm {msg : String} : Tm m P (errHere msg : Prog α) D :=
  curS_stay.bind fun _ => err_stay.bind fun _ => throw_tm
theorem spanOf_stay [ToF α] {a : α} : Stay (spanOf a) := by
  unfold spanOf
  split
  · exact Stay.ret
  · exact Stay.panic
  · exact Stay.panic
theorem orExpected_stay {o : Option α} {msg : String} : Stay (orExpected o msg) := by
  cases o
  · exact expectedFailure_stay
  · exact Stay.ret
theorem capsWarn_stay {v : List Char} {sp : Span} : Stay (capsWarn v sp) := when_stay issueIf_stay

/-- Reading the token makes it known. -/
theorem cur_sbind {f : Token × Span → Prog β} (hf : ∀ t sp, P t → Tm m (· = t) (f (t, sp)) E) : Tm m P (cur >>= f) E := by
  intro R n k s hR hs ht hl
  exact hf s.token s.span ht R n k s hR hs rfl hl

theorem curT_sbind {f : Token → Prog β} (hf : ∀ t, P t → Tm m (· = t) (f t) E) : Tm m P (curT >>= f) E := by
  intro R n k s hR hs ht hl
  exact hf s.token ht R n k s hR hs rfl hl

/-- `next` consumes a token. -/
theorem next_pr (h : ∀ t, P t → t ≠ .eof) : Tm m P next Top := by
  intro R n k s hR hs ht hl
  show Fin _ s s.next
  cases heq : s.next with
  | ok u s' => exact fun _ => mu_next hs (h _ ht) heq
  | err s' => trivial
  | panic _ => trivial
  | oof =>
    unfold St.next at heq
    split at heq
    · cases heq
    · split at heq <;> cases heq

theorem next_tm : Tm m P next Bot := by
  intro R n k s hR hs ht hl
  show Fin _ s s.next
  cases heq : s.next with
  | ok u s' => exact fun h => h.elim
  | err s' => trivial
  | panic _ => trivial
  | oof =>
    unfold St.next at heq
    split at heq
    · cases heq
    · split at heq <;> cases heq

theorem consume_pr (h : ∀ t, P t → t ≠ .eof) : Tm m P consume Top :=
  curS_stay.bind fun _ => bind_pr (next_pr h) fun _ => pure_tm id
theorem consume_tm : Tm m P consume Bot := curS_stay.bind fun _ => bind_tm next_tm fun _ => pure_tm id

theorem stdin_left {s : St} (hs : BInv s) : Fin (fun _ => s.token ≠ .eof) s (Op.run .stdin s) := by
  simp only [Op.run]
  obtain ⟨d, sp, lx', g1, g2, g3, g4, g5, g6, g7⟩ := readStdin_spec hs.lex
  rw [g1]
  simp only
  have hpos := hs.pos
  have hmu : mu { s with lx := lx', dataLog := s.dataLog ++ [(s.span, d, sp)] } = mu s := by unfold mu; simp only [g3]
  cases hp : s.peeked with
  | none =>
    have h0 : BInv { s with lx := lx', dataLog := s.dataLog ++ [(s.span, d, sp)] } :=
      ⟨g2, by simpa [g3] using hs.tok, by show s.span.stop ≤ lx'.pos; omega, by simp [hp]⟩
    rw [← hp]
    cases heq : St.next { s with lx := lx', dataLog := s.dataLog ++ [(s.span, d, sp)] } with
    | ok u s' =>
      intro ht
      have := mu_next h0 ht heq
      omega
    | err s' => trivial
    | panic _ => trivial
    | oof =>
      unfold St.next at heq
      split at heq
      · cases heq
      · split at heq <;> cases heq
  | some q =>
    obtain ⟨t, sp'⟩ := q
    intro ht
    have h1 : s.next = .ok () { s with token := t, span := sp', peeked := none } := by unfold St.next; rw [hp]
    have := mu_next hs ht h1
    show mu { s with token := t, span := sp', peeked := none, lx := lx' } < mu s
    have e : mu { s with token := t, span := sp', peeked := none, lx := lx' } = mu { s with token := t, span := sp', peeked := none } := by
      unfold mu; simp only [g3]
    omega

theorem stdin_pr (h : ∀ t, P t → t ≠ .eof) : Tm m P (.op .stdin) Top := by
  intro R n k s hR hs ht hl
  have := stdin_left hs
  rw [show runWith R n (Prog.op .stdin) s = Op.run .stdin s from rfl]
  revert this
  cases Op.run .stdin s with
  | ok a s' => exact fun h' _ => h' (h _ ht)
  | err s' => exact fun _ => trivial
  | panic _ => exact fun _ => trivial
  | oof => exact id

theorem takeArg_left {s : St} (hs : BInv s) : Fin (fun _ => s.token ≠ .eof) s (Op.run .takeArg s) := by
  simp only [Op.run]
  have h0 : BInv { s with arg := s.arg + 1, argLog := s.argLog ++ [s.span] } := ⟨hs.lex, hs.tok, hs.pos, hs.peek⟩
  cases heq : St.next { s with arg := s.arg + 1, argLog := s.argLog ++ [s.span] } with
  | ok u s' =>
    intro ht
    exact (mu_next h0 ht heq :)
  | err s' => trivial
  | panic _ => trivial
  | oof =>
    unfold St.next at heq
    split at heq
    · cases heq
    · split at heq <;> cases heq

theorem takeArg_pr (h : ∀ t, P t → t ≠ .eof) : Tm m P (.op .takeArg) Top := by
  intro R n k s hR hs ht hl
  have := takeArg_left hs
  rw [show runWith R n (Prog.op .takeArg) s = Op.run .takeArg s from rfl]
  revert this
  cases Op.run .takeArg s with
  | ok a s' => exact fun h' _ => h' (h _ ht)
  | err s' => exact fun _ => trivial
  | panic _ => exact fun _ => trivial
  | oof => exact id

/-! Tokens that are not the end of the input -/
theorem isKw_ne {t : Token} {k : Keyword} (h : t.isKw k = true) : ∀ t', t' = t → t' ≠ .eof := by
  rintro _ rfl rfl; simp [Token.isKw] at h
theorem eq_ne {t u : Token} (h : t = u) (hu : u ≠ .eof) : ∀ t', t' = t → t' ≠ .eof := by
  rintro _ rfl rfl; exact hu h.symm
theorem ne_ne {t : Token} (h : ¬ t = .eof) : ∀ t', t' = t → t' ≠ .eof := by
  rintro _ rfl; exact h

end SqlParse
