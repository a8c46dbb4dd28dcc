import Verif.Proofs.Safe
/-! Rules for `SafeT`. -/
namespace SqlParse

/-- The postcondition of the recursive functions. -/
def FnPost (C : Ctx) : {α : Type} → Fn α → α → Prop
  | _, .expression _, a => good C a
  | _, .compoundQuery, a => good C a
  | _, .statement, a => good C a

def CallsOK (C : Ctx) (R : ∀ α, Fn α → St → Out α) : Prop :=
  ∀ α (f : Fn α) s, Inv C s → Post C s (FnPost C f) (R α f s)

/-- `p`, started on a token satisfying `P`, guarantees `Q` of its result. -/
def SafeT (P : Token → Prop) (C : Ctx) {α : Type} (p : Prog α) (Q : α → Prop) : Prop :=
  ∀ (R : ∀ α, Fn α → St → Out α) (n : Nat), CallsGood R → CallsOK C R → ∀ s, Inv C s → P s.token →
    Post C s Q (runWith R n p s)

/-- `SafeT` with no knowledge about the token. -/
abbrev Safe (C : Ctx) {α : Type} (p : Prog α) (Q : α → Prop) : Prop := SafeT (fun _ => True) C p Q

variable {C : Ctx} {P : Token → Prop} {α β σ : Type}

theorem Safe.at {p : Prog α} {Q : α → Prop} (h : Safe C p Q) : SafeT P C p Q :=
  fun R n h1 h2 s hs _ => h R n h1 h2 s hs trivial

theorem SafeT.imp {p : Prog α} {Q Q' : α → Prop} (h : SafeT P C p Q) (hq : ∀ a, Q a → Q' a) : SafeT P C p Q' := by
  intro R n h1 h2 s hs hP
  have := h R n h1 h2 s hs hP
  revert this
  cases runWith R n p s with
  | ok a s' => intro h hf; obtain ⟨a1, a2, a3⟩ := h hf; exact ⟨a1, hq _ a2, a3⟩
  | err s' => exact id
  | panic m => exact id
  | oof => exact id

theorem ret_safe {a : α} {Q : α → Prop} (h : Q a) : SafeT P C (.ret a) Q :=
  fun _ _ _ _ _ hs _ _ => ⟨hs, h, rfl, .inl rfl⟩

theorem pure_safe {a : α} {Q : α → Prop} (h : Q a) : SafeT P C (pure a : Prog α) Q := ret_safe h

theorem Post.andThen {s s1 : St} {out : Out β} {Q : β → Prop} (h : Post C s1 Q out)
    (hd : s1.delim = s.delim) (hp : Perm C s s1) : Post C s Q out := by
  cases out with
  | ok a s' =>
    intro hf
    obtain ⟨a1, a2, a3, a4⟩ := h hf
    exact ⟨a1, a2, a3.trans hd, hp.trans a4⟩
  | err s' => intro hf; obtain ⟨a1, a2, a3, a4⟩ := h hf; exact ⟨a1, a2, a3.trans hd, hp.trans a4⟩
  | panic m => exact h
  | oof => trivial

/-- Use a conditional invariant of an intermediate state: the future of the rest implies it. -/
theorem Post.cond {s s1 : St} {out : Out β} {Q : β → Prop} (hg : Good s1 out) (hb : BInv s1) (hsrc : s1.lx.src = C.src)
    (h : Fut C s1 → Post C s Q out) : Post C s Q out := by
  cases out with
  | ok a s' => intro hf; exact h (hf.back hg.2) hf
  | err s' => intro hf; exact h (hf.back hg.2) hf
  | panic m => intro ht; exact h (ht.fut hb hsrc) ht
  | oof => trivial

theorem bind'_safe {p : Prog α} {f : α → Prog β} {Q1 : α → Prop} {Q : β → Prop} (hp : SafeT P C p Q1)
    (hf : ∀ a, Q1 a → Safe C (f a) Q) : SafeT P C (.bind p f) Q := by
  intro R n h1 h2 s hs hP
  have h := hp R n h1 h2 s hs hP
  have hg := runWith_good h1 n p s hs.base
  unfold runWith
  revert h hg
  cases runWith R n p s with
  | ok a s1 =>
    intro h hg
    refine Post.cond (runWith_good h1 n (f a) s1 hg.1) hg.1 (hg.2.src.trans hs.src) ?_
    intro hfut
    obtain ⟨a1, a2, a3, a4⟩ := h hfut
    exact (hf a a2 R n h1 h2 s1 a1 trivial).andThen a3 a4
  | err s1 => intro h _; exact h
  | panic m => intro h _; exact h
  | oof => intro _ _; trivial

theorem bind_safe {p : Prog α} {f : α → Prog β} {Q1 : α → Prop} {Q : β → Prop} (hp : SafeT P C p Q1)
    (hf : ∀ a, Q1 a → Safe C (f a) Q) : SafeT P C (p >>= f) Q := bind'_safe hp hf

/-- The rule used by default: the intermediate result is good. -/
theorem bind_good [HasGood α] {p : Prog α} {f : α → Prog β} {Q : β → Prop} (hp : SafeT P C p (good C))
    (hf : ∀ a, good C a → Safe C (f a) Q) : SafeT P C (p >>= f) Q := bind'_safe hp hf

/-- ... for pairs -/
theorem bind_good2 {α' : Type} [HasGood α] [HasGood α'] {p : Prog (α × α')} {f : α × α' → Prog β} {Q : β → Prop}
    (hp : SafeT P C p (fun x => good C x.1 ∧ good C x.2))
    (hf : ∀ a b, good C a → good C b → Safe C (f (a, b)) Q) : SafeT P C (p >>= f) Q :=
  bind'_safe hp (fun x hx => hf x.1 x.2 hx.1 hx.2)

theorem bind'_good [HasGood α] {p : Prog α} {f : α → Prog β} {Q : β → Prop} (hp : SafeT P C p (good C))
    (hf : ∀ a, good C a → Safe C (f a) Q) : SafeT P C (.bind p f) Q := bind'_safe hp hf

theorem throw_safe {Q : α → Prop} (h : C.E) : SafeT P C (.throw : Prog α) Q :=
  fun _ _ _ _ _ hs _ _ => ⟨hs, h, rfl, .inl rfl⟩

theorem ite_safe {c : Prop} [Decidable c] {p q : Prog α} {Q : α → Prop} (h1 : c → SafeT P C p Q)
    (h2 : ¬c → SafeT P C q Q) : SafeT P C (if c then p else q) Q := by
  split
  · exact h1 ‹_›
  · exact h2 ‹_›

theorem tryP'_safe {p : Prog α} {Q : α → Prop} (h : SafeT P C p Q) :
    SafeT P C (.tryP p) (fun o => match o with | some a => Q a | none => C.E) := by
  intro R n h1 h2 s hs hP
  have h := h R n h1 h2 s hs hP
  have hg := runWith_good h1 n p s hs.base
  unfold runWith
  revert h hg
  cases runWith R n p s with
  | ok a s1 => intro h _; exact h
  | err s1 =>
    intro h _ hf
    obtain ⟨a1, a2, a3⟩ := h hf
    exact ⟨a1, a2, a3⟩
  | panic m => intro h _; exact h
  | oof => intro _ _; trivial

theorem tryP_safe [HasGood α] {p : Prog α} (h : SafeT P C p (good C)) :
    SafeT P C (.tryP p) (fun o => good C o ∧ (o = none → C.E)) := by
  refine (tryP'_safe h).imp ?_
  intro o ho
  cases o with
  | some a => exact ⟨ho, by simp⟩
  | none => exact ⟨trivial, fun _ => ho⟩

theorem tryP_bind [HasGood α] {p : Prog α} {f : Option α → Prog β} {Q : β → Prop} (h : SafeT P C p (good C))
    (hf : ∀ o, good C o → (o = none → C.E) → Safe C (f o) Q) : SafeT P C (.tryP p >>= f) Q :=
  bind_safe (tryP_safe h) (fun o ho => hf o ho.1 ho.2)

theorem call_safe {α : Type} (f : Fn α) : SafeT P C (.call f) (FnPost C f) :=
  fun _ _ _ h2 s hs _ => h2 _ f s hs

theorem callExpression_safe (b : Bool) : SafeT P C (.call (.expression b)) (good C) := call_safe _
theorem callCompoundQuery_safe : SafeT P C (.call .compoundQuery) (good C) := call_safe _
theorem callStatement_safe : SafeT P C (.call .statement) (good C) := call_safe _

/-- Loops: `I` is the invariant of the loop state. -/
theorem loop_inv {body : σ → Prog (Step σ β)} {I : σ → Prop} {Q : β → Prop} {x : σ}
    (h : ∀ x, I x → Safe C (body x) (fun r => match r with | .cont y => I y | .done b => Q b)) (hx : I x) :
    SafeT P C (.loop body x) Q := by
  intro R n h1 h2 s hs _
  unfold runWith
  have key : ∀ m x s, I x → Inv C s → Post C s Q (loopN (fun x s => runWith R n (body x) s) m x s) := by
    intro m
    induction m with
    | zero => intro x s _ _; trivial
    | succ m ih =>
      intro x s hx hs
      have h := h x hx R n h1 h2 s hs trivial
      have hg := runWith_good h1 n (body x) s hs.base
      unfold loopN
      revert h hg
      cases runWith R n (body x) s with
      | ok r s1 =>
        intro h hg
        cases r with
        | cont y =>
          refine Post.cond (loopN_good (fun x s hs => runWith_good h1 n (body x) s hs) m y s1 hg.1) hg.1
            (hg.2.src.trans hs.src) ?_
          intro hfut
          obtain ⟨a1, a2, a3, a4⟩ := h hfut
          exact (ih y s1 a2 a1).andThen a3 a4
        | done b => exact h
      | err s1 => intro h _; exact h
      | panic m => intro h _; exact h
      | oof => intro _ _; trivial
  exact key n x s hx hs

theorem loop_safe [HasGood σ] {body : σ → Prog (Step σ β)} {x : σ} [HasGood β]
    (h : ∀ x, good C x → Safe C (body x) (good C)) (hx : good C x) :
    SafeT P C (.loop body x) (good C) := by
  refine loop_inv (I := good C) (fun x hx => (h x hx).imp ?_) hx
  intro r hr
  cases r <;> exact hr

/-! ### Primitive operations -/

theorem spanGood {s : St} (hs : Inv C s) (hf : Fut C s) : GoodSpan C s.span := by
  have hb := hs.base.tok.bounds
  rw [hs.src] at hb
  exact ⟨hb.1, hb.2.1, hb.2.2.1, hf.hi, .inr hs.lo⟩

/-- `cur`: the token and its span. -/
theorem cur_bind {f : Token × Span → Prog β} {Q : β → Prop}
    (h : ∀ t sp, P t → TokOK C.chk C.src t sp → good C sp → SafeT (fun t' => t' = t) C (f (t, sp)) Q) :
    SafeT P C (cur >>= f) Q := by
  intro R n h1 h2 s hs hP
  show Post C s Q (runWith R n (f (s.token, s.span)) s)
  refine Post.cond (runWith_good h1 n _ s hs.base) hs.base hs.src ?_
  intro hfut
  have ht := hs.base.tok
  rw [hs.src, hs.chk] at ht
  exact h s.token s.span hP ht (spanGood hs hfut) R n h1 h2 s hs rfl

theorem curT_bind {f : Token → Prog β} {Q : β → Prop} (h : ∀ t, P t → SafeT (fun t' => t' = t) C (f t) Q) :
    SafeT P C (curT >>= f) Q := by
  intro R n h1 h2 s hs hP
  show Post C s Q (runWith R n (f s.token) s)
  exact h s.token hP R n h1 h2 s hs rfl

theorem curS_bind {f : Span → Prog β} {Q : β → Prop}
    (h : ∀ sp, good C sp → SafeT P C (f sp) Q) : SafeT P C (curS >>= f) Q := by
  intro R n h1 h2 s hs hP
  show Post C s Q (runWith R n (f s.span) s)
  refine Post.cond (runWith_good h1 n _ s hs.base) hs.base hs.src ?_
  intro hfut
  exact h s.span (spanGood hs hfut) R n h1 h2 s hs hP

theorem dialect_bind {f : Dialect → Prog β} {Q : β → Prop} (h : SafeT P C (f C.opts.dialect) Q) :
    SafeT P C (dialect >>= f) Q := by
  intro R n h1 h2 s hs hP
  show Post C s Q (runWith R n (f s.opts.dialect) s)
  rw [hs.opts]; exact h R n h1 h2 s hs hP

theorem isPg_bind {f : Bool → Prog β} {Q : β → Prop}
    (h : ∀ b, (b = true ↔ C.opts.dialect = .postgreSQL) → SafeT P C (f b) Q) : SafeT P C (isPg >>= f) Q := by
  intro R n h1 h2 s hs hP
  show Post C s Q (runWith R n (f (decide (s.opts.dialect = .postgreSQL))) s)
  exact h _ (by rw [hs.opts]; simp) R n h1 h2 s hs hP

theorem isMaria_bind {f : Bool → Prog β} {Q : β → Prop}
    (h : ∀ b, (b = true ↔ C.opts.dialect = .mariaDB) → SafeT P C (f b) Q) : SafeT P C (isMaria >>= f) Q := by
  intro R n h1 h2 s hs hP
  show Post C s Q (runWith R n (f (decide (s.opts.dialect = .mariaDB))) s)
  exact h _ (by rw [hs.opts]; simp) R n h1 h2 s hs hP

theorem isSqlite_bind {f : Bool → Prog β} {Q : β → Prop}
    (h : ∀ b, (b = true ↔ C.opts.dialect = .sqlite) → SafeT P C (f b) Q) : SafeT P C (isSqlite >>= f) Q := by
  intro R n h1 h2 s hs hP
  show Post C s Q (runWith R n (f (decide (s.opts.dialect = .sqlite))) s)
  exact h _ (by rw [hs.opts]; simp) R n h1 h2 s hs hP

theorem arguments_bind {f : Arguments → Prog β} {Q : β → Prop} (h : SafeT P C (f C.opts.arguments) Q) :
    SafeT P C (Prog.op .arguments >>= f) Q := by
  intro R n h1 h2 s hs hP
  show Post C s Q (runWith R n (f s.opts.arguments) s)
  rw [hs.opts]; exact h R n h1 h2 s hs hP

theorem listHack_bind {f : Bool → Prog β} {Q : β → Prop} (h : SafeT P C (f C.opts.listHack) Q) :
    SafeT P C (Prog.op .listHack >>= f) Q := by
  intro R n h1 h2 s hs hP
  show Post C s Q (runWith R n (f s.opts.listHack) s)
  rw [hs.opts]; exact h R n h1 h2 s hs hP

theorem delim_bind {f : Token → Prog β} {Q : β → Prop} (h : ∀ d, SafeT P C (f d) Q) :
    SafeT P C (Prog.op .delim >>= f) Q := by
  intro R n h1 h2 s hs hP
  exact h s.delim R n h1 h2 s hs hP

theorem permit_bind {f : Bool → Prog β} {Q : β → Prop} (h : ∀ d, SafeT P C (f d) Q) :
    SafeT P C (Prog.op .permit >>= f) Q := by
  intro R n h1 h2 s hs hP
  exact h s.permit R n h1 h2 s hs hP

theorem lexPanic {s : St} {m : String} (hs : Inv C s) (h : s.lx.nextToken s.checked = .panic m) : Allowed C m := by
  refine .inr ⟨s.lx, ?_, hs.src, ?_⟩
  · rw [← hs.chk]; exact hs.base.lex
  · rw [← hs.chk]; exact h

theorem leftParenAhead_inv {s : St} (hs : Inv C s) :
    (∃ b s', Op.run .leftParenAhead s = .ok b s' ∧ Inv C s' ∧ s'.token = s.token ∧ s'.delim = s.delim ∧
      s'.permit = s.permit ∧ s'.span = s.span) ∨
    (∃ m, Op.run .leftParenAhead s = .panic m ∧ Allowed C m) := by
  have hg := op_good .leftParenAhead hs.base
  simp only [Op.run] at hg ⊢
  split
  · next hk =>
    simp only [hk, if_true] at hg
    cases hp : s.peeked with
    | some p => exact .inl ⟨_, s, rfl, hs, rfl, rfl, rfl, rfl⟩
    | none =>
      rw [hp] at hg
      cases hn : s.lx.nextToken s.checked with
      | ok t sp lx =>
        rw [hn] at hg
        exact .inl ⟨_, _, rfl, ⟨hg.1, hg.2.src.trans hs.src, hs.isrc, hs.opts, hs.chk, hs.lo, hs.n0, hs.arg, hs.pw, hs.mark, hs.says⟩,
          rfl, rfl, rfl, rfl⟩
      | panic m => exact .inr ⟨m, rfl, lexPanic hs hn⟩
  · exact .inl ⟨_, s, rfl, hs, rfl, rfl, rfl, rfl⟩

theorem runWith_bind {R : ∀ α, Fn α → St → Out α} {n : Nat} {p : Prog α} {f : α → Prog β} {s s' : St} {a : α}
    (h : runWith R n p s = .ok a s') : runWith R n (p >>= f) s = runWith R n (f a) s' := by
  show runWith R n (.bind p f) s = _
  conv => lhs; unfold runWith
  rw [h]

theorem runWith_bind_panic {R : ∀ α, Fn α → St → Out α} {n : Nat} {p : Prog α} {f : α → Prog β} {s : St} {m : String}
    (h : runWith R n p s = .panic m) : runWith R n (p >>= f) s = .panic m := by
  show runWith R n (.bind p f) s = _
  conv => lhs; unfold runWith
  rw [h]

theorem runWith_bind_err {R : ∀ α, Fn α → St → Out α} {n : Nat} {p : Prog α} {f : α → Prog β} {s s' : St}
    (h : runWith R n p s = .err s') : runWith R n (p >>= f) s = .err s' := by
  show runWith R n (.bind p f) s = _
  conv => lhs; unfold runWith
  rw [h]

theorem runWith_op {R : ∀ α, Fn α → St → Out α} {n : Nat} {o : Op α} {s : St} : runWith R n (.op o) s = o.run s := by
  unfold runWith; rfl

theorem leftParenAhead_bind {f : Bool → Prog β} {Q : β → Prop} (h : ∀ b, SafeT P C (f b) Q) :
    SafeT P C (Prog.op .leftParenAhead >>= f) Q := by
  intro R n h1 h2 s hs hP
  rcases leftParenAhead_inv hs with ⟨b, s', g1, g2, g3, g4, g5, g6⟩ | ⟨m, g1, g2⟩
  · rw [runWith_bind (runWith_op.trans g1)]
    exact (h b R n h1 h2 s' g2 (by rw [g3]; exact hP)).andThen g4 (.inl g5)
  · rw [runWith_bind_panic (runWith_op.trans g1)]
    exact fun _ => g2

/-- Everything about one step of `Parser::next`. -/
theorem next_inv {s : St} (hs : Inv C s) :
    (∃ s', s.next = .ok () s' ∧ Inv C s' ∧ s.span.stop ≤ s'.span.start ∧ s'.delim = s.delim ∧ s'.permit = s.permit ∧
      s'.peeked = none ∧ s'.issues = s.issues ∧ s'.argLog = s.argLog ∧ Mono s s') ∨
    (∃ m, s.next = .panic m ∧ Allowed C m) := by
  have hg := next_good hs.base
  cases h : s.next with
  | ok u s' =>
    rw [h] at hg
    obtain ⟨k1, k2, k3, k4, k5, k6, k7, k8⟩ := next_ok hs.base h
    have hm := hg.2
    refine .inl ⟨s', rfl, ⟨hg.1, hm.src.trans hs.src, hm.isrc.trans hs.isrc, hm.opts.trans hs.opts, hm.chk.trans hs.chk, ?_,
      ?_, ?_, ?_, ?_, ?_⟩, k1, k3, k4, k2, k5, k6, hm⟩
    · have := hs.lo; have := hm.start; omega
    · rw [k5]; exact hs.n0
    · rw [k6, k7]; exact hs.arg
    · rw [k6]; exact hs.pw
    · rw [k6]; intro a ha
      obtain ⟨g1, g2⟩ := hs.mark a ha
      have := hm.start
      exact ⟨by omega, g2⟩
    · rw [k5]; exact hs.says
  | err s' =>
    unfold St.next at h
    split at h
    · cases h
    · split at h <;> cases h
  | panic m =>
    refine .inr ⟨m, rfl, ?_⟩
    unfold St.next at h
    split at h
    · cases h
    · split at h
      · cases h
      · next hn => cases h; exact lexPanic hs hn
  | oof =>
    unfold St.next at h
    split at h
    · cases h
    · split at h <;> cases h

theorem next_post {s : St} (hs : Inv C s) : Post C s (fun _ => True) s.next := by
  rcases next_inv hs with ⟨s', h1, h2, h3, h4, h5, -⟩ | ⟨m, h1, h2⟩
  · rw [h1]; exact fun _ => ⟨h2, trivial, h4, .inl h5⟩
  · rw [h1]; exact fun _ => h2

theorem next_safe : SafeT P C next (good C) := by
  intro R n h1 h2 s hs hP
  exact next_post hs

theorem consume_safe' : SafeT P C consume (fun sp => good C sp ∧ ∃ t, P t ∧ TokOK C.chk C.src t sp) := by
  intro R n h1 h2 s hs hP
  show Post C s _ (runWith R n (next >>= fun _ => pure s.span) s)
  refine Post.cond (runWith_good h1 n _ s hs.base) hs.base hs.src ?_
  intro hfut
  have ht := hs.base.tok
  rw [hs.src, hs.chk] at ht
  refine bind_good (P := P) next_safe ?_ R n h1 h2 s hs hP
  intro _ _
  exact pure_safe ⟨spanGood hs hfut, s.token, hP, ht⟩

theorem consume_safe : SafeT P C consume (good C) := consume_safe'.imp (fun _ h => h.1)

end SqlParse
