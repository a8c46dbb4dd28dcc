import Verif.Proofs.SafeExpr
import Verif.Model.DataType
/-! `SafeT` for data_type.rs. -/
namespace SqlParse
variable {C : Ctx} {P : Token → Prop}

/-! ### Spans built from two consecutive reads -/

/-- The span returned starts between the positions before and after. -/
def PosOK (p : Prog Span) : Prop :=
  ∀ R n, CallsGood R → ∀ s, BInv s → ∀ a s', runWith R n p s = .ok a s' →
    s.span.start ≤ a.start ∧ a.start ≤ s'.span.start

theorem consume_pos {R : ∀ α, Fn α → St → Out α} {n : Nat} (h1 : CallsGood R) {s s' : St} (hs : BInv s) {a : Span}
    (h : runWith R n consume s = .ok a s') : a = s.span ∧ s.span.start ≤ s'.span.start := by
  have hg := runWith_good h1 n consume s hs
  rw [h] at hg
  refine ⟨?_, hg.2.start⟩
  have h : runWith R n (next >>= fun _ => pure s.span) s = .ok a s' := h
  cases hn : runWith R n next s with
  | ok u s1 => rw [runWith_bind hn] at h; cases h; rfl
  | err s1 => rw [runWith_bind_err hn] at h; cases h
  | panic m => rw [runWith_bind_panic hn] at h; cases h
  | oof =>
    change runWith R n (.bind next fun _ => pure s.span) s = .ok a s' at h
    unfold runWith at h
    rw [hn] at h
    cases h

theorem expectedFailure_run {R : ∀ α, Fn α → St → Out α} {n : Nat} {α : Type} {m : Wanted} {s s' : St} {a : α} :
    runWith R n (expectedFailure m : Prog α) s ≠ .ok a s' := by
  intro h
  unfold expectedFailure at h
  cases hn : runWith R n (expectedError m) s with
  | ok u s1 => rw [runWith_bind hn] at h; cases h
  | err s1 => rw [runWith_bind_err hn] at h; cases h
  | panic m => rw [runWith_bind_panic hn] at h; cases h
  | oof =>
    change runWith R n (.bind (expectedError m) fun _ => _) s = .ok a s' at h
    unfold runWith at h
    rw [hn] at h
    cases h

theorem capsWarn_run {R : ∀ α, Fn α → St → Out α} {n : Nat} {v : List Char} {sp : Span} {s s' : St}
    (h : runWith R n (capsWarn v sp) s = .ok () s') : s'.span = s.span ∧ s'.token = s.token := by
  unfold capsWarn Prog.when at h
  split at h
  · unfold issueIf at h
    rw [runWith_op] at h
    simp only [Op.run] at h
    split at h
    · unfold St.issue at h
      split at h
      · cases h; exact ⟨rfl, rfl⟩
      · cases h
    · cases h; exact ⟨rfl, rfl⟩
  · unfold runWith at h; cases h; exact ⟨rfl, rfl⟩

theorem ckw_run {R : ∀ α, Fn α → St → Out α} {n : Nat} (h1 : CallsGood R) {k : Keyword} {s s' : St} (hs : BInv s) {a : Span}
    (h : runWith R n (ckw k) s = .ok a s') : a = s.span ∧ s.span.start ≤ s'.span.start := by
  change runWith R n (match s.token with
    | .ident v k' => if k' = k then (capsWarn v s.span >>= fun _ => consume) else expectedFailure (.kw k)
    | _ => expectedFailure (.kw k)) s = .ok a s' at h
  split at h
  · split at h
    · next v k' _ _ =>
      have hg := runWith_good h1 n (capsWarn v s.span) s hs
      cases hn : runWith R n (capsWarn v s.span) s with
      | ok u s1 =>
        rw [runWith_bind hn] at h
        rw [hn] at hg
        obtain ⟨g1, g2⟩ := consume_pos h1 hg.1 h
        obtain ⟨g3, -⟩ := capsWarn_run hn
        rw [g3] at g1 g2
        exact ⟨g1, g2⟩
      | err s1 => rw [runWith_bind_err hn] at h; cases h
      | panic m => rw [runWith_bind_panic hn] at h; cases h
      | oof =>
        change runWith R n (.bind (capsWarn v s.span) fun _ => _) s = .ok a s' at h
        unfold runWith at h
        rw [hn] at h
        cases h
    · exact absurd h expectedFailure_run
  · exact absurd h expectedFailure_run

theorem ckw_pos (k : Keyword) : PosOK (ckw k) := by
  intro R n h1 s hs a s' h
  obtain ⟨rfl, g⟩ := ckw_run h1 hs h
  exact ⟨Nat.le_refl _, g⟩

theorem bind_run {R : ∀ α, Fn α → St → Out α} {n : Nat} {α β : Type} {p : Prog α} {f : α → Prog β} {s s' : St} {b : β}
    (h : runWith R n (p >>= f) s = .ok b s') : ∃ a s1, runWith R n p s = .ok a s1 ∧ runWith R n (f a) s1 = .ok b s' := by
  cases hn : runWith R n p s with
  | ok a s1 => rw [runWith_bind hn] at h; exact ⟨a, s1, rfl, h⟩
  | err s1 => rw [runWith_bind_err hn] at h; cases h
  | panic m => rw [runWith_bind_panic hn] at h; cases h
  | oof =>
    change runWith R n (.bind p f) s = _ at h
    unfold runWith at h
    rw [hn] at h
    cases h

theorem ckws2_pos (k k' : Keyword) : PosOK (ckws k [k']) := by
  intro R n h1 s hs a s' h
  obtain ⟨b, s1, e1, e2⟩ := bind_run (f := fun sp => ckwsTail sp [k']) h
  obtain ⟨c, s2, e3, e4⟩ := bind_run (f := fun x => ckwsTail (joinSpan x b) []) e2
  have hg := runWith_good h1 n (ckw k) s hs
  rw [e1] at hg
  obtain ⟨rfl, g1⟩ := ckw_run h1 hs e1
  obtain ⟨rfl, g2⟩ := ckw_run h1 hg.1 e3
  have : runWith R n (.ret (joinSpan s1.span s.span)) s2 = .ok a s' := e4
  unfold runWith at this
  cases this
  simp only [joinSpan]
  omega

/-- Continue with the knowledge that the position is at least `m`. -/
def SafeFrom (m : Nat) (C : Ctx) {α : Type} (p : Prog α) (Q : α → Prop) : Prop :=
  ∀ (R : ∀ α, Fn α → St → Out α) n, CallsGood R → CallsOK C R → ∀ s, Inv C s → m ≤ s.span.start → Post C s Q (runWith R n p s)

theorem bind_from {α β : Type} {p : Prog α} {f : α → Prog β} {Q1 : α → Prop} {Q : β → Prop} {g : α → Nat}
    (hp : SafeT P C p Q1)
    (hpp : ∀ R n, CallsGood R → ∀ s, BInv s → ∀ a s', runWith R n p s = .ok a s' → g a ≤ s'.span.start)
    (hf : ∀ a, Q1 a → SafeFrom (g a) C (f a) Q) : SafeT P C (p >>= f) Q := by
  intro R n h1 h2 s hs hP
  have h := hp R n h1 h2 s hs hP
  have hg := runWith_good h1 n p s hs.base
  show Post C s Q (runWith R n (.bind p f) s)
  unfold runWith
  revert h hg
  cases hr : runWith R n p s with
  | ok a s1 =>
    intro h hg
    refine Post.cond (runWith_good h1 n (f a) s1 hg.1) hg.1 (hg.2.src.trans hs.src) ?_
    intro hfut
    obtain ⟨a1, a2, a3, a4⟩ := h hfut
    exact (hf a a2 R n h1 h2 s1 a1 (hpp R n h1 s hs.base a s1 hr)).andThen a3 a4
  | err s1 => intro h _; exact h
  | panic m => intro h _; exact h
  | oof => intro _ _; trivial

theorem SafeFrom.bind {α β : Type} {m : Nat} {p : Prog α} {f : α → Prog β} {Q1 : α → Prop} {Q : β → Prop} (hp : SafeFrom m C p Q1)
    (hf : ∀ a, Q1 a → Safe C (f a) Q) : SafeFrom m C (.bind p f) Q := by
  intro R n h1 h2 s hs hP
  have h := hp R n h1 h2 s hs hP
  have hg := runWith_good h1 n p s hs.base
  unfold runWith
  revert h hg
  cases runWith R n p s with
  | ok a s1 =>
    intro h hg
    refine Post.cond (runWith_good h1 n (f a) s1 hg.1) hg.1 (hg.2.src.trans hs.src) ?_
    intro hfut
    obtain ⟨a1, a2, a3, a4⟩ := h hfut
    exact (hf a a2 R n h1 h2 s1 a1 trivial).andThen a3 a4
  | err s1 => intro h _; exact h
  | panic m => intro h _; exact h
  | oof => intro _ _; trivial

theorem spanTo_from {m x : Nat} {q : Prog Span} (hq : Safe C q (good C)) (hqq : PosOK q)
    (hx : x ≤ m) (hb : C.E ∨ C.lo ≤ x) (hxb : Boundary C.src x) :
    SafeFrom m C (q >>= fun b => pure (⟨x, b.stop⟩ : Span)) (good C) := by
  intro R n h1 h2 s hs hm
  have h := hq R n h1 h2 s hs trivial
  show Post C s _ (runWith R n (.bind q _) s)
  unfold runWith
  revert h
  cases hr : runWith R n q s with
  | ok b s1 =>
    intro h hf
    obtain ⟨a1, a2, a3, a4⟩ := h hf
    refine ⟨a1, ?_, a3, a4⟩
    have := (hqq R n h1 s hs.base b s1 hr).1
    have := a2.le
    exact ⟨hxb, a2.b2, by show x ≤ b.stop; omega, a2.hi, hb⟩
  | err s1 => intro h; exact h
  | panic m => intro h; exact h
  | oof => intro _; trivial

theorem span2_safe {p q : Prog Span} (hp : SafeT P C p (good C)) (hpp : PosOK p) (hq : Safe C q (good C)) (hqq : PosOK q) :
    SafeT P C (p >>= fun a => q >>= fun b => pure (⟨a.start, b.stop⟩ : Span)) (good C) :=
  bind_from (g := Span.start) hp (fun R n h1 s hs a s' h => (hpp R n h1 s hs a s' h).2)
    (fun _ ha => spanTo_from hq hqq (Nat.le_refl _) ha.lo ha.b1)

/-! ### data_type.rs -/

theorem zeroSpan_good (hE : C.E) : good C (⟨0, 0⟩ : Span) :=
  ⟨boundary_zero _, boundary_zero _, Nat.le_refl _, Nat.zero_le _, .inl hE⟩

theorem qualifiedName_safe : SafeT P C qualifiedName (good C) := by unfold qualifiedName; walk
theorem parseWidth_safe : SafeT P C parseWidth (good C) := by unfold parseWidth; walk
theorem parseWidthReq_safe : SafeT P C parseWidthReq (good C) := by
  unfold parseWidthReq
  refine curT_bind (fun t hP => ite_safe (fun h => ?_) (fun _ => expectedFailure_safe))
  subst h
  refine bind_safe (Q1 := fun w => good C w ∧ w ≠ none) ?_ (fun w hw => ?_)
  · unfold parseWidth
    refine curT_bind (fun t hP => ite_safe (fun h => ?_) (fun h => absurd hP h))
    refine bind_good ctk_safe (fun _ _ => recovered_bind int_safe (fun o ho hE => bind_good ctk_safe (fun _ _ => pure_safe ⟨?_, by simp⟩)))
    gd
  · cases w with
    | none => exact absurd rfl hw.2
    | some w => exact pure_safe hw.1
theorem enumSetLoop_safe : SafeT P C enumSetLoop (AccPost C) := by
  unfold enumSetLoop
  refine loop_inv (I := good C) ?_ nil_good
  intro acc hacc
  refine tryP_bind string_safe (fun o ho hE => ?_)
  cases o with
  | none => exact pure_safe ⟨hacc, fun _ => hE rfl⟩
  | some s =>
    have hs : good C s := ho
    have h : good C (acc ++ [s]) := by gd
    refine tryP_bind (α := Bool) (by walk) (fun r hr hE' => pure_safe ?_)
    cases r with
    | none => exact ⟨h, fun _ => hE' rfl⟩
    | some b => cases b with
      | true => exact h
      | false => exact ⟨h, by simp⟩
theorem enumSetValues_safe : SafeT P C enumSetValues (good C) := by unfold enumSetValues; walk
theorem typeOf_safe : SafeT P C typeOf (good C) := by unfold typeOf; walk
theorem notNull_safe : SafeT P C notNull (good C) := span2_safe ckw_safe (ckw_pos _) ckw_safe (ckw_pos _)
theorem parenExprOrInvalid_safe : SafeT P C parenExprOrInvalid (good C) := by unfold parenExprOrInvalid; walk
theorem typeProperty_safe {noAs : Bool} : SafeT P C (typeProperty noAs) (good C) := by unfold typeProperty; walk
theorem parseDataType_safe {noAs : Bool} : SafeT P C (parseDataType noAs) (good C) := by unfold parseDataType; walk

end SqlParse
