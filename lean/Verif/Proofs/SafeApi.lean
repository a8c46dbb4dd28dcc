import Verif.Proofs.SafeStatement
import Verif.Proofs.Runs
import Verif.Theorems.Issues
/-! What `parse_statement` and `parse_statements` guarantee.  `SafeW` is like `SafeT`, with conditions on states and
without saying that the delimiter is unchanged. -/
namespace SqlParse
variable {C : Ctx} {α β σ : Type}

def PostW (C : Ctx) (Q : α → St → Prop) : Out α → Prop
  | .ok a s' => Fut C s' → Inv C s' ∧ Q a s'
  | .err s' => Fut C s' → Inv C s' ∧ C.E
  | .panic m => C.Triv → Allowed C m
  | .oof => True

def SafeW (C : Ctx) (P : St → Prop) (p : Prog α) (Q : α → St → Prop) : Prop :=
  ∀ n s, Inv C s → P s → PostW C Q (runWith (runFn n) n p s)

theorem PostW.imp {Q Q' : α → St → Prop} {o : Out α} (h : PostW C Q o) (hq : ∀ a s, Q a s → Q' a s) : PostW C Q' o := by
  cases o with
  | ok a s' => intro hf; exact ⟨(h hf).1, hq _ _ (h hf).2⟩
  | err s' => exact h
  | panic m => exact h
  | oof => trivial

theorem SafeW.imp {P : St → Prop} {p : Prog α} {Q Q' : α → St → Prop} (h : SafeW C P p Q) (hq : ∀ a s, Q a s → Q' a s) :
    SafeW C P p Q' := fun n s hs hP => (h n s hs hP).imp hq

theorem SafeW.pre {P P' : St → Prop} {p : Prog α} {Q : α → St → Prop} (h : SafeW C P p Q) (hp : ∀ s, P' s → P s) :
    SafeW C P' p Q := fun n s hs hP => h n s hs (hp s hP)

theorem SafeW.of {P : St → Prop} {p : Prog α} {Q : α → Prop} (h : Safe C p Q) : SafeW C P p (fun a _ => Q a) := by
  intro n s hs _
  have := h _ n (runFn_good n) (runFn_safe n) s hs trivial
  revert this
  cases runWith (runFn n) n p s with
  | ok a s' => intro h hf; exact ⟨(h hf).1, (h hf).2.1⟩
  | err s' => intro h hf; exact ⟨(h hf).1, (h hf).2.1⟩
  | panic m => exact id
  | oof => exact id

/-- ... with a state predicate that only depends on the position and is monotone. -/
theorem SafeW.ofMono {P : St → Prop} {p : Prog α} {Q : α → Prop} (h : Safe C p Q) (hP : ∀ s s', Mono s s' → P s → P s') :
    SafeW C P p (fun a s => Q a ∧ P s) := by
  intro n s hs hPs
  have := h _ n (runFn_good n) (runFn_safe n) s hs trivial
  have hg := runWith_good (runFn_good n) n p s hs.base
  revert this hg
  cases runWith (runFn n) n p s with
  | ok a s' => intro h hg hf; exact ⟨(h hf).1, (h hf).2.1, hP _ _ hg.2 hPs⟩
  | err s' => intro h _ hf; exact ⟨(h hf).1, (h hf).2.1⟩
  | panic m => intro h _; exact h
  | oof => intro _ _; trivial

/-- ... with what is known of the current token. -/
theorem SafeW.ofT {P P' : St → Prop} {T : Token → Prop} {p : Prog α} {Q : α → Prop} (h : SafeT T C p Q)
    (hT : ∀ s, P s → T s.token ∧ P' s) (hP : ∀ s s', Mono s s' → P' s → P' s') : SafeW C P p (fun a s => Q a ∧ P' s) := by
  intro n s hs hPs
  have := h _ n (runFn_good n) (runFn_safe n) s hs (hT s hPs).1
  have hg := runWith_good (runFn_good n) n p s hs.base
  revert this hg
  cases runWith (runFn n) n p s with
  | ok a s' => intro h hg hf; exact ⟨(h hf).1, (h hf).2.1, hP _ _ hg.2 (hT s hPs).2⟩
  | err s' => intro h _ hf; exact ⟨(h hf).1, (h hf).2.1⟩
  | panic m => intro h _; exact h
  | oof => intro _ _; trivial

theorem PostW.cond {s1 : St} {out : Out β} {Q : β → St → Prop} (hg : Good s1 out) (hb : BInv s1) (hsrc : s1.lx.src = C.src)
    (h : Fut C s1 → PostW C Q out) : PostW C Q out := by
  cases out with
  | ok a s' => intro hf; exact h (hf.back hg.2) hf
  | err s' => intro hf; exact h (hf.back hg.2) hf
  | panic m => intro ht; exact h (ht.fut hb hsrc) ht
  | oof => trivial

theorem SafeW.bind {P : St → Prop} {p : Prog α} {f : α → Prog β} {Q1 : α → St → Prop} {Q : β → St → Prop}
    (hp : SafeW C P p Q1) (hf : ∀ a, SafeW C (Q1 a) (f a) Q) : SafeW C P (p >>= f) Q := by
  intro n s hs hP
  have h := hp n s hs hP
  have hg := runWith_good (runFn_good n) n p s hs.base
  show PostW C Q (runWith (runFn n) n (.bind p f) s)
  unfold runWith
  revert h hg
  cases runWith (runFn n) n p s with
  | ok a s1 =>
    intro h hg
    refine PostW.cond (runWith_good (runFn_good n) n (f a) s1 hg.1) hg.1 (hg.2.src.trans hs.src) ?_
    intro hfut
    exact hf a n s1 (h hfut).1 (h hfut).2
  | err s1 => intro h _; exact h
  | panic m => intro h _; exact h
  | oof => intro _ _; trivial

theorem SafeW.tryP {P : St → Prop} {p : Prog α} {Q : α → St → Prop} (h : SafeW C P p Q) :
    SafeW C P (.tryP p) (fun o s => match o with | some a => Q a s | none => C.E) := by
  intro n s hs hP
  have h := h n s hs hP
  unfold runWith
  revert h
  cases runWith (runFn n) n p s <;> exact id

theorem SafeW.pure {P : St → Prop} {a : α} {Q : α → St → Prop} (h : ∀ s, P s → Q a s) : SafeW C P (pure a : Prog α) Q :=
  fun _ s hs hP _ => ⟨hs, h s hP⟩

theorem SafeW.ite {P : St → Prop} {c : Prop} [Decidable c] {p q : Prog α} {Q : α → St → Prop} (h1 : c → SafeW C P p Q)
    (h2 : ¬c → SafeW C P q Q) : SafeW C P (if c then p else q) Q := by
  split
  · exact h1 ‹_›
  · exact h2 ‹_›

theorem SafeW.loop {body : σ → Prog (Step σ β)} {I : σ → St → Prop} {Q : β → St → Prop} {x : σ}
    (h : ∀ x, SafeW C (I x) (body x) (fun r s => match r with | .cont y => I y s | .done b => Q b s)) :
    SafeW C (I x) (.loop body x) Q := by
  intro n s hs hx
  unfold runWith
  have key : ∀ m x s, I x s → Inv C s → PostW C Q (loopN (fun x s => runWith (runFn n) n (body x) s) m x s) := by
    intro m
    induction m with
    | zero => intro x s _ _; trivial
    | succ m ih =>
      intro x s hx hs
      have h := h x n s hs hx
      have hg := runWith_good (runFn_good n) n (body x) s hs.base
      unfold loopN
      revert h hg
      cases runWith (runFn n) n (body x) s with
      | ok r s1 =>
        intro h hg
        cases r with
        | cont y =>
          refine PostW.cond (loopN_good (fun x s hs => runWith_good (runFn_good n) n (body x) s hs) m y s1 hg.1) hg.1
            (hg.2.src.trans hs.src) ?_
          intro hfut
          exact ih y s1 (h hfut).2 (h hfut).1
        | done b => exact h
      | err s1 => intro h _; exact h
      | panic m => intro h _; exact h
      | oof => intro _ _; trivial
  exact key n x s hx hs

theorem SafeW.curT {P : St → Prop} : SafeW C P curT (fun t s => P s ∧ s.token = t) :=
  fun _ _ hs hP _ => ⟨hs, hP, rfl⟩
theorem SafeW.delim {P : St → Prop} : SafeW C P (.op .delim) (fun t s => P s ∧ s.delim = t) :=
  fun _ _ hs hP _ => ⟨hs, hP, rfl⟩
theorem SafeW.setDelim {P : St → Prop} (hP : ∀ s t, P s → P { s with delim := t }) {t : Token} :
    SafeW C P (.op (.setDelim t)) (fun _ s => P s) :=
  fun _ _ hs hp _ => ⟨hs.setDelim t, hP _ t hp⟩

/-! ### Order of statements -/

/-- Everything stored in `a` lies in `lo..hi`. -/
def Within (lo hi : Nat) (a : Ast) : Prop := ∀ sp, a.HasSpan sp → lo ≤ sp.start ∧ sp.stop ≤ hi

/-- The statements of `l` are in order, the last one ends before `m`. -/
def Ordered (l : List SAst) (m : Nat) : Prop :=
  l.Pairwise (fun a b => a.ast.Before b.ast) ∧ ∀ v ∈ l, ∀ sp, v.ast.HasSpan sp → sp.stop ≤ m

/-- What is known about the statements collected so far. -/
def AccOK (C : Ctx) (acc : List SAst) (m : Nat) : Prop := good C acc ∧ (C.E ∨ Ordered acc m)

theorem AccOK.mono {acc : List SAst} {m m' : Nat} (h : AccOK C acc m) (hm : m ≤ m') : AccOK C acc m' := by
  refine ⟨h.1, ?_⟩
  rcases h.2 with h | h
  · exact .inl h
  · exact .inr ⟨h.1, fun v hv sp hs => Nat.le_trans (h.2 v hv sp hs) hm⟩

theorem AccOK.err {acc : List SAst} {m m' : Nat} (h : AccOK C acc m) (hE : C.E) : AccOK C acc m' := ⟨h.1, .inl hE⟩

theorem AccOK.snoc {acc : List SAst} {m m' : Nat} {v : SAst} (h : AccOK C acc m) (hm : m ≤ m') (hv : good C v)
    (hw : C.E ∨ Within m m' v.ast) : AccOK C (acc ++ [v]) m' := by
  refine ⟨app_good h.1 (cons_good hv nil_good), ?_⟩
  rcases h.2 with h | h
  · exact .inl h
  rcases hw with hw | hw
  · exact .inl hw
  right
  refine ⟨List.pairwise_append.2 ⟨h.1, by simp, ?_⟩, ?_⟩
  · intro a ha b hb
    simp at hb; subst hb
    intro sa sb h1 h2
    exact Nat.le_trans (h.2 a ha sa h1) (hw sb h2).1
  · intro a ha sp hsp
    rcases List.mem_append.1 ha with ha | ha
    · exact Nat.le_trans (h.2 a ha sp hsp) hm
    · simp at ha; subst ha
      exact (hw sp hsp).2

theorem hasSpan_good {a : Ast} (h : AllOK C a) {sp : Span} (hs : a.HasSpan sp) : GoodSpan C sp := by
  rcases hs with hs | ⟨v, hs⟩ | ⟨v, hs⟩
  · exact h _ hs
  · exact (h _ hs).1
  · exact h _ hs

/-- A program that returns a statement: everything stored in it lies between the current token where it
starts and the one where it stops. -/
theorem within_run {p : Prog SAst} (hp : ∀ C, Safe C p (good C)) {m : Nat} :
    SafeW C (fun s => m ≤ s.span.start) p (fun v s => good C v ∧ (C.E ∨ Within m s.span.stop v.ast)) := by
  intro n s hs hm
  have h := hp C _ n (runFn_good n) (runFn_safe n) s hs trivial
  have hg := runWith_good (runFn_good n) n p s hs.base
  cases hr : runWith (runFn n) n p s with
  | ok v s1 =>
    rw [hr] at h hg
    intro hf
    obtain ⟨a1, a2, -⟩ := h hf
    refine ⟨a1, a2, ?_⟩
    let C' : Ctx := { C with lo := s.span.start, hi := s1.span.stop }
    have hs' : Inv C' s :=
      ⟨hs.base, hs.src, hs.isrc, hs.opts, hs.chk, Nat.le_refl _, hs.n0, hs.arg, hs.pw, hs.mark, hs.says⟩
    have h' := hp C' _ n (runFn_good n) (runFn_safe n) s hs' trivial
    rw [hr] at h'
    obtain ⟨b1, b2, -⟩ := h' ⟨hf.err, Nat.le_refl _, hf.arg, hf.say⟩
    by_cases hE : C.E
    · exact .inl hE
    right
    intro sp hsp
    have := hasSpan_good b2.1 hsp
    refine ⟨?_, this.hi⟩
    rcases this.lo with h | h
    · exact absurd h hE
    · exact Nat.le_trans hm h
  | err s1 => rw [hr] at h; intro hf; exact ⟨(h hf).1, (h hf).2.1⟩
  | panic m => rw [hr] at h; exact h
  | oof => trivial

/-! ### parse_statements -/

theorem topStatement_safe {P : Token → Prop} : SafeT P C topStatement (good C) :=
  bind_good callStatement_safe (fun _ ho => orExpected_safe ho)

/-- The accumulated statements end before the current token. -/
def AtAcc (C : Ctx) (acc : List SAst) (s : St) : Prop := AccOK C acc s.span.start

theorem AtAcc.mono {acc : List SAst} {s s' : St} (hm : Mono s s') (h : AtAcc C acc s) : AtAcc C acc s' := AccOK.mono h hm.start

theorem AtAcc.stop {acc : List SAst} {s : St} (hs : Inv C s) (h : AtAcc C acc s) : AccOK C acc s.span.stop :=
  AccOK.mono h hs.base.tok.bounds.2.2.1

/-- `next` moves past the current token -/
theorem next_W {acc : List SAst} {P : St → Prop} (h : ∀ s, Inv C s → P s → AccOK C acc s.span.stop) :
    SafeW C P next (fun _ s => AtAcc C acc s) := by
  intro n s hs hP
  show PostW C _ s.next
  rcases next_inv hs with ⟨s', h1, h2, h3, h4, h5, -⟩ | ⟨m, h1, h2⟩
  · rw [h1]; exact fun _ => ⟨h2, (h s hs hP).mono h3⟩
  · rw [h1]; exact fun _ => h2

theorem consume_W {acc : List SAst} {P : St → Prop} (h : ∀ s, Inv C s → P s → AccOK C acc s.span.stop) :
    SafeW C P consume (fun _ s => AtAcc C acc s) := by
  refine SafeW.bind (Q1 := fun _ s => P s) (fun n s hs hP _ => ⟨hs, hP⟩) (fun sp => SafeW.bind (next_W h) (fun _ => .pure (fun s h => h)))

theorem skipDelims_W {acc : List SAst} : SafeW C (AtAcc C acc) skipDelims (fun _ s => AtAcc C acc s) := by
  refine SafeW.loop (I := fun _ s => AtAcc C acc s) (fun _ => .bind .curT (fun t => .bind .delim (fun d => .ite (fun _ => ?_) (fun _ => ?_))))
  · exact .bind (consume_W (acc := acc) (fun s hs h => AtAcc.stop hs h.1.1)) (fun _ => .pure (fun s h => h))
  · exact .pure (fun s h => h.1.1)

theorem SafeW.cur {P : St → Prop} : SafeW C P cur (fun p s => P s ∧ good C p.2) := by
  intro n s hs hP hf
  exact ⟨hs, hP, spanGood hs hf⟩

theorem setDelimiter_W {acc : List SAst} : SafeW C (AtAcc C acc) setDelimiter (fun _ s => AtAcc C acc s) := by
  refine .bind .cur (fun p => ?_)
  obtain ⟨t, sp⟩ := p
  refine SafeW.bind (Q1 := fun _ s => AtAcc C acc s) ?_ (fun _ => .bind (.setDelim (fun s t h => h)) (fun _ => next_W (fun s hs h => AtAcc.stop hs h)))
  intro n s hs hP
  exact ((SafeW.ofMono (P := AtAcc C acc) (when_safe (P := fun _ => True) (fun _ => warn_safe hP.2)) (fun _ _ => AtAcc.mono)).imp
    (fun _ _ h => h.2)) n s hs hP.1

/-- What holds after a statement: it lies before the end of the current token, and a COPY leaves no token
peeked. -/
def StmtPost (C : Ctx) (acc : List SAst) (v : SAst) (s : St) : Prop :=
  AccOK C (acc ++ [v]) s.span.stop ∧ (v.readsStdin = true → s.peeked = none)

theorem topStatement_W {acc : List SAst} : SafeW C (AtAcc C acc) topStatement (StmtPost C acc) := by
  intro n s hs hP
  have hw := within_run (C := C) (m := s.span.start) (fun C => topStatement_safe (C := C) (P := fun _ => True)) n s hs (Nat.le_refl _)
  have hg := runWith_good (runFn_good n) n topStatement s hs.base
  cases hr : runWith (runFn n) n topStatement s with
  | ok v s' =>
    rw [hr] at hw hg
    intro hf
    obtain ⟨h1, h2, h3⟩ := hw hf
    refine ⟨h1, AccOK.snoc hP ?_ h2 h3, ?_⟩
    · have := hg.2.start
      have := h1.base.tok.bounds.2.2.1
      omega
    · intro hv
      unfold topStatement at hr
      obtain ⟨o, s1, hr1, hr2⟩ := bind_run hr
      cases o with
      | none => exact absurd hr2 expectedFailure_run
      | some w =>
        unfold orExpected runWith at hr2
        cases hr2
        unfold runWith at hr1
        cases n with
        | zero => cases hr1
        | succ n => exact (copy_peeked (runFn_query n) hr1 hv).2
  | err s' => rw [hr] at hw; intro hf; exact hw hf
  | panic m => rw [hr] at hw; exact hw
  | oof => trivial

theorem skipToDelim_W {acc : List SAst} {P : St → Prop} (h : ∀ s, P s → good C acc ∧ C.E) :
    SafeW C P skipToDelim (fun b s => good C acc ∧ C.E ∧ (b = false → s.token = s.delim)) := by
  refine SafeW.pre (P := fun _ => good C acc ∧ C.E) ?_ h
  refine SafeW.loop (I := fun _ _ => good C acc ∧ C.E) (fun _ => ?_)
  refine .bind (Q1 := fun _ _ => good C acc ∧ C.E) ?_ (fun _ => .bind .curT (fun t => .bind .delim (fun d => ?_)))
  · exact (SafeW.ofMono (P := fun _ => good C acc ∧ C.E) next_safe (fun _ _ _ h => h)).imp (fun _ _ h => h.2)
  · refine .ite (fun hd => ?_) (fun _ => .ite (fun _ => ?_) (fun _ => ?_))
    · exact .pure (fun s h => ⟨h.1.1.1, h.1.1.2, fun _ => by rw [h.1.2, h.2, hd]⟩)
    · exact .pure (fun s h => ⟨h.1.1.1, h.1.1.2, by simp⟩)
    · exact .pure (fun s h => h.1.1)

theorem afterDelim_W {acc : List SAst} {stdin : Bool} (hsrc : blen C.src ≤ C.hi) :
    SafeW C (fun s => AccOK C acc s.span.stop ∧ s.token = s.delim ∧ (C.E ∨ (stdin = true → s.peeked = none)))
      (afterDelim acc stdin) (fun acc' s => AtAcc C acc' s) := by
  unfold afterDelim
  refine .ite (fun hst => ?_) (fun _ => ?_)
  · refine SafeW.bind (Q1 := fun r s => AtAcc C (acc ++ [snd% Statement_Stdin [r.1, r.2]]) s) ?_
      (fun r => .pure (fun s h => h))
    intro n s hs hP
    have h := stdin_post hs (.inr hsrc)
    have hr : runWith (runFn n) n (.op .stdin) s = Op.run .stdin s := runWith_op
    rw [hr]
    have hpos := hs.base.pos
    cases ho : Op.run .stdin s with
    | ok r s' =>
      rw [ho] at h
      intro hf
      obtain ⟨h1, ⟨h2, h3⟩, -⟩ := h hf
      refine ⟨h1, ?_⟩
      have hgood : good C (snd% Statement_Stdin [r.1, r.2] : SAst) := by
        refine snd_good (.must) (FL.cons (v := inferInstance) (α := List Char) trivial (FL.cons h2 (.nil _ _ _))) rfl ?_
        exact h3
      by_cases hE : C.E
      · exact ⟨app_good hP.1.1 (cons_good hgood nil_good), .inl hE⟩
      have hpk := (hP.2.2.resolve_left hE) hst
      obtain ⟨d, sp, lx', g1, g2, g3, g4, g5, g6, g7⟩ := readStdin_spec hs.base.lex
      simp only [Op.run, g1] at ho
      have hn : ∃ u, St.next { s with lx := lx', dataLog := s.dataLog ++ [(s.span, d, sp)] } = .ok u s' ∧ r = (d, sp) := by
        revert ho
        cases St.next { s with lx := lx', dataLog := s.dataLog ++ [(s.span, d, sp)] } <;> intro ho <;> simp at ho
        exact ⟨_, by rw [ho.2], ho.1.symm⟩
      obtain ⟨u, hn, rfl⟩ := hn
      have hstart : lx'.pos ≤ s'.span.start := by
        unfold St.next at hn
        simp only [hpk] at hn
        split at hn
        · next t sp lx hn' =>
          have := nextToken_inv g2 hn'
          cases hn
          exact this.2.2.1
        · cases hn
      refine AccOK.snoc hP.1 (by omega) hgood (.inr ?_)
      intro sp' hsp'
      have hall : ∀ sp', (snd% Statement_Stdin [d, sp] : SAst).ast.HasSpan sp' → sp' = sp := by
        intro sp' hh
        rcases hh with hh | ⟨v, hh⟩ | ⟨v, hh⟩
        all_goals
          cases hh with
          | node _ _ a _ hm hh =>
            simp at hm
            rcases hm with rfl | rfl
            all_goals (cases hh <;> rfl)
      rw [hall sp' hsp']
      constructor <;> omega
    | err s' => rw [ho] at h; intro hf; exact ⟨(h hf).1, (h hf).2.1⟩
    | panic m => rw [ho] at h; exact h
    | oof => trivial
  · refine .bind .delim (fun d => ?_)
    intro n s hs hP
    obtain ⟨⟨hP1, hP2, -⟩, hP3⟩ := hP
    have hc : runWith (runFn n) n (ctk d) s = runWith (runFn n) n consume s := by
      show runWith (runFn n) n (if s.token = d then consume else expectedFailure (.tok d)) s = _
      rw [if_pos (by rw [hP2, hP3])]
    have h := consume_W (acc := acc) (P := fun s' => s' = s) (fun s' _ h => by subst h; exact hP1) n s hs rfl
    show PostW C _ (runWith (runFn n) n (.bind (.tryP (ctk d)) _) s)
    unfold runWith
    rw [show runWith (runFn n) n (.tryP (ctk d)) s = _ from by unfold runWith; rw [hc]]
    revert h
    cases hc2 : runWith (runFn n) n consume s with
    | ok a s' => intro h; exact h
    | err s' => exact absurd hc2 (NoErr.consume _ _ _ _)
    | panic m => intro h; exact h
    | oof => intro h; trivial

theorem expectedTok_W {P : St → Prop} {d : Token} {K : Prop} (hd : ∀ s, P s → s.token ≠ d) (hK : ∀ s, P s → K) :
    SafeW C P (expectedError (.tok d)) (fun _ _ => K ∧ C.E) := by
  intro n s hs hP
  have := expectedErrorW_safe (C := C) (P := fun t => t ≠ d) (w := .tok d) (fun _ h => h) _ n (runFn_good n) (runFn_safe n) s hs (hd s hP)
  revert this
  cases runWith (runFn n) n (expectedError (.tok d)) s with
  | ok a s' => intro h hf; exact ⟨(h hf).1, hK s hP, (h hf).2.1⟩
  | err s' => intro h hf; exact ⟨(h hf).1, (h hf).2.1⟩
  | panic m => exact id
  | oof => exact id

theorem finishStatement_W {acc : List SAst} {r : Option SAst} (hsrc : blen C.src ≤ C.hi) :
    SafeW C (fun s => match r with | some v => StmtPost C acc v s | none => good C acc ∧ C.E) (finishStatement acc r)
      (fun st s => match st with | .cont acc' => AtAcc C acc' s | .done l => ∃ m, AccOK C l m) := by
  refine .bind .curT (fun t => .bind .delim (fun d => ?_))
  refine SafeW.bind (Q1 := fun b s => AccOK C (acc ++ r.toList) s.span.stop ∧ (b = false → s.token = s.delim) ∧
    (C.E ∨ (∀ v, r = some v → v.readsStdin = true → s.peeked = none))) ?_ (fun b => .ite (fun _ => .pure (fun s h => ⟨_, h.1⟩)) (fun hb => ?_))
  · refine .ite (fun htd => ?_) (fun htd => .pure ?_)
    · refine SafeW.bind (Q1 := fun _ _ => good C (acc ++ r.toList) ∧ C.E) ?_ (fun _ => ?_)
      · cases r with
        | none =>
          refine SafeW.pure (fun s h => ?_)
          simpa using h.1.1
        | some v =>
          exact expectedTok_W (K := good C (acc ++ [v])) (fun s h => by rw [h.1.2]; exact htd) (fun s h => h.1.1.1.1)
      · exact (skipToDelim_W (fun s h => h)).imp (fun b s h => ⟨⟨h.1, .inl h.2.1⟩, h.2.2, .inl h.2.1⟩)
    · intro s h
      have hd : s.token = s.delim := by rw [h.1.2, h.2]; exact Decidable.not_not.1 htd
      refine ⟨?_, fun _ => hd, ?_⟩
      · cases r with
        | none => exact ⟨by simpa using h.1.1.1, .inl h.1.1.2⟩
        | some v => exact h.1.1.1
      · cases r with
        | none => exact .inl h.1.1.2
        | some v => right; intro w hw; cases hw; exact h.1.1.2
  · refine .bind (SafeW.pre (afterDelim_W hsrc) ?_) (fun acc' => .pure (fun s h => h))
    intro s h
    refine ⟨h.1, h.2.1 (by simpa using hb), ?_⟩
    rcases h.2.2 with h | h
    · exact .inl h
    · right
      cases r with
      | none => simp
      | some v => exact h v rfl

theorem statementsStep_W {acc : List SAst} (hsrc : blen C.src ≤ C.hi) :
    SafeW C (AtAcc C acc) (statementsStep acc)
      (fun st s => match st with | .cont acc' => AtAcc C acc' s | .done l => ∃ m, AccOK C l m) := by
  refine .bind skipDelims_W (fun b => .ite (fun _ => .pure (fun s h => ⟨_, h⟩)) (fun _ => ?_))
  refine .bind (SafeW.ofMono (P := AtAcc C acc) skw_safe (fun _ _ => AtAcc.mono)) (fun dk => ?_)
  cases dk with
  | some sp => exact .bind (SafeW.pre setDelimiter_W (fun s h => h.2)) (fun _ => .pure (fun s h => h))
  | none =>
    refine SafeW.bind (Q1 := fun r s => match r with | some v => StmtPost C acc v s | none => good C acc ∧ C.E) ?_ (fun r => finishStatement_W hsrc)
    refine SafeW.pre (P := fun s => AtAcc C acc s ∧ good C acc) ?_ (fun s h => ⟨h.2, h.2.1⟩)
    intro n s hs hP
    refine (SafeW.tryP topStatement_W n s hs hP.1).imp ?_
    intro o s' ho
    cases o with
    | some v => exact ho
    | none => exact ⟨hP.2, ho⟩

/-- `parse_statements` -/
theorem statements_W (hsrc : blen C.src ≤ C.hi) : SafeW C (fun _ => True) statements (fun l _ => ∃ m, AccOK C l m) := by
  refine SafeW.pre (P := AtAcc C []) ?_ (fun s _ => ⟨nil_good, .inr ⟨by simp, by simp⟩⟩)
  exact SafeW.loop (I := AtAcc C) (fun acc => (statementsStep_W hsrc).imp (fun st s h => by cases st <;> exact h))

/-- `parse_statement` -/
theorem singleStatement_W : SafeW C (fun _ => True) singleStatement
    (fun o s => good C o ∧ (o = none → C.E) ∧ (C.E ∨ s.token = .eof)) := by
  refine SafeW.bind (SafeW.tryP (SafeW.of (callStatement_safe (P := fun _ => True)))) (fun o => ?_)
  rcases o with _ | _ | v
  · exact .pure (fun s h => ⟨trivial, fun _ => h, .inl h⟩)
  · exact .bind (SafeW.of expectedError_safe) (fun _ => .pure (fun s h => ⟨trivial, fun _ => h, .inl h⟩))
  · refine .bind .curT (fun t => ?_)
    refine SafeW.bind (Q1 := fun _ s => good C v ∧ (C.E ∨ s.token = .eof)) ?_ (fun _ => .pure (fun s h => ⟨h.1, by simp, h.2⟩))
    unfold Prog.when
    refine .ite (fun ht => ?_) (fun ht => .pure ?_)
    · exact (SafeW.ofT (T := fun t' => t' = t) (P' := fun _ => good C v) (expectedError_safe (m := "Unexpected token after statement")
        (.intro fun t' e => by
          subst e; simp only [ne_eq, decide_not, Bool.not_eq_true', decide_eq_false_iff_not] at ht
          exact ⟨by simp [namedWords, List.lookup], by simp [namedTokens, List.lookup, ht], by cases t' <;> simp [Token.ofKind]⟩))
        (fun s h => ⟨h.2, h.1⟩) (fun _ _ _ h => h)).imp (fun _ _ h => ⟨h.2, .inl h.1⟩)
    · intro s h
      exact ⟨h.1, .inr (by rw [h.2]; simpa using ht)⟩

end SqlParse
