import Verif.Spec.Script
import Verif.Proofs.SafeApi
/-! `parse_statements` does what `Rounds` and `LastRound` say. -/
namespace SqlParse
variable {α β σ : Type} {R : ∀ α, Fn α → St → Out α} {n : Nat}

/-- A loop, as a relation. -/
inductive LoopR (step : σ → St → Step σ β → St → Prop) : σ → St → β → St → Prop where
  | done {x s b s'} (h : step x s (.done b) s') : LoopR step x s b s'
  | cont {x s y s1 b s'} (h : step x s (.cont y) s1) (hr : LoopR step y s1 b s') : LoopR step x s b s'

theorem loop_run {body : σ → Prog (Step σ β)} {x : σ} {s s' : St} {b : β} (h : runWith R n (.loop body x) s = .ok b s') :
    LoopR (fun x s r s' => runWith R n (body x) s = .ok r s') x s b s' := by
  unfold runWith at h
  have key : ∀ m x s, loopN (fun x s => runWith R n (body x) s) m x s = .ok b s' →
      LoopR (fun x s r s' => runWith R n (body x) s = .ok r s') x s b s' := by
    intro m
    induction m with
    | zero => intro x s h; cases h
    | succ m ih =>
      intro x s h
      unfold loopN at h
      split at h
      · next y s1 he => exact .cont he (ih _ _ h)
      · next c s1 he => cases h; exact .done he
      all_goals cases h
  exact key n x s h

theorem tryP_run {p : Prog α} {s s' : St} {o : Option α} (h : runWith R n (.tryP p) s = .ok o s') :
    (∃ a, o = some a ∧ runWith R n p s = .ok a s') ∨ (o = none ∧ runWith R n p s = .err s') := by
  unfold runWith at h
  split at h
  · next a s1 he => cases h; exact .inl ⟨a, rfl, he⟩
  · next s1 he => cases h; exact .inr ⟨rfl, he⟩
  all_goals cases h

theorem Reports.logs {l : Level} {m : Msg} {s s' : St} (h : Reports l m s s') : Logs l s s' := by
  obtain ⟨seg, -, rfl⟩ := h; exact ⟨_, rfl, rfl⟩
theorem CapsNote.mayLog {s s' : St} (h : CapsNote s s') : MayLog s s' := by
  unfold CapsNote at h
  split at h
  · exact .inr ⟨_, h.logs⟩
  · exact .inl h
theorem DelimiterNote.mayLog {s s' : St} (h : DelimiterNote s s') : MayLog s s' := by
  unfold DelimiterNote at h
  split at h
  · exact .inl h
  · exact .inr ⟨_, h.logs⟩

theorem spanIs_slice {src seg : List Char} {sp : Span} (h : SpanIs src sp seg) : slice src sp.start sp.stop = some seg := by
  obtain ⟨a, b, rfl, h2, h3⟩ := h
  have := slice_mid a seg b
  rw [h2, h3]
  simpa using this

/-- Reporting an issue about the current token. -/
theorem issue_reports {s s' : St} {l : Level} {m : Msg} : s.issue l m s.span [] = .ok () s' ↔ Reports l m s s' := by
  unfold St.issue
  constructor
  · intro h
    split at h
    · next seg fs h1 h2 =>
      cases h2
      cases h
      exact ⟨seg, slice_spanIs h1, rfl⟩
    · cases h
  · rintro ⟨seg, h1, rfl⟩
    rw [spanIs_slice h1]
    rfl

theorem expectedError_reports {m : Wanted} {s s' : St} (h : runWith R n (expectedError m) s = .ok () s') : Reports .error (.expected m) s s' :=
  issue_reports.1 h

theorem when_run {c : Bool} {p : Prog Unit} {s s' : St} (h : runWith R n (Prog.when c p) s = .ok () s') :
    (c = true ∧ runWith R n p s = .ok () s') ∨ (c = false ∧ s' = s) := by
  unfold Prog.when at h
  split at h
  · exact .inl ⟨‹_›, h⟩
  · next hc => cases h; exact .inr ⟨by simpa using hc, rfl⟩

theorem inCapitals_eq {v : List Char} {k : Keyword} : (Token.ident v k).inCapitals = allUpper v := by
  show (v.all fun c => decide _) = v.all isUp
  congr 1
  funext c
  simp [isUp]

theorem capsWarn_note {v : List Char} {k : Keyword} {s s' : St} (ht : s.token = .ident v k)
    (h : runWith R n (capsWarn v s.span) s = .ok () s') : CapsNote s s' := by
  unfold CapsNote
  rw [ht, inCapitals_eq]
  rcases when_run h with ⟨h0, h⟩ | ⟨h0, h⟩
  · have h0 : allUpper v = false := by simpa using h0
    unfold issueIf at h
    rw [runWith_op] at h
    simp only [Op.run] at h
    split at h
    · next hf => rw [if_pos ⟨hf, h0⟩]; exact issue_reports.1 h
    · next hf => rw [if_neg (fun e => hf e.1)]; cases h; rfl
  · have h0 : allUpper v = true := by simpa using h0
    rw [if_neg (fun e => by rw [h0] at e; exact absurd e.2 nofun)]
    exact h

theorem capsWarn_mayLog {v : List Char} {sp : Span} {s s' : St} (h : runWith R n (capsWarn v sp) s = .ok () s') : MayLog s s' := by
  rcases when_run h with ⟨-, h⟩ | ⟨-, h⟩
  · unfold issueIf at h
    rw [runWith_op] at h
    simp only [Op.run] at h
    split at h
    · unfold St.issue at h
      split at h
      · cases h; exact .inr ⟨_, _, rfl, rfl⟩
      · cases h
    · cases h; exact .inl rfl
  · exact .inl h

theorem skw_run {k : Keyword} {s s' : St} {o : Option Span} (h : runWith R n (skw k) s = .ok o s') :
    (o = none ∧ s' = s ∧ s.token.isKw k = false) ∨
    (o.isSome = true ∧ s.token.isKw k = true ∧ ∃ s1, CapsNote s s1 ∧ Advance s1 s') := by
  unfold skw at h
  obtain ⟨p, s0, h0, h⟩ := bind_run h
  cases h0
  simp only at h
  split at h
  · next v k' ht =>
    split at h
    · next hk =>
      obtain ⟨u, s1, h1, h⟩ := bind_run h
      obtain ⟨a, s2, h2, h⟩ := bind_run h
      cases h
      obtain ⟨-, h2⟩ := consume_ok h2
      refine .inr ⟨rfl, by rw [ht]; simp [Token.isKw, hk], s1, capsWarn_note ht h1, h2⟩
    · next hk => cases h; exact .inl ⟨rfl, rfl, by rw [ht]; simp [Token.isKw, hk]⟩
  · next ht =>
    cases h
    refine .inl ⟨rfl, rfl, ?_⟩
    cases hs : s.token <;> simp [Token.isKw]
    exact absurd hs (ht _ _)

/-! ### The rounds -/

theorem Rounds.trans {s s1 s2 : St} {a b : List SAst} (h1 : Rounds s a s1) (h2 : Rounds s1 b s2) : Rounds s (a ++ b) s2 := by
  induction h1 with
  | nil => exact h2
  | cons h _ ih => rw [List.append_assoc]; exact .cons h (ih h2)

theorem Rounds.one {s s1 : St} {a : List SAst} (h : Round s a s1) : Rounds s a s1 := by
  have := Rounds.cons h .nil
  simpa using this

theorem skipDelims_run {s s' : St} {b : Bool} (h : runWith R n skipDelims s = .ok b s') :
    Rounds s [] s' ∧ s'.token ≠ s'.delim ∧ b = decide (s'.token = .eof) := by
  replace h := loop_run h
  generalize () = u at h
  induction h with
  | @done x s b s' h =>
    change runWith R n (if s.token = s.delim then (consume >>= fun _ => pure (Step.cont ())) else pure (Step.done (decide (s.token = .eof)))) s = _ at h
    split at h
    · obtain ⟨_, _, _, h⟩ := bind_run h
      cases h
    · next hd => cases h; exact ⟨.nil, hd, rfl⟩
  | @cont x s y s1 b s' h _ ih =>
    obtain ⟨ih1, ih2⟩ := ih
    refine ⟨?_, ih2⟩
    change runWith R n (if s.token = s.delim then (consume >>= fun _ => pure (Step.cont ())) else pure (Step.done (decide (s.token = .eof)))) s = _ at h
    split at h
    · next hd =>
      obtain ⟨a, s2, h1, h2⟩ := bind_run h
      cases h2
      exact .cons (out := []) (.clean (.skip hd (consume_ok h1).2)) ih1
    · cases h

theorem skipToDelim_run {s s' : St} {b : Bool} (h : runWith R n skipToDelim s = .ok b s') :
    (b = false ∧ SkipTo s s') ∨ (b = true ∧ SkipToEnd s s') := by
  replace h := loop_run h
  have hstep : ∀ {x : Unit} {s s' : St} {r : Step Unit Bool}, runWith R n (next >>= fun _ => curT >>= fun t => Prog.op .delim >>= fun d =>
      if t = d then pure (Step.done false) else if t = .eof then pure (Step.done true) else pure (Step.cont ())) s = .ok r s' →
      Advance s s' ∧ r = if s'.token = s'.delim then Step.done false else if s'.token = .eof then .done true else .cont () := by
    intro x s s' r h
    obtain ⟨u, s1, h1, h⟩ := bind_run h
    change runWith R n (if s1.token = s1.delim then pure (Step.done false) else if s1.token = .eof then pure (Step.done true) else pure (Step.cont ())) s1 = _ at h
    split at h
    · next hd => cases h; exact ⟨h1, by rw [if_pos hd]⟩
    · next hd =>
      split at h
      · next he => cases h; exact ⟨h1, by rw [if_neg hd, if_pos he]⟩
      · next he => cases h; exact ⟨h1, by rw [if_neg hd, if_neg he]⟩
  generalize () = u at h
  induction h with
  | @done x s b s' h =>
    obtain ⟨h1, h2⟩ := hstep (x := x) h
    split at h2
    · next hd => cases h2; exact .inl ⟨rfl, .here h1 hd⟩
    · next hd =>
      split at h2
      · next he => cases h2; exact .inr ⟨rfl, .here h1 hd he⟩
      · cases h2
  | @cont x s y s1 b s' h _ ih =>
    obtain ⟨h1, h2⟩ := hstep (x := x) h
    split at h2
    · cases h2
    · next hd =>
      split at h2
      · cases h2
      · next he =>
        rcases ih with ⟨hb, h⟩ | ⟨hb, h⟩
        · exact .inl ⟨hb, .next h1 hd he h⟩
        · exact .inr ⟨hb, .next h1 hd he h⟩

theorem ctk_run {t : Token} {s s' : St} {a : Span} (h : runWith R n (ctk t) s = .ok a s') : s.token = t ∧ Advance s s' := by
  change runWith R n (if s.token = t then consume else expectedFailure (.tok t)) s = _ at h
  split at h
  · exact ⟨‹_›, (consume_ok h).2⟩
  · exact absurd h expectedFailure_run

theorem afterDelim_run {acc acc' : List SAst} {stdin : Bool} {s s' : St} (h : runWith R n (afterDelim acc stdin) s = .ok acc' s') :
    (stdin = false ∧ acc' = acc ∧ Advance s s') ∨
    (stdin = true ∧ ∃ d sp, acc' = acc ++ [⟨.node .Statement_Stdin [.str d, .span sp]⟩] ∧ ReadsData s d sp s') := by
  unfold afterDelim at h
  cases stdin with
  | true =>
    obtain ⟨r, s1, h1, h⟩ := bind_run h
    cases h
    right
    refine ⟨rfl, r.1, r.2, rfl, ?_⟩
    rw [runWith_op] at h1
    simp only [Op.run] at h1
    split at h1
    · cases h1
    · next d sp lx he =>
      split at h1
      · next u s2 hn => cases h1; exact ⟨lx, he, hn⟩
      all_goals cases h1
  | false =>
    left
    change runWith R n (.tryP (ctk s.delim) >>= fun r => match r with | some _ => pure acc | none => .panic "Delimiter") s = _ at h
    obtain ⟨r, s1, h1, h⟩ := bind_run h
    rcases tryP_run h1 with ⟨a, rfl, h2⟩ | ⟨rfl, h2⟩
    · cases h; exact ⟨rfl, rfl, (ctk_run h2).2⟩
    · cases h

theorem topStatement_run {s s' : St} {v : SAst} (h : runWith (runFn n) n topStatement s = .ok v s') : ParsesTo s v s' := by
  unfold topStatement at h
  obtain ⟨o, s1, h1, h⟩ := bind_run h
  cases o with
  | none => exact absurd h expectedFailure_run
  | some w => unfold orExpected runWith at h; cases h; exact ⟨n, h1⟩

theorem topStatement_err {s s' : St} (h : runWith (runFn n) n topStatement s = .err s') : FailsTo s s' := by
  unfold topStatement at h
  cases hr : runWith (runFn n) n (.call .statement) s with
  | ok o s1 =>
    rw [runWith_bind hr] at h
    cases o with
    | some w => unfold orExpected runWith at h; cases h
    | none =>
      refine ⟨n, .inr ⟨s1, hr, ?_⟩⟩
      change runWith (runFn n) n (.bind (expectedError "Statement") fun _ => .throw) s1 = _ at h
      unfold runWith at h
      split at h
      · next u s2 he => unfold runWith at h; cases h; exact expectedError_reports he
      · next s2 he =>
        change St.issue _ _ _ _ _ = _ at he
        unfold St.issue at he
        split at he <;> cases he
      all_goals cases h
  | err s1 => rw [runWith_bind_err hr] at h; cases h; exact ⟨n, .inl hr⟩
  | panic m => rw [runWith_bind_panic hr] at h; cases h
  | oof =>
    change runWith (runFn n) n (.bind (.call .statement) _) s = _ at h
    unfold runWith at h
    rw [hr] at h
    cases h

/-- What one iteration of the loop of `parse_statements` does. -/
def StepR (acc : List SAst) (s : St) (r : Step (List SAst) (List SAst)) (s' : St) : Prop :=
  match r with
  | .cont acc' => ∃ l s1, acc' = acc ++ l ∧ Rounds s [] s1 ∧ Round s1 l s'
  | .done acc' => ∃ l o s1, acc' = acc ++ l ++ o ∧ Rounds s l s1 ∧ LastRound s1 o s'

theorem finishStatement_some {acc : List SAst} {v : SAst} {s0 s s' : St} {r : Step (List SAst) (List SAst)} (hs : Start s0)
    (hp : ParsesTo s0 v s) (h : runWith R n (finishStatement acc (some v)) s = .ok r s') :
    (∃ o, r = .cont (acc ++ o) ∧ Round s0 o s') ∨ (∃ o, r = .done (acc ++ o) ∧ LastRound s0 o s') := by
  change runWith R n ((if s.token ≠ s.delim then (expectedError (.tok s.delim) >>= fun _ => skipToDelim) else pure false) >>= fun eof =>
    if eof then pure (Step.done (acc ++ [v])) else (afterDelim (acc ++ [v]) v.readsStdin >>= fun acc' => pure (Step.cont acc'))) s = _ at h
  obtain ⟨b, s1, h1, h⟩ := bind_run h
  have hterm : ∀ {s s' : St} {acc'}, runWith R n (afterDelim (acc ++ [v]) v.readsStdin) s = .ok acc' s' →
      ∃ o, acc' = acc ++ o ∧ Terminate v s o s' := by
    intro s s' acc' h
    rcases afterDelim_run h with ⟨h1, rfl, h3⟩ | ⟨h1, d, sp, rfl, h3⟩
    · exact ⟨_, rfl, .plain h1 h3⟩
    · exact ⟨_, by simp, .copy h1 h3⟩
  split at h1
  · next hd =>
    obtain ⟨u, s2, h2, h1'⟩ := bind_run h1
    clear h1
    have h2 := expectedError_reports h2
    have h1 := skipToDelim_run h1'
    clear h1'
    rcases h1 with ⟨rfl, h1⟩ | ⟨rfl, h1⟩
    · left
      obtain ⟨acc', s3, h3, h⟩ := bind_run h
      cases h
      obtain ⟨o, rfl, ht⟩ := hterm h3
      exact ⟨o, rfl, .garbage hs hp hd h2 h1 ht⟩
    · right
      cases h
      exact ⟨[v], rfl, .garbage hs hp hd h2 h1⟩
  · next hd =>
    cases h1
    left
    obtain ⟨acc', s3, h3, h⟩ := bind_run h
    cases h
    obtain ⟨o, rfl, ht⟩ := hterm h3
    exact ⟨o, rfl, .clean (.stmt hs hp (Decidable.not_not.1 hd) ht)⟩

theorem finishStatement_none {acc : List SAst} {s0 s s' : St} {r : Step (List SAst) (List SAst)} (hs : Start s0)
    (hp : FailsTo s0 s) (h : runWith R n (finishStatement acc none) s = .ok r s') :
    (r = .cont acc ∧ Round s0 [] s') ∨ (r = .done acc ∧ LastRound s0 [] s') := by
  change runWith R n ((if s.token ≠ s.delim then (pure () >>= fun _ => skipToDelim) else pure false) >>= fun eof =>
    if eof then pure (Step.done (acc ++ [])) else (afterDelim (acc ++ []) false >>= fun acc' => pure (Step.cont acc'))) s = _ at h
  rw [List.append_nil] at h
  obtain ⟨b, s1, h1, h⟩ := bind_run h
  have hterm : ∀ {s s' : St} {acc'}, runWith R n (afterDelim acc false) s = .ok acc' s' → acc' = acc ∧ Advance s s' := by
    intro s s' acc' h
    rcases afterDelim_run h with ⟨h1, rfl, h3⟩ | ⟨h1, d, sp, rfl, h3⟩
    · exact ⟨rfl, h3⟩
    · cases h1
  split at h1
  · next hd =>
    replace h1 := skipToDelim_run (R := R) (n := n) (show runWith R n skipToDelim s = _ from h1)
    rcases h1 with ⟨rfl, h1⟩ | ⟨rfl, h1⟩
    · left
      obtain ⟨acc', s3, h3, h⟩ := bind_run h
      cases h
      obtain ⟨rfl, ht⟩ := hterm h3
      exact ⟨rfl, .skipped hs hp hd h1 ht⟩
    · right
      cases h
      exact ⟨rfl, .skipped hs hp hd h1⟩
  · next hd =>
    cases h1
    left
    obtain ⟨acc', s3, h3, h⟩ := bind_run h
    cases h
    obtain ⟨rfl, ht⟩ := hterm h3
    exact ⟨rfl, .failed hs hp (Decidable.not_not.1 hd) ht⟩

theorem setDelimiter_run {s s' : St} (h : runWith R n setDelimiter s = .ok () s') :
    ∃ s1, DelimiterNote s s1 ∧ Advance { s1 with delim := s.token } s' := by
  change runWith R n (Prog.when (!(decide (s.token = .doubleDollar) || decide (s.token = .semiColon))) (warn "Unknown delimiter" s.span) >>=
    fun _ => Prog.op (.setDelim s.token) >>= fun _ => next) s = _ at h
  obtain ⟨u, s1, h1, h⟩ := bind_run h
  refine ⟨s1, ?_, h⟩
  unfold DelimiterNote
  rcases when_run h1 with ⟨h0, h1⟩ | ⟨h0, h1⟩
  · rw [if_neg (by simp at h0; exact fun e => e.elim h0.2 h0.1)]
    exact issue_reports.1 h1
  · rw [if_pos (by simp at h0; exact (Classical.em _).elim .inr (fun e => .inl (h0 e)))]
    exact h1

theorem statementsStep_run {acc : List SAst} {s s' : St} {r : Step (List SAst) (List SAst)}
    (h : runWith (runFn n) n (statementsStep acc) s = .ok r s') : StepR acc s r s' := by
  unfold statementsStep at h
  obtain ⟨b, s1, h0, h'⟩ := bind_run h
  clear h
  obtain ⟨h1, hd, rfl⟩ := skipDelims_run h0
  split at h'
  · next he =>
    cases h'
    exact ⟨[], [], s', by simp, h1, .eof hd (by simpa using he)⟩
  · next he =>
    have he : s1.token ≠ .eof := by simpa using he
    obtain ⟨dk, s2, h2, h⟩ := bind_run h'
    clear h'
    rcases skw_run h2 with ⟨rfl, rfl, hk⟩ | ⟨hk, hk2, s3, h3, h4⟩
    · have hs : Start s2 := ⟨hd, he, hk⟩
      obtain ⟨o, s3, h3, h'⟩ := bind_run h
      clear h h2
      rcases tryP_run h3 with ⟨v, rfl, h4⟩ | ⟨rfl, h4⟩
      · rcases finishStatement_some hs (topStatement_run h4) h' with ⟨o, rfl, h⟩ | ⟨o, rfl, h⟩
        · exact ⟨o, s2, rfl, h1, h⟩
        · exact ⟨[], o, s2, by simp, h1, h⟩
      · rcases finishStatement_none hs (topStatement_err h4) h' with ⟨rfl, h⟩ | ⟨rfl, h⟩
        · exact ⟨[], s2, by simp, h1, h⟩
        · exact ⟨[], [], s2, by simp, h1, h⟩
    · cases dk with
      | none => cases hk
      | some sp =>
        obtain ⟨u, s5, h5, h'⟩ := bind_run h
        cases h'
        obtain ⟨s4, h6, h7⟩ := setDelimiter_run h5
        exact ⟨[], s1, by simp, h1, .clean (.delimiter hd hk2 h3 h4 h6 h7)⟩

theorem statements_run {s s' : St} {l : List SAst} (h : runWith (runFn n) n statements s = .ok l s') :
    ∃ l1 l2 s1, l = l1 ++ l2 ∧ Rounds s l1 s1 ∧ LastRound s1 l2 s' := by
  replace h := loop_run h
  have key : ∀ (acc : List SAst) s l s', LoopR (fun x s r s' => runWith (runFn n) n (statementsStep x) s = .ok r s') acc s l s' →
      ∃ l1 l2 s1, l = acc ++ l1 ++ l2 ∧ Rounds s l1 s1 ∧ LastRound s1 l2 s' := by
    intro acc s l s' h
    induction h with
    | done h =>
      obtain ⟨l1, l2, s1, h1, h2, h3⟩ := statementsStep_run h
      exact ⟨l1, l2, s1, h1, h2, h3⟩
    | cont h _ ih =>
      obtain ⟨l1, s2, rfl, h2, h2'⟩ := statementsStep_run h
      obtain ⟨l3, l4, s4, rfl, h5, h6⟩ := ih
      exact ⟨l1 ++ l3, l4, s4, by simp, h2.trans (.cons h2' h5), h6⟩
  obtain ⟨l1, l2, s1, h1, h2⟩ := key _ _ _ _ h
  exact ⟨l1, l2, s1, by simpa using h1, h2⟩

end SqlParse
