import Verif.Proofs.TermStmt
import Verif.Theorems.Script
import Verif.Theorems.Lexical
/-! C01: the two entry points return. -/
namespace SqlParse
variable {chk : Bool} {src : List Char} {old : List Issue} {opts : Opts}

/-! ### Progress between two statements -/

theorem advance_tie {s s' : St} (hb : BInv s) (h : Advance s s') : Fresh s' := by
  have h : s.next = .ok () s' := h
  unfold St.next at h
  split at h
  · next t sp hp =>
    cases h
    exact ⟨rfl, (hb.peek t sp hp).2.2.1⟩
  · next hp =>
    split at h
    · next t sp lx hn =>
      cases h
      exact ⟨by first | exact hp | rfl, (nextToken_inv hb.lex hn).2.2.2.2.1⟩
    · cases h

theorem readsData_fresh {s s' : St} {d : List Char} {sp : Span} (hb : BInv s) (hp : s.peeked = none)
    (h : ReadsData s d sp s') : Fresh s' := by
  obtain ⟨lx, h1, h2⟩ := h
  obtain ⟨d', sp', lx', g1, g2, g3, g4, g5, g6, g7⟩ := readStdin_spec hb.lex
  rw [h1] at g1
  cases g1
  have hpos := hb.pos
  exact advance_tie (s := { s with lx := lx, dataLog := s.dataLog ++ [(s.span, d, sp)] }) ⟨g2, by simpa [g3] using hb.tok, by show s.span.stop ≤ lx.pos; omega, by simp [hp]⟩ h2

theorem advance_mu {s s' : St} (hb : BInv s) (h : Advance s s') (ht : s.token ≠ .eof) : mu s' < mu s := mu_next hb ht h

theorem advance_mu_le {s s' : St} (hb : BInv s) (h : Advance s s') : mu s' ≤ mu s := by
  have hg := next_good hb
  rw [show s.next = .ok () s' from h] at hg
  exact mu_mono hb hg.1 hg.2

theorem parsesTo_mu {s s' : St} {v : SAst} (hb : BInv s) (h : ParsesTo s v s') : mu s' ≤ mu s := by
  obtain ⟨n, h⟩ := h
  have hg := run_good n (.call .statement) s hb
  rw [h] at hg
  exact mu_mono hb hg.1 hg.2

theorem logs_mu {l : Level} {s s' : St} (h : Logs l s s') : mu s' = mu s := by
  obtain ⟨i, -, rfl⟩ := h; rfl

theorem mayLog_mu {s s' : St} (h : MayLog s s') : mu s' = mu s ∧ s'.peeked = s.peeked ∧ s'.lx = s.lx ∧ s'.span = s.span := by
  rcases h with rfl | ⟨l, i, -, rfl⟩
  · exact ⟨rfl, rfl, rfl, rfl⟩
  · exact ⟨rfl, rfl, rfl, rfl⟩

theorem failsTo_mu {s s' : St} (hb : BInv s) (h : FailsTo s s') : mu s' ≤ mu s := by
  obtain ⟨n, h⟩ := h
  have hg := run_good n (.call .statement) s hb
  rcases h with h | ⟨s1, h, hl⟩
  · rw [h] at hg
    exact mu_mono hb hg.1 hg.2
  · rw [h] at hg
    rw [logs_mu hl.logs]
    exact mu_mono hb hg.1 hg.2

theorem skipTo_mu {s s' : St} (hs : SInv chk src opts s) (h : SkipTo s s') : mu s' ≤ mu s := by
  induction h with
  | here h hd => exact advance_mu_le hs.base h
  | next h hd he _ ih =>
    have := ih (advance_inv hs h).1
    have := advance_mu_le hs.base h
    omega

theorem terminate_mu {s s' : St} {v : SAst} {out : List SAst} (hs : SInv chk src opts s) (hd : s.token ≠ .eof)
    (h : Terminate v s out s') : mu s' < mu s := by
  cases h with
  | plain hv h => exact advance_mu hs.base h hd
  | copy hv h =>
    have := stdin_left hs.base
    rw [readsData_run h] at this
    exact this hd

theorem terminate_fresh {s s' : St} {v : SAst} {out : List SAst} (hs : SInv chk src opts s)
    (hp : v.readsStdin = true → s.peeked = none) (h : Terminate v s out s') : Fresh s' := by
  cases h with
  | plain hv h => exact advance_tie hs.base h
  | copy hv h => exact readsData_fresh hs.base (hp hv) h

theorem skipTo_peeked {s s' : St} (h : SkipTo s s') : s'.peeked = none := by
  induction h with
  | here h hd => exact next_peeked h
  | next h hd he _ ih => exact ih

theorem round_fresh {s s' : St} {out : List SAst} (hs : SInv chk src opts s) (h : Round s out s') : Fresh s' := by
  cases h with
  | clean h =>
    cases h with
    | skip he h => exact advance_tie hs.base h
    | @delimiter s1 s2 s3 _ he hk h1 h2 h3 h4 =>
      have b1 := (advance_inv (mayLog_inv hs h1.mayLog).1 h2).1
      exact advance_tie ((mayLog_inv b1 h3.mayLog).1.setDelim s2.token).base h4
    | stmt hst h he ht =>
      exact terminate_fresh (parsesTo_inv hs h).1 (fun hv => (copy_fresh hs.base h hv).2.1) ht
  | garbage hst h he hl hk ht =>
    have b1 := (logs_inv (parsesTo_inv hs h).1 hl.logs).1
    exact terminate_fresh (skipTo_inv b1 hk).1 (fun _ => skipTo_peeked hk) ht
  | failed hst h he ha => exact advance_tie (failsTo_inv hs h).1.base ha
  | skipped hst h he hk ha => exact advance_tie (skipTo_inv (failsTo_inv hs h).1 hk).1.base ha

/-- In the state `s` comes the keyword DELIMITER (it is not the delimiter itself), and nothing after it. -/
def DelimiterEnd (s : St) : Prop :=
  s.token ≠ s.delim ∧ s.token.isKw .DELIMITER = true ∧ ∃ s1 s2, CapsNote s s1 ∧ Advance s1 s2 ∧ s2.token = .eof

/-- A round makes progress. -/
theorem round_progress {s s' : St} {out : List SAst} (hs : SInv chk src opts s) (hd : s.delim ≠ .eof)
    (hN : ¬ DelimiterEnd s) (h : Round s out s') : s'.delim ≠ .eof ∧ mu s' < mu s := by
  cases h with
  | clean h =>
    cases h with
    | skip he h =>
      refine ⟨?_, advance_mu hs.base h (he ▸ hd)⟩
      rw [(advance_inv hs h).2.1]; exact hd
    | @delimiter s1 s2 s3 _ he hk h1 h2 h3 h4 =>
      obtain ⟨a1, a2, a3, a4, l1, a5⟩ := mayLog_inv hs h1.mayLog
      obtain ⟨b1, b2, b3, b4, -⟩ := advance_inv a1 h2
      obtain ⟨c1, c2, c3, c4, l2, c5⟩ := mayLog_inv b1 h3.mayLog
      obtain ⟨d1, d2, d3, d4, -⟩ := advance_inv (c1.setDelim s2.token) h4
      have e2 : s2.token ≠ .eof := fun e => hN ⟨he, hk, s1, s2, h1, h2, e⟩
      refine ⟨by rw [d2]; exact e2, ?_⟩
      have m1 := (mayLog_mu h1.mayLog).1
      have m2 := advance_mu a1.base h2 (by rw [a4]; rintro e; rw [e] at hk; simp [Token.isKw] at hk)
      have m3 := (mayLog_mu h3.mayLog).1
      have m4 := advance_mu_le (c1.setDelim s2.token).base h4
      have m5 : mu { s3 with delim := s2.token } = mu s3 := rfl
      omega
    | stmt hst h he ht =>
      obtain ⟨a1, a2, a3, l, a4⟩ := parsesTo_inv hs h
      obtain ⟨b1, b2, b3, b4⟩ := terminate_inv a1 ht
      have m1 := parsesTo_mu hs.base h
      have m2 := terminate_mu a1 (by rw [he, a2]; exact hd) ht
      exact ⟨by rw [b2, a2]; exact hd, by omega⟩
  | garbage hst h he hl hk ht =>
    obtain ⟨a1, a2, a3, l, a4⟩ := parsesTo_inv hs h
    obtain ⟨b1, b2, b3, b4, i, b5, b6⟩ := logs_inv a1 hl.logs
    obtain ⟨c1, c2, c3, c4, c5⟩ := skipTo_inv b1 hk
    obtain ⟨d1, d2, d3, d4⟩ := terminate_inv c1 ht
    have m1 := parsesTo_mu hs.base h
    have m2 := logs_mu hl.logs
    have m3 := skipTo_mu b1 hk
    have m4 := terminate_mu c1 (by rw [c5, b2, a2]; exact hd) ht
    exact ⟨by rw [d2, c2, b2, a2]; exact hd, by omega⟩
  | failed hst h he ha =>
    obtain ⟨a1, a2, a3, -⟩ := failsTo_inv hs h
    obtain ⟨b1, b2, b3, b4, -⟩ := advance_inv a1 ha
    have m1 := failsTo_mu hs.base h
    have m2 := advance_mu a1.base ha (by rw [he, a2]; exact hd)
    exact ⟨by rw [b2, a2]; exact hd, by omega⟩
  | skipped hst h he hk ha =>
    obtain ⟨a1, a2, a3, -⟩ := failsTo_inv hs h
    obtain ⟨c1, c2, c3, c4, c5⟩ := skipTo_inv a1 hk
    obtain ⟨b1, b2, b3, b4, -⟩ := advance_inv c1 ha
    have m1 := failsTo_mu hs.base h
    have m2 := skipTo_mu a1 hk
    have m3 := advance_mu c1.base ha (by rw [c5, a2]; exact hd)
    exact ⟨by rw [b2, c2, a2]; exact hd, by omega⟩

/-- Several rounds, from a state between statements. -/
theorem rounds_progress {s s' : St} {l : List SAst} (hN : ∀ t, Between chk src old opts t → ¬ DelimiterEnd t)
    (hb : Between chk src old opts s) (hd : s.delim ≠ .eof) (h : Rounds s l s') :
    Between chk src old opts s' ∧ s'.delim ≠ .eof ∧ mu s' ≤ mu s ∧ (s' = s ∨ mu s' < mu s) := by
  induction h with
  | nil => exact ⟨hb, hd, Nat.le_refl _, .inl rfl⟩
  | @cons s s1 s' out l h hr ih =>
    obtain ⟨h2, h3⟩ := round_progress (between_inv hb) hd (hN _ hb) h
    have hb' : Between chk src old opts s1 := by
      obtain ⟨s0, l0, e1, e2⟩ := hb
      exact ⟨s0, _, e1, e2.trans (.one h)⟩
    obtain ⟨g1, g2, g3, g4⟩ := ih hb' h2
    exact ⟨g1, g2, by omega, .inr (by omega)⟩

/-! ### The loops -/

/-- What is required of one iteration. -/
def StepFin {σ β : Type} (I : St → Prop) (s : St) : Out (Step σ β) → Prop
  | .ok (.cont _) s' => I s' ∧ mu s' < mu s
  | .oof => False
  | _ => True

theorem loop_fin {σ β : Type} {R : ∀ α, Fn α → St → Out α} {n : Nat} {body : σ → Prog (Step σ β)} (I : St → Prop)
    (hb : ∀ x s, I s → StepFin I s (runWith R n (body x) s)) (x : σ) (s : St) (hs : I s) (hn : mu s < n) :
    runWith R n (.loop body x) s ≠ .oof := by
  unfold runWith
  have key : ∀ j x s, I s → mu s < j → loopN (fun x s => runWith R n (body x) s) j x s ≠ .oof := by
    intro j
    induction j with
    | zero => intro x s _ h; omega
    | succ j ih =>
      intro x s hs hj
      have h1 := hb x s hs
      unfold loopN
      split
      · next x' s' heq =>
        rw [heq] at h1
        exact ih x' s' h1.1 (by have := h1.2; omega)
      · nofun
      · nofun
      · nofun
      · next heq => rw [heq] at h1; exact h1.elim
  exact key n x s hs hn

theorem bind_fin {α β : Type} {R : ∀ α, Fn α → St → Out α} {n : Nat} {p : Prog α} {f : α → Prog β} {s : St}
    (hp : runWith R n p s ≠ .oof) (hf : ∀ a s', runWith R n p s = .ok a s' → runWith R n (f a) s' ≠ .oof) :
    runWith R n (p >>= f) s ≠ .oof := by
  show runWith R n (.bind p f) s ≠ .oof
  unfold runWith
  split
  · next a s' h => exact hf a s' h
  · nofun
  · nofun
  · next h => exact fun _ => hp h

theorem Tm.fin {α : Type} {p : Prog α} {D : α → Prop} (h : Tm false Top p D) {n : Nat} {s : St} (hs : BInv s)
    (hn : 2 * mu s + 2 ≤ n) : runWith (runFn n) n p s ≠ .oof := by
  intro e
  have := h _ _ _ s (calls_of hn) hs trivial (by simp [Left])
  rw [e] at this
  exact this

theorem Stay.fin {α : Type} {p : Prog α} (h : Stay p) {R : ∀ α, Fn α → St → Out α} {n : Nat} {s : St} : runWith R n p s ≠ .oof := by
  intro e
  have := h R n s
  rw [e] at this
  exact this

theorem next_fin {s : St} : s.next ≠ .oof := by
  unfold St.next
  split
  · nofun
  · split <;> nofun

theorem skipDelims_fin {n : Nat} {s : St} (hs : BInv s) (hd : s.delim ≠ .eof) (hn : mu s < n) :
    runWith (runFn n) n skipDelims s ≠ .oof := by
  refine loop_fin (fun t => BInv t ∧ t.delim ≠ .eof) ?_ () s ⟨hs, hd⟩ hn
  rintro ⟨⟩ t ⟨ht, hd⟩
  show StepFin _ t (runWith (runFn n) n (if t.token = t.delim then (consume >>= fun _ => pure (Step.cont ())) else pure (Step.done _)) t)
  split
  · next e =>
    show StepFin _ t (runWith (runFn n) n (Prog.bind consume _) t)
    have h1 := next_good ht
    cases hx : runWith (runFn n) n consume t with
    | ok u t' =>
      unfold runWith
      rw [hx]
      have hx := (consume_ok hx).2
      rw [hx] at h1
      have h3 := next_ok ht hx
      exact ⟨⟨h1.1, by rw [h3.2.2.1]; exact hd⟩, mu_next ht (e ▸ hd) hx⟩
    | err _ => unfold runWith; rw [hx]; trivial
    | panic _ => unfold runWith; rw [hx]; trivial
    | oof => exact absurd hx (bind_fin (curS_stay.fin) fun a s' _ => bind_fin next_fin fun _ _ _ => nofun)
  · trivial

theorem skipToDelim_fin {n : Nat} {s : St} (hs : BInv s) (hn : mu s < n) : runWith (runFn n) n skipToDelim s ≠ .oof := by
  refine loop_fin BInv ?_ () s hs hn
  rintro ⟨⟩ t ht
  have h1 := next_good ht
  show StepFin _ t (runWith (runFn n) n (Prog.bind next _) t)
  unfold runWith
  rw [show runWith (runFn n) n next t = t.next from rfl]
  cases hx : t.next with
  | ok u t' =>
    rw [hx] at h1
    show StepFin _ t (runWith (runFn n) n (if t'.token = t'.delim then pure (Step.done false) else
      if t'.token = .eof then pure (Step.done true) else pure (Step.cont ())) t')
    split
    · trivial
    · split
      · trivial
      · next e =>
        refine ⟨h1.1, mu_next ht ?_ hx⟩
        intro e'
        have h4 := mu_mono ht h1.1 h1.2
        have h5 : mu t = 0 := by
          have := ht.tok
          rw [e'] at this
          have := eof_end this
          unfold mu; simp [e']; omega
        have h6 : 0 < mu t' := by unfold mu; simp [e]
        omega
  | err _ => trivial
  | panic _ => trivial
  | oof => exact next_fin hx

theorem topStatement_fin {n : Nat} {s : St} (hs : BInv s) (hn : 2 * mu s + 3 ≤ n) : runWith (runFn n) n topStatement s ≠ .oof := by
  refine bind_fin (runFn_fin n _ _ s hs hn) fun o s' _ => orExpected_stay.fin

theorem tryP_fin {α : Type} {R : ∀ α, Fn α → St → Out α} {n : Nat} {p : Prog α} {s : St} (hp : runWith R n p s ≠ .oof) :
    runWith R n (.tryP p) s ≠ .oof := by
  unfold runWith
  split
  · nofun
  · nofun
  · nofun
  · next h => exact fun _ => hp h

theorem ctk_fin {R : ∀ α, Fn α → St → Out α} {n : Nat} {t : Token} {s : St} : runWith R n (ctk t) s ≠ .oof := by
  show runWith R n (if s.token = t then consume else expectedFailure (.tok t)) s ≠ .oof
  split
  · exact bind_fin (curS_stay.fin) fun a s' _ => bind_fin next_fin fun _ _ _ => nofun
  · exact expectedFailure_stay.fin

theorem afterDelim_fin {n : Nat} {acc : List SAst} {b : Bool} {s : St} (hs : BInv s) : runWith (runFn n) n (afterDelim acc b) s ≠ .oof := by
  unfold afterDelim
  split
  · refine bind_fin ?_ fun _ _ _ => nofun
    intro e
    have := stdin_left hs
    rw [show Op.run .stdin s = runWith (runFn n) n (.op .stdin) s from rfl, e] at this
    exact this
  · refine bind_fin delim_stay.fin fun d s' _ => bind_fin (tryP_fin ctk_fin) fun o s' _ => ?_
    cases o <;> nofun

theorem finishStatement_fin {n : Nat} {acc : List SAst} {r : Option SAst} {s : St} (hs : BInv s) (hn : mu s < n) :
    runWith (runFn n) n (finishStatement acc r) s ≠ .oof := by
  have hS : ∀ {t : St} {b : Bool}, BInv t → runWith (runFn n) n
      (if b = true then pure (Step.done (acc ++ r.toList)) else (afterDelim (acc ++ r.toList) (match r with
    | some v => v.readsStdin
    | none => false) >>= fun acc' => pure (Step.cont acc')) : Prog (Step (List SAst) (List SAst))) t ≠ .oof := by
    intro t b ht
    cases b
    · exact bind_fin (afterDelim_fin ht) fun _ _ _ => nofun
    · nofun
  refine bind_fin curT_stay.fin fun t s1 h1 => ?_
  obtain ⟨g1, g2⟩ := run_mu (runFn_good n) hs h1
  refine bind_fin delim_stay.fin fun d s2 h2 => ?_
  obtain ⟨g3, g4⟩ := run_mu (runFn_good n) g1 h2
  refine bind_fin ?_ fun b s3 h3 => hS (run_mu (runFn_good n) g3 h3).1
  split
  · refine bind_fin (when_stay expectedError_stay).fin fun _ s4 h4 => ?_
    obtain ⟨g5, g6⟩ := run_mu (runFn_good n) g3 h4
    exact skipToDelim_fin g5 (by omega)
  · nofun

theorem statementsStep_fin {n : Nat} {acc : List SAst} {s : St} (hs : BInv s) (hd : s.delim ≠ .eof) (hn : 2 * mu s + 3 ≤ n) :
    runWith (runFn n) n (statementsStep acc) s ≠ .oof := by
  refine bind_fin (skipDelims_fin hs hd (by omega)) fun b s1 h1 => ?_
  obtain ⟨g1, g2⟩ := run_mu (runFn_good n) hs h1
  cases b with
  | true => nofun
  | false =>
    refine bind_fin ((skw_po (m := false) (P := Top)).fin g1 (by omega)) fun o s2 h2 => ?_
    obtain ⟨g3, g4⟩ := run_mu (runFn_good n) g1 h2
    cases o with
    | some sp =>
      refine bind_fin ?_ fun _ _ _ => nofun
      exact bind_fin cur_stay.fin fun a _ _ => bind_fin (when_stay warn_stay).fin fun _ _ _ => bind_fin setDelim_stay.fin fun _ _ _ => next_fin
    | none =>
      refine bind_fin (tryP_fin (topStatement_fin g3 (by omega))) fun r s4 h4 => ?_
      obtain ⟨g5, g6⟩ := run_mu (runFn_good n) g3 h4
      exact finishStatement_fin g5 (by omega)

theorem statements_fin {n : Nat} {s : St} (hN : ∀ t, Between chk src old opts t → ¬ DelimiterEnd t)
    (hb : Between chk src old opts s) (hd : s.delim ≠ .eof) (hn : 2 * mu s + 3 ≤ n) :
    runWith (runFn n) n statements s ≠ .oof := by
  refine loop_fin (fun t => Between chk src old opts t ∧ t.delim ≠ .eof ∧ mu t ≤ mu s) ?_ [] s ⟨hb, hd, Nat.le_refl _⟩ (by omega)
  rintro acc t ⟨h1, h2, h3⟩
  have h4 := statementsStep_fin (acc := acc) (n := n) (between_inv h1).base h2 (by omega)
  cases h5 : runWith (runFn n) n (statementsStep acc) t with
  | ok r t' =>
    cases r with
    | done => trivial
    | cont acc' =>
      obtain ⟨l, t1, -, g1, g2⟩ := statementsStep_run h5
      obtain ⟨k1, k2, k3, -⟩ := rounds_progress hN h1 h2 g1
      obtain ⟨k5, k6⟩ := round_progress (between_inv k1) k2 (hN _ k1) g2
      have k7 : Between chk src old opts t' := by
        obtain ⟨s0, l0, e1, e2⟩ := k1
        exact ⟨s0, _, e1, e2.trans (.one g2)⟩
      exact ⟨⟨k7, k5, by omega⟩, by omega⟩
  | err _ => trivial
  | panic _ => trivial
  | oof => exact h4 h5

/-! ### The theorems -/

theorem new_base {iss : Issues} {s : St} (h : St.new chk src iss opts = .ok () s) : BInv s ∧ mu s ≤ blen src + 1 := by
  unfold St.new at h
  split at h
  · next t sp lx hx =>
    cases h
    obtain ⟨g1, g2, g3, g4, g5, g6, g7, g8⟩ := nextToken_inv (lexInv_new chk src) hx
    have g2 : lx.src = src := g2
    have := nextToken_tok (lexInv_new chk src) hx
    refine ⟨⟨g1, by rw [g2]; exact this, Nat.le_of_eq g5, by simp⟩, ?_⟩
    unfold mu
    simp only [g2]
    split <;> omega
  · cases h

theorem running_of {α : Type} {d : α} {p : Prog α} {n : Nat} {iss : Issues} (h : runApi d p n chk src iss opts = .running) :
    ∃ s, St.new chk src iss opts = .ok () s ∧ p.run n s = .oof := by
  unfold runApi at h
  split at h
  · next s hs =>
    refine ⟨s, hs, ?_⟩
    unfold Out.res at h
    split at h
    · cases h
    · cases h
    · cases h
    · assumption
  · next hs => unfold St.new at hs; split at hs <;> cases hs
  · cases h
  · next hs => unfold St.new at hs; split at hs <;> cases hs

/-- **C01** for `parse_statement`: the call returns (or panics) for every source, options and list of earlier issues.
Neither the depth of the recursion nor the number of rounds of any loop exceeds `2 * length + 5`. -/
theorem C01_one (iss : Issues) (n : Nat) (hn : 2 * blen src + 5 ≤ n) : Api.one.run n chk src iss opts ≠ .running := by
  intro h
  obtain ⟨s, h1, h2⟩ := running_of h
  obtain ⟨h3, h4⟩ := new_base h1
  refine absurd h2 (bind_fin (tryP_fin (runFn_fin n _ _ s h3 (show 2 * mu s + 1 + 2 ≤ n by omega))) fun r s' _ => ?_)
  split
  · exact bind_fin curT_stay.fin fun _ _ _ => bind_fin (when_stay expectedError_stay).fin fun _ _ _ => nofun
  · exact bind_fin expectedError_stay.fin fun _ _ _ => nofun
  · nofun

/-- `parse_statement` returns or panics. -/
theorem C01_one_outcome (iss : Issues) :
    (∃ a is, Api.one.Returns chk src iss opts a is) ∨ (∃ m, Api.one.Panics chk src iss opts m) := by
  have h := C01_one (chk := chk) (src := src) (opts := opts) iss _ (Nat.le_refl _)
  cases h1 : Api.one.run (2 * blen src + 5) chk src iss opts with
  | ret a is => exact .inl ⟨a, is, _, h1⟩
  | panic m => exact .inr ⟨m, _, h1⟩
  | running => exact absurd h1 h

/-- **C01** for `parse_statements`, what is true of it: the call returns (or panics), unless it comes, between two statements,
to a keyword DELIMITER that is the last token of the source. -/
theorem C01_many_partial (n : Nat) (hn : 2 * blen src + 5 ≤ n)
    (hN : ∀ s, Between chk src old opts s → ¬ DelimiterEnd s) : Api.many.run n chk src ⟨src, old⟩ opts ≠ .running := by
  intro h
  obtain ⟨s, h1, h2⟩ := running_of h
  obtain ⟨h3, h4⟩ := new_base h1
  exact statements_fin hN ⟨s, [], h1, .nil⟩ (by rw [(new_fields h1).2.1]; nofun) (by omega) h2

/-- The last token of the text is the word DELIMITER: only blanks and comments come after it. -/
def EndsInDelimiter (src : List Char) : Prop :=
  ∃ pre w tail, src = pre ++ (w ++ tail) ∧ upper w = c!"DELIMITER" ∧ Skipped tail []

theorem new_fresh {s : St} (h : St.new chk src ⟨src, old⟩ opts = .ok () s) : Fresh s := by
  unfold St.new at h
  split at h
  · next t sp lx hx =>
    cases h
    exact ⟨rfl, (nextToken_inv (lexInv_new chk src) hx).2.2.2.2.1⟩
  · cases h

theorem between_fresh {s : St} (h : Between chk src old opts s) : Fresh s := by
  obtain ⟨s0, l, h1, h2⟩ := h
  have : ∀ s l s', Rounds s l s' → SInv chk src opts s → Fresh s → Fresh s' := by
    intro s l s' h
    induction h with
    | nil => exact fun _ h => h
    | cons h _ ih => exact fun hs _ => ih (round_inv hs h).1 (round_fresh hs h)
  exact this _ _ _ h2 (new_sinv h1) (new_fresh h1)

theorem delimiterEnd_text {s : St} (hs : SInv chk src opts s) (hf : Fresh s) (h : DelimiterEnd s) : EndsInDelimiter src := by
  obtain ⟨-, h1, s1, s2, h2, h3, h4⟩ := h
  obtain ⟨-, e1, e2, e3⟩ := mayLog_mu h2.mayLog
  obtain ⟨v, hv⟩ := isKw_iff h1
  have ht := hs.base.tok
  rw [hv, hs.src] at ht
  obtain ⟨a, w, b, g1, g2, g3, g4, -⟩ := ht
  have hw : upper w = c!"DELIMITER" := by
    rcases g4 with ⟨rfl, -, -, -, -, k⟩ | ⟨-, -, k⟩
    · have := (C06_recognised_iff _ _ (by decide)).1 k.symm
      exact (Option.some.inj this).symm
    · cases k
  refine ⟨a, w, b, g1, hw, ?_⟩
  have h3 : s1.next = .ok () s2 := h3
  unfold St.next at h3
  rw [e1, hf.1] at h3
  simp only at h3
  split at h3
  · next t sp lx hx =>
    cases h3
    have h4 : t = .eof := h4
    subst h4
    rw [e2] at hx
    obtain ⟨⟨pre, k1, k2⟩, -⟩ := hs.base.lex
    have := nextToken_spec s1.checked s.lx pre k1 k2
    rw [hx] at this
    obtain ⟨ts, w', l1, l2, -, -, -, -, l7, l8⟩ := this
    have l9 := l8.1 rfl
    subst l9
    have l10 : lx.rest = [] := l7.2
    have hl : blen (a ++ w) = blen pre := by
      have := hf.2
      simp; omega
    have hsrc : (a ++ w) ++ b = pre ++ s.lx.rest := by
      rw [← k1, hs.src, g1]; simp
    have hbr : b = s.lx.rest := by
      obtain ⟨q, hq⟩ := prefix_le hsrc (by omega)
      rw [hq] at hl hsrc
      have : q = [] := by
        cases q with
        | nil => rfl
        | cons c q => have := utf8Size_pos c; simp at hl; omega
      subst this
      simpa using hsrc
    rw [l10] at l1 l2
    simp at l1 l2
    rw [hbr, l1]
    exact l2
  · cases h3

/-- **C01**, in terms of the source: `parse_statements` returns (or panics) if the last token of the source is not
DELIMITER. -/
theorem C01_many_text_partial (n : Nat) (hn : 2 * blen src + 5 ≤ n) (hE : ¬ EndsInDelimiter src) :
    Api.many.run n chk src ⟨src, old⟩ opts ≠ .running := by
  refine C01_many_partial n hn fun s hb hD => ?_
  exact hE (delimiterEnd_text (between_inv hb) (between_fresh hb) hD)

/-! ### It does not always return -/

/-- At the end of the source, with the end as delimiter. -/
theorem skipDelims_hangs {n : Nat} {s : St} (ht : s.token = .eof) (hd : s.delim = .eof) (hn : s.next = .ok () s) :
    runWith (runFn n) n skipDelims s = .oof := by
  unfold skipDelims runWith
  have key : ∀ j, loopN (fun x s => runWith (runFn n) n ((fun _ => do
      let t ← curT
      let d ← Prog.op .delim
      if t = d then do
        let _ ← consume
        return .cont ()
      else return .done (decide (t = .eof)) : Unit → Prog (Step Unit Bool)) x) s) j () s = .oof := by
    intro j
    induction j with
    | zero => rfl
    | succ j ih =>
      have h : runWith (runFn n) n (do
          let t ← curT
          let d ← Prog.op .delim
          if t = d then do
            let _ ← consume
            return .cont ()
          else return .done (decide (t = .eof)) : Prog (Step Unit Bool)) s = .ok (.cont ()) s := by
        show runWith (runFn n) n (if s.token = s.delim then (consume >>= fun _ => pure (Step.cont ())) else pure (Step.done _)) s = _
        rw [if_pos (ht.trans hd.symm)]
        have hc : runWith (runFn n) n consume s = .ok s.span s := by
          show runWith (runFn n) n (.bind next fun _ => pure s.span) s = _
          unfold runWith
          rw [show runWith (runFn n) n next s = s.next from rfl, hn]
          rfl
        exact runWith_bind hc
      unfold loopN
      rw [h]
      exact ih
  exact key n

set_option maxRecDepth 100000 in
/-- **C01** is violated for `parse_statements`: on the source `DELIMITER` the call never returns. -/
theorem C01_violated : Api.many.Hangs chk c!"DELIMITER" ⟨c!"DELIMITER", old⟩ opts := by
  have h0 : ∃ s, St.new chk c!"DELIMITER" ⟨c!"DELIMITER", old⟩ opts = .ok () s ∧ ∀ n, ∃ s1, s1.token = .eof ∧ s1.delim = .eof ∧
      s1.next = .ok () s1 ∧ runWith (runFn (n + 1)) (n + 1) (statementsStep []) s = .ok (.cont []) s1 := by
    cases chk
    · refine ⟨_, rfl, fun n => ⟨_, ?_, ?_, ?_, rfl⟩⟩ <;> rfl
    · refine ⟨_, rfl, fun n => ⟨_, ?_, ?_, ?_, rfl⟩⟩ <;> rfl
  obtain ⟨s, h1, h2⟩ := h0
  intro n
  have key : statements.run n s = .oof := by
    show loopN (fun x s => runWith (runFn n) n (statementsStep x) s) n [] s = .oof
    cases n with
    | zero => rfl
    | succ n =>
      obtain ⟨s1, g1, g2, g3, g4⟩ := h2 n
      unfold loopN
      rw [g4]
      show loopN (fun x s => runWith (runFn (n + 1)) (n + 1) (statementsStep x) s) n [] s1 = .oof
      cases n with
      | zero => rfl
      | succ n =>
        have h3 := skipDelims_hangs (n := n + 1 + 1) g1 g2 g3
        have h4 : runWith (runFn (n + 1 + 1)) (n + 1 + 1) (statementsStep []) s1 = .oof := by
          unfold statementsStep
          show runWith _ _ (.bind skipDelims _) s1 = _
          unfold runWith
          rw [h3]
        unfold loopN
        rw [h4]
  show (match St.new chk c!"DELIMITER" ⟨c!"DELIMITER", old⟩ opts with
    | .ok _ s => (statements.run n s).res []
    | .err _ => .running
    | .panic m => .panic m
    | .oof => .running) = .running
  rw [h1]
  simp only [key, Out.res]

theorem trivia_head {u r : List Char} (h : Trivia u r) : ∃ c u', u = c :: u' ∧ (c = '-' ∨ c = '/' ∨
    (u' = [] ∧ (c = ' ' ∨ c = '\t' ∨ c = '\n' ∨ c = '\r'))) := by
  cases h with
  | blank c rest h => exact ⟨c, [], rfl, .inr (.inr ⟨rfl, h⟩)⟩
  | line a e body rest ha => exact ⟨a, _, rfl, ha.imp id .inl⟩
  | lastLine a body ha => exact ⟨a, _, rfl, ha.imp id .inl⟩
  | block => exact ⟨'/', _, rfl, .inr (.inl rfl)⟩

theorem skipped_head {c : Char} {l r : List Char} (h : Skipped (c :: l) r) :
    (c = '-' ∨ c = '/' ∨ c = ' ' ∨ c = '\t' ∨ c = '\n' ∨ c = '\r') ∧ (c = ' ' → Skipped l r) := by
  generalize hg : c :: l = g at h
  cases h with
  | nil => cases hg
  | cons u us _ h hs =>
    obtain ⟨d, u', rfl, h1⟩ := trivia_head h
    simp at hg
    obtain ⟨rfl, rfl⟩ := hg
    refine ⟨h1.imp id (.imp id And.right), ?_⟩
    rintro rfl
    rcases h1 with h1 | h1 | h1
    · cases h1
    · cases h1
    · rw [h1.1]; exact hs

/-- Non-vacuity of `C01_many_partial` and `C01_many_text_partial`: a source with a change of the delimiter and a statement
meets the hypotheses. -/
example : ¬ EndsInDelimiter c!"DELIMITER $$ SELECT 1 $$" := by
  rintro ⟨pre, w, tail, h1, h2, h3⟩
  have hl : w.length = 9 := by
    have := congrArg List.length h2
    simpa [upper] using this
  have hd : (c!"DELIMITER $$ SELECT 1 $$").drop pre.length = w ++ tail := by rw [h1]; simp
  have hw : w = ((c!"DELIMITER $$ SELECT 1 $$").drop pre.length).take 9 := by rw [hd]; simp [← hl]
  have hp : pre.length < 25 := by
    have := congrArg List.length h1
    simp at this
    omega
  have key : ∀ k < 25, upper (((c!"DELIMITER $$ SELECT 1 $$").drop k).take 9) = c!"DELIMITER" → k = 0 := by decide +kernel
  have h0 := key _ hp (hw ▸ h2)
  rw [h0] at hd hw
  have hw : w = c!"DELIMITER" := hw
  subst hw
  have ht : tail = c!" $$ SELECT 1 $$" := by
    have : c!"DELIMITER $$ SELECT 1 $$" = c!"DELIMITER" ++ tail := hd
    simpa using this.symm
  rw [ht] at h3
  have h4 := (skipped_head h3).2 rfl
  have := (skipped_head h4).1
  revert this
  decide
/-- Such a call returns. -/
example : ∃ a is, Api.many.Returns true c!"DELIMITER $$ SELECT 1 $$ -- x" ⟨c!"DELIMITER $$ SELECT 1 $$ -- x", []⟩ {} a is ∧
    decide (a.length = 1) = true :=
  returns_of_test (api := .many) (n := 63) (f := fun a _ => decide (a.length = 1)) (by decide +kernel)
/-- `C01_one` has no hypothesis about the source; it is used for a source with nested queries. -/
example : Api.one.run 91 true c!"SELECT (SELECT (SELECT 1 FROM t)) FROM t, u" ⟨[], []⟩ {} ≠ .running :=
  C01_one _ _ (by decide)

end SqlParse
