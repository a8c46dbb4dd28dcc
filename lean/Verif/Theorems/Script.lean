import Verif.Proofs.Copy
import Verif.Proofs.Rest
import Verif.Theorems.Result
import Verif.Theorems.Lexical
/-! C10 (parse_statements), C19, C20, C24, C27, C29, C35: lists of statements. -/
namespace SqlParse
variable {chk : Bool} {src : List Char} {old : List Issue} {opts : Opts}

/-! ### The states on the way -/

/-- The invariant of the states between statements. -/
abbrev SInv (chk : Bool) (src : List Char) (opts : Opts) (s : St) : Prop := Inv (trivCtx chk src opts []) s

theorem advance_inv {C : Ctx} {s s' : St} (hs : Inv C s) (h : Advance s s') :
    Inv C s' ∧ s'.delim = s.delim ∧ s'.permit = s.permit ∧ s'.issues = s.issues ∧ s'.peeked = none := by
  rcases next_inv hs with ⟨s1, h1, h2, h3, h4, h5, h6, h7, -⟩ | ⟨m, h1, h2⟩
  · rw [show s.next = .ok () s' from h] at h1
    cases h1
    exact ⟨h2, h4, h5, h7, h6⟩
  · rw [show s.next = .ok () s' from h] at h1
    cases h1

theorem Inv.issues {C : Ctx} {s : St} (h : Inv C s) (l : List Issue) (hl : s.issues.length ≤ l.length) (hC : C.tr → False) : Inv C { s with issues := l } :=
  ⟨⟨h.base.lex, h.base.tok, h.base.pos, h.base.peek⟩, h.src, h.isrc, h.opts, h.chk, h.lo, Nat.le_trans h.n0 hl, h.arg, h.pw, h.mark, fun h => (hC h).elim⟩

theorem logs_inv {C : Ctx} {s s' : St} {l : Level} (hs : Inv C s) (h : Logs l s s') (hC : C.tr → False := by exact id) :
    Inv C s' ∧ s'.delim = s.delim ∧ s'.permit = s.permit ∧ s'.token = s.token ∧ ∃ i, i.level = l ∧ s'.issues = s.issues ++ [i] := by
  obtain ⟨i, h1, rfl⟩ := h
  exact ⟨hs.issues _ (by simp) hC, rfl, rfl, rfl, i, h1, rfl⟩

theorem mayLog_inv {C : Ctx} {s s' : St} (hs : Inv C s) (h : MayLog s s') (hC : C.tr → False := by exact id) :
    Inv C s' ∧ s'.delim = s.delim ∧ s'.permit = s.permit ∧ s'.token = s.token ∧ ∃ l, s'.issues = s.issues ++ l := by
  rcases h with rfl | ⟨l, h⟩
  · exact ⟨hs, rfl, rfl, rfl, [], by simp⟩
  · obtain ⟨h1, h2, h3, h4, i, -, h5⟩ := logs_inv hs h hC
    exact ⟨h1, h2, h3, h4, _, h5⟩

/-- The context for one statement, from `s` to `s'`. -/
def stmtCtx (chk : Bool) (src : List Char) (opts : Opts) (s s' : St) : Ctx :=
  { src := src, opts := opts, chk := chk, n0 := s.issues.length, E := HasErr s.issues.length s', lo := 0, hi := blen src,
    argOK := fun _ _ => True, said := fun _ => True, tr := False }

theorem SInv.stmt {s s' : St} (h : SInv chk src opts s) : Inv (stmtCtx chk src opts s s') s :=
  ⟨h.base, h.src, h.isrc, h.opts, h.chk, Nat.zero_le _, Nat.le_refl _, h.arg, h.pw, h.mark, False.elim⟩

theorem Inv.triv {C : Ctx} {s : St} (h : Inv C s) (h1 : C.src = src) (h2 : C.opts = opts) (h3 : C.chk = chk) : SInv chk src opts s := by
  subst h1 h2 h3
  exact ⟨h.base, h.src, h.isrc, h.opts, h.chk, Nat.zero_le _, Nat.zero_le _, h.arg, h.pw, h.mark, False.elim⟩

theorem stmt_fut {s s' : St} (hs : SInv chk src opts s) (hb : BInv s') (hm : Mono s s') : Fut (stmtCtx chk src opts s s') s' := by
  refine ⟨id, ?_, fun _ _ _ => trivial, fun _ _ => trivial⟩
  have := hb.tok.bounds.2.2.2
  rw [hm.src, hs.src] at this
  exact this

theorem errorAdded_of {s s' : St} (hm : Mono s s') (h : HasErr s.issues.length s') : ErrorAdded s s' := by
  obtain ⟨l, h1, -⟩ := hm.issues
  refine ⟨l, h1, ?_⟩
  unfold HasErr at h
  rw [h1] at h
  simpa using h

theorem perm_mode {s s' : St} (hm : Mono s s') (h : Perm (stmtCtx chk src opts s s') s s') : ModeKept chk src s s' :=
  h.imp id (fun h => ⟨h.2.1, errorAdded_of hm h.1, h.2.2⟩)

theorem ErrorAdded.then {s s1 s' : St} (h : ErrorAdded s s1) {l : List Issue} (hl : s'.issues = s1.issues ++ l) : ErrorAdded s s' := by
  obtain ⟨new, h1, h2⟩ := h
  exact ⟨new ++ l, by rw [hl, h1]; simp, HasError_append.2 (.inl h2)⟩

theorem ModeKept.then {s s1 s' : St} (h : ModeKept chk src s s1) (hp : s'.permit = s1.permit) {l : List Issue}
    (hl : s'.issues = s1.issues ++ l) : ModeKept chk src s s' :=
  h.imp hp.trans (fun h => ⟨hp.trans h.1, h.2.1.then hl, h.2.2⟩)

theorem parsesTo_inv {s s' : St} {v : SAst} (hs : SInv chk src opts s) (h : ParsesTo s v s') :
    SInv chk src opts s' ∧ s'.delim = s.delim ∧ ModeKept chk src s s' ∧ ∃ l, s'.issues = s.issues ++ l := by
  obtain ⟨n, h⟩ := h
  have hp := run_safe (C := stmtCtx chk src opts s s') (callStatement_safe (P := fun _ => True)) n hs.stmt
  have hg := run_good n (.call .statement) s hs.base
  rw [h] at hp hg
  obtain ⟨h1, -, h2, h3⟩ := hp (stmt_fut hs hg.1 hg.2)
  obtain ⟨l, hl, -⟩ := hg.2.issues
  exact ⟨h1.triv rfl rfl rfl, h2, perm_mode hg.2 h3, l, hl⟩

theorem failsTo_inv {s s' : St} (hs : SInv chk src opts s) (h : FailsTo s s') :
    SInv chk src opts s' ∧ s'.delim = s.delim ∧ ErrorAdded s s' ∧ ModeKept chk src s s' := by
  obtain ⟨n, h⟩ := h
  rcases h with h | ⟨s1, h, hl⟩
  · have hp := run_safe (C := stmtCtx chk src opts s s') (callStatement_safe (P := fun _ => True)) n hs.stmt
    have hg := run_good n (.call .statement) s hs.base
    rw [h] at hp hg
    obtain ⟨h1, h2, h3, h4⟩ := hp (stmt_fut hs hg.1 hg.2)
    exact ⟨h1.triv rfl rfl rfl, h3, errorAdded_of hg.2 h2, perm_mode hg.2 h4⟩
  · have hp := run_safe (C := stmtCtx chk src opts s s1) (callStatement_safe (P := fun _ => True)) n hs.stmt
    have hg := run_good n (.call .statement) s hs.base
    rw [h] at hp hg
    obtain ⟨h1, -, h2, h3⟩ := hp (stmt_fut hs hg.1 hg.2)
    obtain ⟨k1, k2, k3, k4, i, k5, k6⟩ := logs_inv (h1.triv (src := src) (opts := opts) (chk := chk) rfl rfl rfl) hl.logs
    obtain ⟨l, hl, -⟩ := hg.2.issues
    exact ⟨k1, k2.trans h2, ⟨l ++ [i], by rw [k6, hl]; simp, i, by simp, k5⟩, (perm_mode hg.2 h3).then k3 k6⟩

theorem skipTo_inv {C : Ctx} {s s' : St} (hs : Inv C s) (h : SkipTo s s') :
    Inv C s' ∧ s'.delim = s.delim ∧ s'.permit = s.permit ∧ s'.issues = s.issues ∧ s'.token = s.delim := by
  induction h with
  | here h hd =>
    obtain ⟨h1, h2, h3, h4, -⟩ := advance_inv hs h
    exact ⟨h1, h2, h3, h4, hd.trans h2⟩
  | next h hd he _ ih =>
    obtain ⟨h1, h2, h3, h4, -⟩ := advance_inv hs h
    obtain ⟨k1, k2, k3, k4, k5⟩ := ih h1
    exact ⟨k1, k2.trans h2, k3.trans h3, k4.trans h4, k5.trans h2⟩

theorem skipToEnd_inv {C : Ctx} {s s' : St} (hs : Inv C s) (h : SkipToEnd s s') :
    Inv C s' ∧ s'.delim = s.delim ∧ s'.issues = s.issues := by
  induction h with
  | here h hd =>
    obtain ⟨h1, h2, h3, h4, -⟩ := advance_inv hs h
    exact ⟨h1, h2, h4⟩
  | next h hd he _ ih =>
    obtain ⟨h1, h2, h3, h4, -⟩ := advance_inv hs h
    obtain ⟨k1, k2, k4⟩ := ih h1
    exact ⟨k1, k2.trans h2, k4.trans h4⟩

theorem readsData_run {s s' : St} {d : List Char} {sp : Span} (h : ReadsData s d sp s') : Op.run .stdin s = .ok (d, sp) s' := by
  obtain ⟨lx, h1, h2⟩ := h
  simp only [Op.run, h1]
  rw [show St.next { s with lx := lx, dataLog := s.dataLog ++ [(s.span, d, sp)] } = .ok () s' from h2]

theorem readsData_inv {s s' : St} {d : List Char} {sp : Span} (hs : SInv chk src opts s) (h : ReadsData s d sp s') :
    SInv chk src opts s' ∧ s'.delim = s.delim ∧ s'.permit = s.permit ∧ s'.issues = s.issues ∧ SpanIs src sp d := by
  have h1 := stdin_post hs (.inr (Nat.le_refl _))
  have hg := op_good .stdin hs.base
  rw [readsData_run h] at h1 hg
  have ht : Fut (trivCtx chk src opts []) s' := by
    refine ⟨fun _ => trivial, ?_, fun _ _ _ => trivial, fun _ _ => trivial⟩
    have := hg.1.tok.bounds.2.2.2
    rw [hg.2.src, hs.src] at this
    exact this
  obtain ⟨k1, k2, k3, -⟩ := h1 ht
  obtain ⟨lx, e1, e2⟩ := h
  have hn : s'.issues = s.issues ∧ s'.permit = s.permit := by
    have e2 : St.next { s with lx := lx, dataLog := s.dataLog ++ [(s.span, d, sp)] } = .ok () s' := e2
    unfold St.next at e2
    split at e2
    · cases e2; exact ⟨rfl, rfl⟩
    · split at e2
      · cases e2; exact ⟨rfl, rfl⟩
      · cases e2
  exact ⟨k1, k3, hn.2, hn.1, slice_spanIs k2.2⟩

theorem terminate_inv {s s' : St} {v : SAst} {out : List SAst} (hs : SInv chk src opts s) (h : Terminate v s out s') :
    SInv chk src opts s' ∧ s'.delim = s.delim ∧ s'.permit = s.permit ∧ s'.issues = s.issues := by
  cases h with
  | plain hv h =>
    obtain ⟨h1, h2, h3, h4, -⟩ := advance_inv hs h
    exact ⟨h1, h2, h3, h4⟩
  | copy hv h =>
    obtain ⟨h1, h2, h3, h4, -⟩ := readsData_inv hs h
    exact ⟨h1, h2, h3, h4⟩

/-- Everything about a round. -/
theorem round_inv {s s' : St} {out : List SAst} (hs : SInv chk src opts s) (h : Round s out s') :
    SInv chk src opts s' ∧ (∃ l, s'.issues = s.issues ++ l) ∧ (CleanRound s out s' ∨ ErrorAdded s s') ∧
    (s'.delim = s.delim ∨ (s.token.isKw .DELIMITER = true ∧ out = [] ∧ ∃ s1 s2, CapsNote s s1 ∧ Advance s1 s2 ∧ s'.delim = s2.token)) ∧
    ModeKept chk src s s' := by
  cases h with
  | clean h =>
    refine ⟨?_, ?_, .inl h, ?_⟩
    all_goals cases h with
    | skip hd h =>
      obtain ⟨h1, h2, h3, h4, -⟩ := advance_inv hs h
      first | exact h1 | exact ⟨[], by rw [h4]; simp⟩ | exact ⟨.inl h2, .inl h3⟩
    | @delimiter s1 s2 s3 _ hd hk h1 h2 h3 h4 =>
      obtain ⟨a1, a2, a3, a4, l1, a5⟩ := mayLog_inv hs h1.mayLog
      obtain ⟨b1, b2, b3, b4, -⟩ := advance_inv a1 h2
      obtain ⟨c1, c2, c3, c4, l2, c5⟩ := mayLog_inv b1 h3.mayLog
      obtain ⟨d1, d2, d3, d4, -⟩ := advance_inv (c1.setDelim s2.token) h4
      first
      | exact d1
      | exact ⟨l1 ++ l2, by rw [d4]; show s3.issues = _; rw [c5, b4, a5]; simp⟩
      | exact ⟨.inr ⟨hk, rfl, s1, s2, h1, h2, d2⟩, .inl (d3.trans (c3.trans (b3.trans a3)))⟩
    | stmt hst h hd ht =>
      obtain ⟨a1, a2, a3, l, a4⟩ := parsesTo_inv hs h
      obtain ⟨b1, b2, b3, b4⟩ := terminate_inv a1 ht
      first
      | exact b1
      | exact ⟨l, by rw [b4, a4]⟩
      | exact ⟨.inl (b2.trans a2), a3.then b3 (l := []) (by rw [b4]; simp)⟩
  | garbage hst h hd hl hk ht =>
    obtain ⟨a1, a2, a3, l, a4⟩ := parsesTo_inv hs h
    obtain ⟨b1, b2, b3, b4, i, b5, b6⟩ := logs_inv a1 hl.logs
    obtain ⟨c1, c2, c3, c4, c5⟩ := skipTo_inv b1 hk
    obtain ⟨d1, d2, d3, d4⟩ := terminate_inv c1 ht
    have hi : s'.issues = s.issues ++ (l ++ [i]) := by rw [d4, c4, b6, a4]; simp
    have he : ErrorAdded s s' := ⟨_, hi, i, by simp, b5⟩
    exact ⟨d1, ⟨_, hi⟩, .inr he, .inl (d2.trans (c2.trans (b2.trans a2))),
      a3.then (d3.trans (c3.trans b3)) (l := [i]) (by rw [d4, c4, b6])⟩
  | failed hst h hd ha =>
    obtain ⟨a1, a2, a3, a5⟩ := failsTo_inv hs h
    obtain ⟨b1, b2, b3, b4, -⟩ := advance_inv a1 ha
    have he : ErrorAdded s s' := a3.then (l := []) (by rw [b4]; simp)
    exact ⟨b1, ⟨_, he.choose_spec.1⟩, .inr he, .inl (b2.trans a2), a5.then b3 (l := []) (by rw [b4]; simp)⟩
  | skipped hst h hd hk ha =>
    obtain ⟨a1, a2, a3, a5⟩ := failsTo_inv hs h
    obtain ⟨c1, c2, c3, c4, c5⟩ := skipTo_inv a1 hk
    obtain ⟨b1, b2, b3, b4, -⟩ := advance_inv c1 ha
    have he : ErrorAdded s s' := a3.then (l := []) (by rw [b4, c4]; simp)
    exact ⟨b1, ⟨_, he.choose_spec.1⟩, .inr he, .inl (b2.trans (c2.trans a2)), a5.then (b3.trans c3) (l := []) (by rw [b4, c4]; simp)⟩

theorem lastRound_inv {s s' : St} {out : List SAst} (hs : SInv chk src opts s) (h : LastRound s out s') :
    SInv chk src opts s' ∧ (∃ l, s'.issues = s.issues ++ l) ∧
      ((s' = s ∧ out = [] ∧ s.token ≠ s.delim ∧ s.token = .eof) ∨ ErrorAdded s s') := by
  cases h with
  | eof hd he => exact ⟨hs, ⟨[], by simp⟩, .inl ⟨rfl, rfl, hd, he⟩⟩
  | garbage hst h hd hl hk =>
    obtain ⟨a1, a2, a3, l, a4⟩ := parsesTo_inv hs h
    obtain ⟨b1, b2, b3, b4, i, b5, b6⟩ := logs_inv a1 hl.logs
    obtain ⟨c1, c2, c3⟩ := skipToEnd_inv b1 hk
    have hi : s'.issues = s.issues ++ (l ++ [i]) := by rw [c3, b6, a4]; simp
    exact ⟨c1, ⟨_, hi⟩, .inr ⟨_, hi, i, by simp, b5⟩⟩
  | skipped hst h hd hk =>
    obtain ⟨a1, a2, a3, a5⟩ := failsTo_inv hs h
    obtain ⟨c1, c2, c3⟩ := skipToEnd_inv a1 hk
    have he : ErrorAdded s s' := a3.then (l := []) (by rw [c3]; simp)
    exact ⟨c1, ⟨_, he.choose_spec.1⟩, .inr he⟩

theorem rounds_inv {s s' : St} {l : List SAst} (hs : SInv chk src opts s) (h : Rounds s l s') :
    SInv chk src opts s' ∧ ∃ l, s'.issues = s.issues ++ l := by
  induction h with
  | nil => exact ⟨hs, [], by simp⟩
  | cons h _ ih =>
    obtain ⟨h1, ⟨l1, h2⟩, -⟩ := round_inv hs h
    obtain ⟨h3, l2, h4⟩ := ih h1
    exact ⟨h3, l1 ++ l2, by rw [h4, h2]; simp⟩

theorem new_sinv {s : St} (h : St.new chk src ⟨src, old⟩ opts = .ok () s) : SInv chk src opts s :=
  (new_inv (C := trivCtx chk src opts old) h rfl rfl rfl rfl rfl).triv rfl rfl rfl

theorem new_fields {s : St} (h : St.new chk src ⟨src, old⟩ opts = .ok () s) :
    s.issues = old ∧ s.delim = .semiColon ∧ s.permit = false ∧ s.peeked = none := by
  unfold St.new at h
  split at h
  · cases h; exact ⟨rfl, rfl, rfl, rfl⟩
  · cases h

theorem between_inv {s : St} (h : Between chk src old opts s) : SInv chk src opts s := by
  obtain ⟨s0, l, h1, h2⟩ := h
  exact (rounds_inv (new_sinv h1) h2).1

theorem rounds_listing {s s1 s' : St} {l1 l2 : List SAst} (hs : SInv chk src opts s) (h : Rounds s l1 s1) (hl : LastRound s1 l2 s')
    (hE : ¬ ErrorAdded s s') : Listing s.delim s (l1 ++ l2) s' := by
  induction h with
  | nil =>
    obtain ⟨-, -, h | h⟩ := lastRound_inv hs hl
    · obtain ⟨rfl, rfl, h1, h2⟩ := h
      exact .eof h1 h2
    · exact absurd h hE
  | cons h hr ih =>
    obtain ⟨h1, ⟨k1, h2⟩, h3, -⟩ := round_inv hs h
    obtain ⟨h4, k2, h5⟩ := rounds_inv h1 hr
    obtain ⟨h6, ⟨k3, h7⟩, -⟩ := lastRound_inv h4 hl
    have ih := ih h1 hl (by
      rintro ⟨new, e1, e2⟩
      exact hE ⟨k1 ++ new, by rw [e1, h2]; simp, HasError_append.2 (.inr e2)⟩)
    have hc := h3.resolve_right (fun he => hE (he.then (l := k2 ++ k3) (by rw [h7, h5]; simp)))
    clear h3
    rw [List.append_assoc]
    cases hc with
    | skip hd h =>
      obtain ⟨-, g2, -⟩ := advance_inv hs h
      rw [g2] at ih
      exact .skip hd h ih
    | @delimiter s1 s2 s3 _ hd hk h1 h2 h3 h4 =>
      obtain ⟨a1, a2, a3, a4, l1, a5⟩ := mayLog_inv hs h1.mayLog
      obtain ⟨b1, b2, b3, b4, -⟩ := advance_inv a1 h2
      obtain ⟨c1, c2, c3, c4, l2, c5⟩ := mayLog_inv b1 h3.mayLog
      obtain ⟨d1, d2, d3, d4, -⟩ := advance_inv (c1.setDelim s2.token) h4
      rw [d2] at ih
      exact .delimiter hd hk h1 h2 h3 h4 ih
    | stmt hst h hd ht =>
      obtain ⟨a1, a2, a3, l, a4⟩ := parsesTo_inv hs h
      obtain ⟨b1, b2, b3, b4⟩ := terminate_inv a1 ht
      rw [b2, a2] at ih
      exact .stmt hst.1 hst.2.1 hst.2.2 h (hd.trans a2) ht ih

/-- A call of `parse_statements` that returns, as a list of rounds. -/
theorem many_rounds {l : List SAst} {is : List Issue} (h : Api.many.Returns chk src ⟨src, old⟩ opts l is) :
    ∃ s s1 s' l1 l2, St.new chk src ⟨src, old⟩ opts = .ok () s ∧ Rounds s l1 s1 ∧ LastRound s1 l2 s' ∧ l = l1 ++ l2 ∧
      s'.issues = is := by
  obtain ⟨new, s', h1, h2, ⟨n, s, h3, h4⟩, -⟩ := master h
  obtain ⟨l1, l2, s1, g1, g2, g3⟩ := statements_run h4
  exact ⟨s, s1, s', l1, l2, h3, g2, g3, g1, h2⟩

/-! ### COPY data -/

/-- The current token is the last one the lexer has read. -/
def Fresh (s : St) : Prop := s.peeked = none ∧ s.span.stop = s.lx.pos

theorem advance_fresh {s s' : St} (hb : BInv s) (hp : s.peeked = none) (h : Advance s s') : Fresh s' := by
  have h : s.next = .ok () s' := h
  unfold St.next at h
  rw [hp] at h
  simp only at h
  split at h
  · next t sp lx hn =>
    cases h
    exact ⟨by first | exact hp | rfl, (nextToken_inv hb.lex hn).2.2.2.2.1⟩
  · cases h

theorem good_ok {α : Type} {n m : Nat} {p : Prog α} {s s' : St} {a : α} (hb : BInv s) (h : runWith (runFn n) m p s = .ok a s') : BInv s' := by
  have := runWith_good (runFn_good n) m p s hb
  rw [h] at this
  exact this.1

theorem parseCopy_fresh {n m : Nat} {s s' : St} {a : Ast} (hb : BInv s) (h : runWith (runFn n) m parseCopy s = .ok a s') : Fresh s' := by
  unfold parseCopy at h
  obtain ⟨_, _, h1, h⟩ := bind_run h
  replace hb := good_ok hb h1
  obtain ⟨_, _, h1, h⟩ := bind_run h
  replace hb := good_ok hb h1
  obtain ⟨_, _, h1, h⟩ := bind_run h
  replace hb := good_ok hb h1
  obtain ⟨_, _, h1, h⟩ := bind_run h
  replace hb := good_ok hb h1
  obtain ⟨_, _, h1, h⟩ := bind_run h
  replace hb := good_ok hb h1
  obtain ⟨_, s0, h1, h⟩ := bind_run h
  replace hb := good_ok hb h1
  obtain ⟨_, s1, h1, h⟩ := bind_run h
  cases h
  obtain ⟨hk, -, s2, ⟨l, rfl⟩, h3⟩ := ckw_ok h1
  refine advance_fresh (s := { s0 with issues := l }) ⟨hb.lex, hb.tok, hb.pos, hb.peek⟩ ?_ h3
  show s0.peeked = none
  cases hp : s0.peeked with
  | none => rfl
  | some p =>
    obtain ⟨t, sp⟩ := p
    have := (hb.peek t sp hp).2.2.2
    obtain ⟨v, hv⟩ := isKw_iff hk
    rw [hv] at this
    simp only [Token.isKw] at this
    exact absurd this (by decide)

theorem copy_fresh {s s' : St} {v : SAst} (hb : BInv s) (h : ParsesTo s v s') (hv : v.readsStdin = true) :
    s.token.isKw .COPY = true ∧ Fresh s' := by
  obtain ⟨n, h⟩ := h
  cases n with
  | zero => cases h
  | succ n =>
    change runWith (runFn n) n statementBody s = _ at h
    have hc := (copy_peeked (runFn_query n) h hv).1
    refine ⟨hc, ?_⟩
    obtain ⟨w, hw⟩ := isKw_iff hc
    change runWith (runFn n) n (stmtDispatch s.token s.permit) s = _ at h
    rw [hw] at h
    change runWith (runFn n) n (.bind parseCopy _) s = _ at h
    obtain ⟨_, s1, h1, h⟩ := bind_run h
    cases h
    exact parseCopy_fresh hb h1

theorem skipTo_fresh {C : Ctx} {s s' : St} (hs : Inv C s) (hp : s.peeked = none) (h : SkipTo s s') : Fresh s' := by
  induction h with
  | here h hd => exact advance_fresh hs.base hp h
  | next h hd he _ ih =>
    obtain ⟨h1, h2, h3, h4, h5⟩ := advance_inv hs h
    exact ih h1 h5

/-- The data read at a delimiter. -/
theorem readsData_copy {s s' : St} {d : List Char} {sp : Span} (hs : SInv chk src opts s) (hf : Fresh s) (h : ReadsData s d sp s') :
    CopyAt chk src s.span.stop d sp s' := by
  obtain ⟨-, -, -, -, h5⟩ := readsData_inv hs h
  obtain ⟨lx, h1, h2⟩ := h
  obtain ⟨⟨pre, e1, e2⟩, -⟩ := hs.base.lex
  have e3 := hs.src
  have e4 : lx.src = s.lx.src ∧ LexInv s.checked lx := by
    obtain ⟨d', sp', lx', g1, g2, g3, -⟩ := readStdin_spec hs.base.lex
    rw [h1] at g1
    cases g1
    exact ⟨g3, g2⟩
  obtain ⟨e4, ⟨past, e5, e6⟩, -⟩ := e4
  obtain ⟨lead, g1, g2⟩ := readStdin_data _ e1 e2 h1
  refine ⟨pre, s.lx.rest, lead, past, lx, ?_, by rw [hf.2, e2], g1, by rw [hf.2]; exact g2, h5, e4.trans e3,
    by rw [← e5, e4]; exact e3.symm, e6, ?_⟩
  · rw [← e1]; exact e3.symm
  · have h2 : St.next { s with lx := lx, dataLog := s.dataLog ++ [(s.span, d, sp)] } = .ok () s' := h2
    have hchk := hs.chk
    unfold St.next at h2
    rw [show ({ s with lx := lx, dataLog := s.dataLog ++ [(s.span, d, sp)] } : St).peeked = none from hf.1] at h2
    simp only at h2
    split at h2
    · next t sp lx' hn =>
      cases h2
      rw [← show s.checked = chk from hchk]
      exact hn
    · cases h2

/-! ### The theorems -/

/-- A change of the delimiter and back. -/
def exDelimiter : List Char := c!"SELECT 1; DELIMITER $$ SELECT /*;é*/ 2 $$ DELIMITER ; SELECT 3;"
/-- Two statements, and two texts that are not statements. -/
def exRecovery : List Char := c!"SELECT 1; DROP x; (); SELECT é SELECT 2;"
/-- The given data. -/
def isStdin (d : List Char) (sp : Span) : Ast → Bool
  | .node .Statement_Stdin [.str d', .span sp'] => decide (d = d' ∧ sp = sp')
  | _ => false
/-- A COPY statement with data. -/
def exCopy : List Char := c!"COPY t (a) FROM STDIN;\n1é\n\\.\nSELECT 1;"


/-- **C10** (for `parse_statements`), **C27**: if no Error issue is added, the source is a list of statements, each one
followed by the delimiter - `;`, or the token given after the last `DELIMITER` - and all of them are returned. -/
theorem C27_listing (l : List SAst) (new : List Issue) (h : Api.many.Returns chk src ⟨src, old⟩ opts l (old ++ new))
    (hE : ¬ HasError new) :
    ∃ s s', St.new chk src ⟨src, old⟩ opts = .ok () s ∧ Listing .semiColon s l s' := by
  obtain ⟨s, s1, s', l1, l2, h1, h2, h3, rfl, h5⟩ := many_rounds h
  obtain ⟨f1, f2, f3, f4⟩ := new_fields h1
  refine ⟨s, s', h1, f2 ▸ rounds_listing (new_sinv h1) h2 h3 ?_⟩
  rintro ⟨new', e1, e2⟩
  rw [h5, f1] at e1
  have : new = new' := by simpa using e1
  subst this
  exact hE e2

/-- Non-vacuity: three statements, two delimiters, no Error issue. -/
example : ∃ a is, Api.many.Returns true exDelimiter ⟨exDelimiter, []⟩ {} a is ∧ (decide (a.length = 3) && !hasErrorB is) = true :=
  returns_of_test (api := .many) (n := 40) (f := fun a is => decide (a.length = 3) && !hasErrorB is) (by decide +kernel)

/-- **C10** (for `parse_statements`), **C29**: in general the returned list comes from rounds; a round is either a
delimiter, a DELIMITER command or a statement followed by the delimiter, or it adds an Error issue and then goes on
after the next delimiter token. -/
theorem C29_recovery (l : List SAst) (is : List Issue) (h : Api.many.Returns chk src ⟨src, old⟩ opts l is) :
    ∃ s s1 s' l1 l2, St.new chk src ⟨src, old⟩ opts = .ok () s ∧ Rounds s l1 s1 ∧ LastRound s1 l2 s' ∧ l = l1 ++ l2 ∧
      s'.issues = is ∧
      (∀ t out t', Between chk src old opts t → Round t out t' → CleanRound t out t' ∨ ErrorAdded t t') ∧
      ((l2 = [] ∧ s1.token = .eof) ∨ ErrorAdded s1 s') := by
  obtain ⟨s, s1, s', l1, l2, h1, h2, h3, rfl, h5⟩ := many_rounds h
  refine ⟨s, s1, s', l1, l2, h1, h2, h3, rfl, h5, ?_, ?_⟩
  · intro t out t' ht hr
    exact (round_inv (between_inv ht) hr).2.2.1
  · obtain ⟨-, -, h | h⟩ := lastRound_inv (rounds_inv (new_sinv h1) h2).1 h3
    · exact .inl ⟨h.2.1, h.2.2.2⟩
    · exact .inr h

/-- Non-vacuity: only the first and the last text are statements, there are Error issues. -/
example : ∃ a is, Api.many.Returns true exRecovery ⟨exRecovery, []⟩ {} a is ∧ (decide (a.length = 2) && hasErrorB is) = true :=
  returns_of_test (api := .many) (n := 40) (f := fun a is => decide (a.length = 2) && hasErrorB is) (by decide +kernel)

/-- **C24** (states): after a statement `COPY .. FROM STDIN` and the delimiter (possibly with other tokens between them,
then there is an Error issue) the data is the text of the following lines up to the line `\.`, its span is right, and the
next token is the first one after that line. -/
theorem C24_data (s s1 s2 s' : St) (v : SAst) (d : List Char) (sp : Span) (hs : Between chk src old opts s)
    (hp : ParsesTo s v s1) (hk : (s2 = s1 ∧ s1.token = s1.delim) ∨ ∃ s3, Reports .error (.expected (.tok s1.delim)) s1 s3 ∧ SkipTo s3 s2) (hv : v.readsStdin = true)
    (hr : ReadsData s2 d sp s') : s2.token = s2.delim ∧ CopyAt chk src s2.span.stop d sp s' := by
  have hs := between_inv hs
  obtain ⟨hc, hf⟩ := copy_fresh hs.base hp hv
  obtain ⟨h1, -⟩ := parsesTo_inv hs hp
  rcases hk with ⟨rfl, hd⟩ | ⟨s3, hl, hk⟩
  · exact ⟨hd, readsData_copy h1 hf hr⟩
  · obtain ⟨g1, g2, g3, g4, g5⟩ := logs_inv h1 hl.logs
    obtain ⟨k1, k2, k3, k4, k5⟩ := skipTo_inv g1 hk
    have : s3.peeked = none := by obtain ⟨i, -, rfl⟩ := hl; exact hf.1
    exact ⟨k5.trans k2.symm, readsData_copy k1 (skipTo_fresh g1 this hk) hr⟩

theorem rounds_mem {s s' : St} {l : List SAst} {v : SAst} (h : Rounds s l s') (hv : v ∈ l) :
    ∃ l1 t out t', Rounds s l1 t ∧ Round t out t' ∧ v ∈ out ∧ ∀ w ∈ out, w ∈ l := by
  induction h with
  | nil => simp at hv
  | @cons s s1 s' out l h hr ih =>
    rcases List.mem_append.1 hv with hv | hv
    · exact ⟨[], s, out, s1, .nil, h, hv, fun w hw => List.mem_append.2 (.inl hw)⟩
    · obtain ⟨l1, t, out', t', g1, g2, g3, g4⟩ := ih hv
      exact ⟨_, t, out', t', .cons h g1, g2, g3, fun w hw => List.mem_append.2 (.inr (g4 w hw))⟩

theorem parsesTo_kind {s s' : St} {v : SAst} (h : ParsesTo s v s') : SKind (stmtKinds s.token) v := by
  obtain ⟨n, h⟩ := h
  cases n with
  | zero => cases h
  | succ n => exact statementBody_kind (runFn_query n) (show runWith (runFn n) n statementBody s = _ from h)

theorem kinds_mem {t : Token} {k : Kind} (h : k ∈ stmtKinds t) : k = .Statement_Invalid ∨ k = .Select ∨ k = .Union ∨ ∃ p ∈ kwKinds, k ∈ p.2 := by
  unfold stmtKinds at h
  split at h
  · simp at h; rcases h with h | h | h <;> simp [h]
  · split at h
    · next l hl =>
      obtain ⟨l1, l2, h2, h3⟩ := List.lookup_eq_some_iff.1 hl
      exact .inr (.inr (.inr ⟨(t.kw, l), by rw [h2]; simp, h⟩))
    · simp at h

theorem parsesTo_not_stdin {s s' : St} {d : List Char} {sp : Span} : ¬ ParsesTo s ⟨.node .Statement_Stdin [.str d, .span sp]⟩ s' := by
  intro h
  obtain ⟨k, h1, h2⟩ := parsesTo_kind h
  cases h2
  rcases kinds_mem h1 with h | h | h | ⟨p, h3, h4⟩
  · cases h
  · cases h
  · cases h
  · exact absurd h4 ((by decide : ∀ p ∈ kwKinds, Kind.Statement_Stdin ∉ p.2) p h3)

/-- **C24**: every data block in the list that `parse_statements` returns is the data that follows a delimiter after a
COPY statement. -/
theorem C24_copy_data (l : List SAst) (is : List Issue) (h : Api.many.Returns chk src ⟨src, old⟩ opts l is) (d : List Char)
    (sp : Span) (hm : (⟨.node .Statement_Stdin [.str d, .span sp]⟩ : SAst) ∈ l) :
    ∃ s v s1 s2 s', Between chk src old opts s ∧ s.token.isKw .COPY = true ∧ ParsesTo s v s1 ∧ v.ast.kind? = some .Copy ∧ v ∈ l ∧
      (s2 = s1 ∨ ErrorAdded s s') ∧ s2.token = s2.delim ∧ CopyAt chk src s2.span.stop d sp s' := by
  obtain ⟨s, s1, s', l1, l2, h1, h2, h3, rfl, h5⟩ := many_rounds h
  rcases List.mem_append.1 hm with hm | hm
  · obtain ⟨l0, t, out, t', g1, g2, g3, g4⟩ := rounds_mem h2 hm
    have hb : Between chk src old opts t := ⟨s, l0, h1, g1⟩
    have hsub : ∀ v ∈ out, v ∈ l1 ++ l2 := fun v hv => List.mem_append.2 (.inl (g4 v hv))
    have hri := (round_inv (between_inv hb) g2).2.2.1
    have hterm : ∀ {v : SAst} {s1 s2 : St}, ParsesTo t v s1 → Terminate v s2 out t' →
        v.readsStdin = true ∧ v ∈ out ∧ ReadsData s2 d sp t' := by
      intro v s1 s2 hp ht
      cases ht with
      | plain hv h => simp at g3; subst g3; exact absurd hp parsesTo_not_stdin
      | copy hv h =>
        simp at g3
        rcases g3 with rfl | ⟨rfl, rfl⟩
        · exact absurd hp parsesTo_not_stdin
        · exact ⟨hv, by simp, h⟩
    cases g2 with
    | clean g2 =>
      cases g2 with
      | skip => simp at g3
      | delimiter => simp at g3
      | stmt hst h hd ht =>
        obtain ⟨c1, c2, c3⟩ := hterm h ht
        refine ⟨t, _, _, _, t', hb, (copy_fresh (between_inv hb).base h c1).1, h, by simpa [SAst.readsStdin] using c1, hsub _ c2, .inl rfl, ?_⟩
        exact C24_data _ _ _ _ _ _ _ hb h (.inl ⟨rfl, hd⟩) c1 c3
    | @garbage sa sb sc _ va _ hst h hd hl hk ht =>
      obtain ⟨c1, c2, c3⟩ := hterm h ht
      refine ⟨t, va, sa, sc, t', hb, (copy_fresh (between_inv hb).base h c1).1, h, by simpa [SAst.readsStdin] using c1, hsub _ c2, .inr ?_, ?_⟩
      · obtain ⟨a1, a2, a3, l, a4⟩ := parsesTo_inv (between_inv hb) h
        obtain ⟨b1, b2, b3, b4, i, b5, b6⟩ := logs_inv a1 hl.logs
        obtain ⟨c1, c2, c3, c4, c5⟩ := skipTo_inv b1 hk
        obtain ⟨d1, d2, d3, d4⟩ := terminate_inv c1 ht
        exact ⟨l ++ [i], by rw [d4, c4, b6, a4]; simp, i, by simp, b5⟩
      · exact C24_data _ _ _ _ _ _ _ hb h (.inr ⟨_, hl, hk⟩) c1 c3
    | failed => simp at g3
    | skipped => simp at g3
  · cases h3 with
    | eof => simp at hm
    | garbage hst hp hd hl hk =>
      simp at hm; subst hm; exact absurd hp parsesTo_not_stdin
    | skipped => simp at hm

/-- Non-vacuity: a COPY statement with one line of data, and another statement after it. -/
example : ∃ a is, Api.many.Returns true exCopy ⟨exCopy, []⟩ { dialect := .postgreSQL } a is ∧
    (decide (a.length = 3) && !hasErrorB is && a.any (fun v => isStdin c!"1é\n" ⟨23, 27⟩ v.ast)) = true :=
  returns_of_test (api := .many) (n := 40) (f := fun a is => decide (a.length = 3) && !hasErrorB is &&
    a.any (fun v => isStdin c!"1é\n" ⟨23, 27⟩ v.ast)) (by decide +kernel)

/-- The text determines the data and where the parser goes on. -/
theorem C24_data_unique (text lead d rest lead' d' rest' : List Char) (h : CopyData text lead d rest)
    (h' : CopyData text lead' d' rest') : lead = lead' ∧ d = d' ∧ rest = rest' := copyData_unique h h'

/-- **C19**: parsing a statement, successfully or not, leaves the delimiter as it was.  It also leaves the permission for
compound statements as it was, unless it switches it on, adds an Error issue, and the source has the keyword TRIGGER. -/
theorem C19_restored_partial (s : St) (hs : Between chk src old opts s) :
    (∀ v s', ParsesTo s v s' → s'.delim = s.delim ∧ ModeKept chk src s s') ∧
    (∀ s', FailsTo s s' → s'.delim = s.delim ∧ ModeKept chk src s s') := by
  have hs := between_inv hs
  exact ⟨fun v s' h => ⟨(parsesTo_inv hs h).2.1, (parsesTo_inv hs h).2.2.1⟩,
    fun s' h => ⟨(failsTo_inv hs h).2.1, (failsTo_inv hs h).2.2.2⟩⟩

theorem modeKept_off {s s' : St} (hT : ¬ HasTrigger chk src) (h : ModeKept chk src s s') : s'.permit = s.permit :=
  h.elim id (fun h => absurd h.2.2 hT)

theorem rounds_off {s s' : St} {l : List SAst} (hT : ¬ HasTrigger chk src) (hs : SInv chk src opts s) (h : Rounds s l s') :
    s'.permit = s.permit := by
  induction h with
  | nil => rfl
  | cons h _ ih =>
    obtain ⟨h1, -, -, -, h2⟩ := round_inv hs h
    exact (ih h1).trans (modeKept_off hT h2)

theorem between_off {s : St} (hT : ¬ HasTrigger chk src) (h : Between chk src old opts s) : s.permit = false := by
  obtain ⟨s0, l, h1, h2⟩ := h
  exact (rounds_off hT (new_sinv h1) h2).trans (new_fields h1).2.2.1

theorem reach_inv {chk : Bool} {src : List Char} {lx : Lexer} (h : Reach chk src lx) : LexInv chk lx ∧ lx.src = src := by
  induction h with
  | start => exact ⟨lexInv_new chk src, rfl⟩
  | token _ hn ih =>
    obtain ⟨h1, h2, -⟩ := nextToken_inv ih.1 hn
    exact ⟨h1, h2.trans ih.2⟩
  | stdin _ hn ih =>
    obtain ⟨d, sp, lx', g1, g2, g3, -⟩ := readStdin_spec ih.1
    rw [hn] at g1
    cases g1
    exact ⟨g2, g3.trans ih.2⟩

/-- A text without the word TRIGGER (in any case) has no such token. -/
theorem no_trigger {chk : Bool} {src : List Char} (h : ∀ a w b, src = a ++ (w ++ b) → upper w ≠ c!"TRIGGER") : ¬ HasTrigger chk src := by
  rintro ⟨v, sp, lx, lx', hr, hn⟩
  obtain ⟨hl, hs⟩ := reach_inv hr
  obtain ⟨a, w, b, h1, -, -, h2, -⟩ := nextToken_tok hl hn
  rw [hs] at h1
  rcases h2 with ⟨rfl, -, -, -, -, h3⟩ | ⟨-, -, h3⟩
  · have := (C06_recognised_iff w .TRIGGER (by decide)).1 h3.symm
    have h4 : Keyword.TRIGGER.name = some c!"TRIGGER" := by decide +kernel
    rw [h4] at this
    exact h a w b h1 (Option.some.inj this).symm
  · exact absurd h3 (by decide)

/-- **C19** for sources without the word TRIGGER: compound statements are never permitted between statements, and parsing a
statement, successfully or not, restores the delimiter and the mode. -/
theorem C19_without_trigger (hT : ∀ a w b, src = a ++ (w ++ b) → upper w ≠ c!"TRIGGER") (s : St) (hs : Between chk src old opts s) :
    s.permit = false ∧ (∀ v s', ParsesTo s v s' → s'.delim = s.delim ∧ s'.permit = false) ∧
    (∀ s', FailsTo s s' → s'.delim = s.delim ∧ s'.permit = false) := by
  have h0 := between_off (no_trigger hT) hs
  obtain ⟨h1, h2⟩ := C19_restored_partial s hs
  exact ⟨h0, fun v s' h => ⟨(h1 v s' h).1, (modeKept_off (no_trigger hT) (h1 v s' h).2).trans h0⟩,
    fun s' h => ⟨(h2 s' h).1, (modeKept_off (no_trigger hT) (h2 s' h).2).trans h0⟩⟩

/-- A trigger without body. -/
def exTrigger : List Char := c!"CREATE TRIGGER a AFTER UPDATE ON b FOR EACH ROW;"
/-- The same, wrong earlier. -/
def exTrigger2 : List Char := c!"CREATE TRIGGER a AFTER UPDATE ON b FOR EACH TOW;"

/-- **C19** does not hold in full: a CREATE TRIGGER that fails leaves compound statements permitted. -/
theorem C19_violated : ∃ (src : List Char) (s s' : St), Between true src [] {} s ∧ FailsTo s s' ∧ s'.permit ≠ s.permit := by
  have h : (match St.new true exTrigger ⟨exTrigger, []⟩ {} with
    | .ok _ s => (match (Prog.call .statement).run 30 s with | .err s' => s'.permit != s.permit | _ => false)
    | _ => false) = true := by decide +kernel
  split at h
  · next u s hs =>
    split at h
    · next s' hr => exact ⟨exTrigger, s, s', ⟨s, [], hs, .nil⟩, ⟨30, .inl hr⟩, by simpa using h⟩
    · cases h
  · cases h

/-- **C20**: after a statement that failed, what the call returns for the rest of the source, and the issues it adds,
depend only on the position, the argument counter, the delimiter (which is the one that was active before the failed
statement) and on whether compound statements are permitted. -/
theorem C20_partial (s s1 s' : St) (hs : Between chk src old opts s) (hf : FailsTo s s1)
    (ha : (s1.token = s1.delim ∧ Advance s1 s') ∨ ∃ s2, SkipTo s1 s2 ∧ Advance s2 s') :
    s'.delim = s.delim ∧ s'.peeked = none ∧
    ∀ t : St, t.token = s'.token → t.span = s'.span → t.peeked = none → t.lx = s'.lx → t.arg = s'.arg → t.delim = s.delim →
      t.permit = s'.permit → t.opts = s'.opts → t.checked = s'.checked → t.issueSrc = s'.issueSrc →
      ∀ l new, Finishes s' l new ↔ Finishes t l new := by
  have hs := between_inv hs
  obtain ⟨h1, h2, h3, h5⟩ := failsTo_inv hs hf
  have hd : s'.delim = s.delim ∧ s'.peeked = none := by
    rcases ha with ⟨-, ha⟩ | ⟨s2, hk, ha⟩
    · obtain ⟨g1, g2, g3, g4, g5⟩ := advance_inv h1 ha
      exact ⟨g2.trans h2, g5⟩
    · obtain ⟨k1, k2, k3, k4, k5⟩ := skipTo_inv h1 hk
      obtain ⟨g1, g2, g3, g4, g5⟩ := advance_inv k1 ha
      exact ⟨g2.trans (k2.trans h2), g5⟩
  refine ⟨hd.1, hd.2, ?_⟩
  intro t e1 e2 e3 e4 e5 e6 e7 e8 e9 e10 l new
  obtain ⟨d1, d2⟩ := hd
  have h : t = { s' with issues := t.issues, argLog := t.argLog, dataLog := t.dataLog } := by
    cases t; cases s'
    simp only at e1 e2 e3 e4 e5 e6 e7 e8 e9 e10 d1 d2 ⊢
    simp [e1, e2, e3, e4, e5, e6, e7, e8, e9, e10, d1, d2]
  constructor
  · exact finishes_same ⟨_, _, _, h⟩
  · exact finishes_same ⟨s'.issues, s'.argLog, s'.dataLog, by
      cases t; cases s'
      simp only at e1 e2 e3 e4 e5 e6 e7 e8 e9 e10 d1 d2 ⊢
      simp [e1, e2, e3, e4, e5, e6, e7, e8, e9, e10, d1, d2]⟩

/-- **C20** for sources without the word TRIGGER: after a statement that failed, what the call returns for the rest of the
source, and the issues it adds, depend only on the position, the delimiter active before the failed statement, and the argument
counter: they are what any parser at that position, with that delimiter and counter, and in the initial mode would return. -/
theorem C20_without_trigger (hT : ∀ a w b, src = a ++ (w ++ b) → upper w ≠ c!"TRIGGER") (s s1 s' : St)
    (hs : Between chk src old opts s) (hf : FailsTo s s1)
    (ha : (s1.token = s1.delim ∧ Advance s1 s') ∨ ∃ s2, SkipTo s1 s2 ∧ Advance s2 s') (l : List SAst) (new : List Issue) :
    Finishes s' l new ↔ Finishes
      { token := s'.token, span := s'.span, peeked := none, lx := s'.lx, issueSrc := src, issues := [], arg := s'.arg,
        delim := s.delim, opts := opts, permit := false, checked := chk, argLog := [], dataLog := [] } l new := by
  have hi := between_inv hs
  have h0 := C19_without_trigger hT s hs
  obtain ⟨h1, h2, h3, h4⟩ := failsTo_inv hi hf
  have h5 : SInv chk src opts s' ∧ s'.permit = s1.permit := by
    rcases ha with ⟨-, ha⟩ | ⟨s2, hk, ha⟩
    · obtain ⟨g1, g2, g3, g4, g5⟩ := advance_inv h1 ha
      exact ⟨g1, g3⟩
    · obtain ⟨k1, k2, k3, k4, k5⟩ := skipTo_inv h1 hk
      obtain ⟨g1, g2, g3, g4, g5⟩ := advance_inv k1 ha
      exact ⟨g1, g3.trans k3⟩
  refine (C20_partial s s1 s' hs hf ha).2.2
    { token := s'.token, span := s'.span, peeked := none, lx := s'.lx, issueSrc := src, issues := [], arg := s'.arg,
      delim := s.delim, opts := opts, permit := false, checked := chk, argLog := [], dataLog := [] } rfl rfl rfl rfl rfl rfl ?_ h5.1.opts.symm h5.1.chk.symm h5.1.isrc.symm l new
  exact ((h0.2.2 s1 hf).2.symm.trans h5.2.symm)

theorem exFail_no : ∀ a w b, c!"SELECT ? FROM; SELECT ?" = a ++ (w ++ b) → upper w ≠ c!"TRIGGER" := by
  intro a w b h hw
  have hG : 'G' ∈ upper w := by rw [hw]; decide
  obtain ⟨c, hc, he⟩ := List.mem_map.1 hG
  have h1 : c ∈ c!"SELECT ? FROM; SELECT ?" := by rw [h]; simp [hc]
  have h2 : ∀ c ∈ c!"SELECT ? FROM; SELECT ?", upChar c ≠ 'G' := by decide
  exact h2 c h1 he

/-- Non-vacuity of `C19_without_trigger` and `C20_without_trigger`: a source without TRIGGER with a statement that fails, after
which the parser goes on at the next one. -/
example : ∃ s s1 s', Between true c!"SELECT ? FROM; SELECT ?" [] { arguments := .questionMark } s ∧ FailsTo s s1 ∧ s1.token = s1.delim ∧ Advance s1 s' ∧
    s'.arg = 1 ∧ s'.token.isKw .SELECT = true := by
  have h : (match St.new true c!"SELECT ? FROM; SELECT ?" ⟨c!"SELECT ? FROM; SELECT ?", []⟩ { arguments := .questionMark } with
    | .ok _ s => (match (Prog.call .statement).run 30 s with
      | .err s1 => decide (s1.token = s1.delim) && (match s1.next with
        | .ok () s' => decide (s'.arg = 1) && s'.token.isKw .SELECT
        | _ => false)
      | _ => false)
    | _ => false) = true := by decide +kernel
  split at h
  · next s hs =>
    split at h
    · next s1 hr =>
      simp only [Bool.and_eq_true, decide_eq_true_eq] at h
      obtain ⟨h1, h2⟩ := h
      split at h2
      · next s' hn =>
        simp only [Bool.and_eq_true, decide_eq_true_eq] at h2
        exact ⟨s, s1, s', ⟨s, [], hs, .nil⟩, ⟨30, .inl hr⟩, h1, hn, h2⟩
      · cases h2
    · cases h
  · cases h

/-- **C20** does not hold in full: the same text is parsed in different ways after two different texts of the same length
that both give no statement. -/
theorem C20_violated : ∃ (a b rest : List Char) (la lb : List SAst) (i j ia ib : List Issue), blen a = blen b ∧
    Api.many.Returns true a ⟨a, []⟩ {} [] i ∧ Api.many.Returns true b ⟨b, []⟩ {} [] j ∧
    Api.many.Returns true (a ++ rest) ⟨a ++ rest, []⟩ {} la ia ∧ Api.many.Returns true (b ++ rest) ⟨b ++ rest, []⟩ {} lb ib ∧
    la.length = 1 ∧ lb.length = 3 := by
  obtain ⟨a, i, h1, h2⟩ := returns_of_test (api := .many) (n := 40) (checked := true) (src := exTrigger) (iss := ⟨exTrigger, []⟩)
    (opts := {}) (f := fun a _ => decide (a.length = 0)) (by decide +kernel)
  obtain ⟨b, j, h3, h4⟩ := returns_of_test (api := .many) (n := 40) (checked := true) (src := exTrigger2) (iss := ⟨exTrigger2, []⟩)
    (opts := {}) (f := fun a _ => decide (a.length = 0)) (by decide +kernel)
  obtain ⟨la, ia, h5, h6⟩ := returns_of_test (api := .many) (n := 40) (checked := true) (src := exTrigger ++ c!" BEGIN; COMMIT; END;")
    (iss := ⟨exTrigger ++ c!" BEGIN; COMMIT; END;", []⟩)
    (opts := {}) (f := fun a _ => decide (a.length = 1)) (by decide +kernel)
  obtain ⟨lb, ib, h7, h8⟩ := returns_of_test (api := .many) (n := 40) (checked := true) (src := exTrigger2 ++ c!" BEGIN; COMMIT; END;")
    (iss := ⟨exTrigger2 ++ c!" BEGIN; COMMIT; END;", []⟩)
    (opts := {}) (f := fun a _ => decide (a.length = 3)) (by decide +kernel)
  have h2 : a = [] := by simpa using h2
  have h4 : b = [] := by simpa using h4
  subst h2 h4
  exact ⟨exTrigger, exTrigger2, _, la, lb, i, j, ia, ib, by decide +kernel, h1, h3, h5, h7, by simpa using h6, by simpa using h8⟩

/-- **C35** for `parse_statement`: the statement is of a kind that the first token of the source introduces. -/
theorem C35_kind_one (v : SAst) (is : List Issue) (h : Api.one.Returns chk src ⟨src, old⟩ opts (some v) is) :
    ∃ s k, St.new chk src ⟨src, old⟩ opts = .ok () s ∧ v.ast.kind? = some k ∧ k ∈ stmtKinds s.token := by
  obtain ⟨new, s', h1, h2, ⟨n, s, h3, h4⟩, -⟩ := master h
  have h4 : runWith (runFn n) n singleStatement s = _ := h4
  unfold singleStatement at h4
  obtain ⟨r, s1, h5, h6⟩ := bind_run h4
  rcases tryP_run h5 with ⟨a, rfl, h7⟩ | ⟨rfl, h7⟩
  · cases a with
    | none =>
      obtain ⟨_, _, _, h6⟩ := bind_run h6
      cases h6
    | some w =>
      obtain ⟨_, _, _, h6⟩ := bind_run h6
      obtain ⟨_, _, _, h6⟩ := bind_run h6
      cases h6
      obtain ⟨k, g1, g2⟩ := parsesTo_kind ⟨n, h7⟩
      exact ⟨s, k, h3, g2, g1⟩
  · cases h6

/-- **C35** for `parse_statements`: every returned statement is of a kind that the token it begins with introduces, or it
is the data of a COPY statement. -/
theorem C35_kind_many (l : List SAst) (is : List Issue) (h : Api.many.Returns chk src ⟨src, old⟩ opts l is) (v : SAst)
    (hv : v ∈ l) :
    (∃ s s' k, Between chk src old opts s ∧ ParsesTo s v s' ∧ v.ast.kind? = some k ∧ k ∈ stmtKinds s.token) ∨
    (∃ d sp, v = ⟨.node .Statement_Stdin [.str d, .span sp]⟩) := by
  obtain ⟨s, s1, s', l1, l2, h1, h2, h3, rfl, h5⟩ := many_rounds h
  have hk : ∀ {t t' : St} {w : SAst}, Between chk src old opts t → ParsesTo t w t' →
      ∃ s s' k, Between chk src old opts s ∧ ParsesTo s w s' ∧ w.ast.kind? = some k ∧ k ∈ stmtKinds s.token := by
    intro t t' w hb hp
    obtain ⟨k, g1, g2⟩ := parsesTo_kind hp
    exact ⟨t, t', k, hb, hp, g2, g1⟩
  rcases List.mem_append.1 hv with hv | hv
  · obtain ⟨l0, t, out, t', g1, g2, g3, g4⟩ := rounds_mem h2 hv
    have hb : Between chk src old opts t := ⟨s, l0, h1, g1⟩
    have hterm : ∀ {w : SAst} {s1 s2 : St}, ParsesTo t w s1 → Terminate w s2 out t' →
        v = w ∨ ∃ d sp, v = ⟨.node .Statement_Stdin [.str d, .span sp]⟩ := by
      intro w s1 s2 hp ht
      cases ht with
      | plain => simp at g3; exact .inl g3
      | copy => simp at g3; exact g3.imp id (fun h => ⟨_, _, h⟩)
    cases g2 with
    | clean g2 =>
      cases g2 with
      | skip => simp at g3
      | delimiter => simp at g3
      | stmt hst h hd ht =>
        rcases hterm h ht with rfl | h'
        · exact .inl (hk hb h)
        · exact .inr h'
    | garbage hst h hd hl hk' ht =>
      rcases hterm h ht with rfl | h'
      · exact .inl (hk hb h)
      · exact .inr h'
    | failed => simp at g3
    | skipped => simp at g3
  · cases h3 with
    | eof => simp at hv
    | garbage hst hp hd hl hk' => simp at hv; subst hv; exact .inl (hk ⟨s, l1, h1, h2⟩ hp)
    | skipped => simp at hv

/-- Non-vacuity (both parts): three statements, one of them is data. -/
example : ∃ a is, Api.many.Returns true exCopy ⟨exCopy, []⟩ { dialect := .postgreSQL } a is ∧ decide (a.length = 3) = true :=
  returns_of_test (api := .many) (n := 40) (f := fun a _ => decide (a.length = 3)) (by decide +kernel)
example : ∃ a is, Api.one.Returns true c!"DROP TABLE /*é*/ a, t" ⟨c!"DROP TABLE /*é*/ a, t", []⟩ {} a is ∧ (Option.isSome a) = true :=
  returns_of_test (api := .one) (n := 40) (f := fun a _ => a.isSome) (by decide +kernel)

end SqlParse
