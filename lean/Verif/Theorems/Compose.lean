import Verif.Proofs.ComposeRun
/-! **C44**: sources one after another.  If `a` is parsed without errors and ends in `;`, then parsing `a` followed by `b`
gives what parsing `a` gives, followed by what parsing `b` gives (moved). -/
namespace SqlParse
variable {chk : Bool} {opts : Opts}

theorem terminate_peeked {v : SAst} {s s' : St} {out : List SAst} (h : Terminate v s out s') : s'.peeked = none := by
  cases h with
  | plain hv h => exact advance_peeked h
  | copy hv h => obtain ⟨lx, -, h⟩ := h; exact advance_peeked h

theorem round_peeked {s s' : St} {out : List SAst} (h : Round s out s') : s'.peeked = none := by
  cases h with
  | clean h =>
    cases h with
    | skip hd h => exact advance_peeked h
    | delimiter hd hk h1 h2 h3 h4 => exact advance_peeked h4
    | stmt hs h hd ht => exact terminate_peeked ht
  | garbage hs h hd hl hk ht => exact terminate_peeked ht
  | failed hs h hd ha => exact advance_peeked ha
  | skipped hs h hd hk ha => exact advance_peeked ha

theorem rounds_end {src : List Char} {s s' : St} {l : List SAst} (hs : SInv chk src opts s) (h : Rounds s l s') (hp : s.peeked = none)
    (hE : ¬ ErrorAdded s s') : s'.permit = s.permit ∧ s'.peeked = none := by
  induction h with
  | nil => exact ⟨rfl, hp⟩
  | @cons s s1 s' out l h hr ih =>
    obtain ⟨i1, ⟨k1, e1⟩, -, -, m⟩ := round_inv hs h
    obtain ⟨i2, k2, e2⟩ := rounds_inv i1 hr
    have h1 : ¬ ErrorAdded s s1 := by
      rintro ⟨new, g1, g2⟩
      exact hE ⟨new ++ k2, by rw [e2, g1]; simp, HasError_append.2 (.inl g2)⟩
    have h2 : ¬ ErrorAdded s1 s' := by
      rintro ⟨new, g1, g2⟩
      exact hE ⟨k1 ++ new, by rw [g1, e1]; simp, HasError_append.2 (.inr g2)⟩
    obtain ⟨g1, g2⟩ := ih i1 (round_peeked h) h2
    refine ⟨?_, g2⟩
    rw [g1]
    rcases m with m | ⟨-, m, -⟩
    · exact m
    · exact absurd m h1

/-- The run on a source ends between two statements, in the initial mode. -/
def EndsPlain (chk : Bool) (opts : Opts) (a : List Char) (old ia : List Issue) : Prop :=
  ∀ s0 l1 s1 l2 s', St.new chk a ⟨a, old⟩ opts = .ok () s0 → Rounds s0 l1 s1 → LastRound s1 l2 s' → s'.issues = old ++ ia → ¬ Loaded s' →
    l2 = [] ∧ s1 = s' ∧ s'.token = .eof ∧ s'.permit = false ∧ s'.peeked = none

theorem endsPlain_of_clean {a : List Char} {old ia : List Issue} (hn : ¬ HasError ia) : EndsPlain chk opts a old ia := by
  intro s0 l1 s1 l2 s' h3 g2 g3 h2 _
  have hi := new_sinv h3
  obtain ⟨f1, f2, f3, f4⟩ := new_fields h3
  obtain ⟨i1, k1, e1⟩ := rounds_inv hi g2
  obtain ⟨-, ⟨k2, e2⟩, g4⟩ := lastRound_inv i1 g3
  have hne : ¬ ErrorAdded s0 s' := by
    rintro ⟨x, x1, x2⟩
    rw [h2, f1] at x1
    cases List.append_cancel_left x1
    exact hn x2
  rcases g4 with ⟨rfl, rfl, -, g5⟩ | ⟨x, x1, x2⟩
  · obtain ⟨j1, j2⟩ := rounds_end hi g2 f4 hne
    exact ⟨rfl, rfl, g5, j1.trans f3, j2⟩
  · refine absurd ⟨k1 ++ x, by rw [x1, e1]; simp, HasError_append.2 (.inr x2)⟩ hne

/-- The state of the parser at the end of such a source. -/
theorem final_state {a : List Char} {toks : List (Token × Span)} {old ia : List Issue} {la : List SAst}
    (ht : TokensOf chk a toks) (hc : ¬ Occurs .COPY toks) (hd : ¬ Occurs .DELIMITER toks)
    (h : Api.many.Returns chk a ⟨a, old⟩ opts la (old ++ ia)) (hn : EndsPlain chk opts a old ia) :
    ∃ n s0 s', St.new chk a ⟨a, old⟩ opts = .ok () s0 ∧ statements.run n s0 = .ok la s' ∧ Rounds s0 la s' ∧ s'.token = .eof ∧ s'.permit = false ∧ s'.peeked = none ∧
      s'.issues = old ++ ia ∧ s'.delim = .semiColon ∧ s'.dataLog = [] ∧ s'.opts = opts ∧ s'.checked = chk ∧
      s'.arg = s'.argLog.length ∧ s'.argLog.Pairwise (fun a b => a.stop ≤ b.start) ∧
      (∀ sp ∈ s'.argLog, sp.start < sp.stop ∧ ∃ t, isMarker opts t ∧ IsToken chk a t sp) ∧
      (∀ v ∈ la, ∀ i sp, ((v.ast.HasArg i sp ∧ opts.arguments ≠ .dollar) ∨ v.ast.HasListHack i sp) → s'.argLog[i]? = some sp) := by
  obtain ⟨new, s', h1, h2, ⟨n, s0, h3, h4⟩, h5, m, h6⟩ := master h
  cases List.append_cancel_left h1
  have hr : statements.run n s0 = .ok la s' := h4
  obtain ⟨l1, l2, s1, rfl, g2, g3⟩ := statements_run h4
  have hB : (twinPar a a toks toks opts old old ht ht (allAlike_of_map rfl) hc (fun _ _ _ _ _ _ h => by rw [h]) (fun _ _ _ h => h) (fun h => absurd h hd)).B (Lexer.new a) (Lexer.new a) :=
    ⟨lexInv_new chk a, lexInv_new chk a, 0, ht, ht⟩
  obtain ⟨E, hE1, hE2, hE3⟩ : ∃ E : Par, SR E s0 s0 ∧ ¬ E.ok .COPY ∧ ¬ E.ok .DELIMITER := by
    refine ⟨twinPar a a toks toks opts old old ht ht (allAlike_of_map rfl) hc (fun _ _ _ _ _ _ h => by rw [h]) (fun _ _ _ h => h) (fun h => absurd h hd), ?_, hc, hd⟩
    rcases Par.next _ hB with ⟨m, e1, e2⟩ | ⟨t1, t2, sp, sp', m, m', e1, e2, e3, e4, e5⟩
    · unfold St.new at h3
      rw [show (Lexer.new a).nextToken chk = _ from e1] at h3
      cases h3
    · have e1 : (Lexer.new a).nextToken chk = _ := e1
      have e2 : (Lexer.new a).nextToken chk = _ := e2
      rw [e1] at e2
      cases e2
      unfold St.new at h3
      rw [e1] at h3
      cases h3
      exact { token := e3, span := e4, peeked := trivial, lx := e5, issues := ⟨[], [], by simp [twinPar], by simp [twinPar], trivial⟩, arg := rfl, delim := dl_semi, opts := rfl, opts' := rfl, permit := rfl, chk := rfl, chk' := rfl, data := fun _ => rfl }
  have hsr := run_par (E := E) statements_par n hE1
  rw [hr] at hsr
  have hsr' : SR E s' s' := by cases hsr with | ok h hs => exact hs
  clear hsr
  obtain ⟨rfl, rfl, g5, j1, j2⟩ := hn s0 l1 s1 l2 s' h3 g2 g3 h2 (fun h => h (hsr'.data hE2))
  refine ⟨n, s0, s1, h3, hr, by simpa using g2, g5, j1, j2, h2, hsr'.delim.2.1 hE3, hsr'.data hE2, ?_, ?_, ?_, h5.pw, ?_, ?_⟩
  · exact h5.opts
  · exact h5.chk
  · exact h5.arg
  · intro sp hsp
    obtain ⟨t, g1, g2⟩ := (h5.mark sp hsp).2
    exact ⟨tokOK_nonempty g2 (marker_ne_eof g1), t, g1, g2.isToken⟩
  · intro v hv i sp hi
    have h6 := h6.1
    rcases hi with ⟨hi, hdl⟩ | hi
    · rcases (h6 v hv).1 _ hi with ⟨g1, -⟩ | ⟨-, g2⟩
      · exact absurd g1 hdl
      · exact g2
    · exact ((h6 v hv).1 _ hi).1

theorem occurs_semi {k : Keyword} {toks : List (Token × Span)} {p q : Span} (h : ¬ Occurs k toks) :
    ¬ Occurs k (toks ++ [(.semiColon, p), (.eof, q)]) := by
  rintro ⟨v, sp, hm⟩
  simp at hm
  exact h ⟨v, sp, hm⟩

theorem many_run {chk : Bool} {src : List Char} {iss : Issues} {opts : Opts} {s : St} (h : St.new chk src iss opts = .ok () s) (n : Nat) :
    Api.many.run n chk src iss opts = (statements.run n s).res [] := by
  show (match St.new chk src iss opts with
      | .ok _ s => (statements.run n s).res []
      | .err _ => .running
      | .panic m => .panic m
      | .oof => .running) = _
  rw [h]

/-- What is parsed after `a` is parsed like `b`, moved. -/
theorem after_first {a u b : List Char} {toks : List (Token × Span)} {old ia old' : List Issue} {la : List SAst}
    (he : EndsInSemicolon chk a toks) (hs : Skipped u b) {n0 : Nat} {s0 s' : St} (h0 : St.new chk a ⟨a, old⟩ opts = .ok () s0)
    (h1 : statements.run n0 s0 = .ok la s') (h2 : Rounds s0 la s') (h3 : s'.token = .eof) (h4 : s'.permit = false)
    (h5 : s'.peeked = none) (h6 : s'.issues = old ++ ia) (h7 : s'.delim = .semiColon) (h8 : s'.dataLog = [])
    (h9 : s'.opts = opts) (h10 : s'.checked = chk) :
    ((∃ m, (∀ n, Api.many.run n chk b ⟨b, old'⟩ opts = .panic m) ∧ Api.many.Panics chk (a ++ (u ++ b)) ⟨a ++ (u ++ b), old⟩ opts m)) ∨
    ∃ t0 sb o, St.new chk (a ++ (u ++ b)) ⟨a ++ (u ++ b), old⟩ opts = .ok () t0 ∧ St.new chk b ⟨b, old'⟩ opts = .ok () sb ∧
      Rounds t0 la o ∧ SR (shiftPar chk (a ++ u) opts s'.arg old' (old ++ ia)) sb o := by
  obtain ⟨t0, c1, c2⟩ := new_cutR (b := u ++ b) he h0
  have hb := nextToken_between chk a u b hs
  have hl : ¬ Loaded s' := fun h => h h8
  cases hn : (Lexer.new b).nextToken chk with
  | panic m =>
    left
    rw [hn] at hb
    refine ⟨m, ?_, n0, ?_⟩
    · intro n
      show (match St.new chk b ⟨b, old'⟩ opts with
        | .ok _ s => (statements.run n s).res []
        | .err _ => .running
        | .panic m => .panic m
        | .oof => .running) = _
      unfold St.new
      rw [hn]
    · have := run_cut n0 statements c2
      rw [h1] at this
      rcases this with (this | ⟨-, this⟩) | ⟨t, -, this⟩
      · exact absurd this hl
      · rw [many_run c1, this m hb]; rfl
      · exact absurd h3 this.token
  | ok tk sp m =>
    right
    rw [hn] at hb
    have hr := rounds_cut hb c2 h2 h3 h7 hl
    refine ⟨t0, { token := tk, span := sp, peeked := none, lx := m, issueSrc := b, issues := old', arg := 0, delim := .semiColon, opts := opts, permit := false, checked := chk, argLog := [], dataLog := [] }, _, c1, ?_, hr, ?_⟩
    · unfold St.new
      rw [hn]
    · exact { token := tokR_refl (fun _ => trivial) tk, span := ⟨.inl rfl, .inl rfl⟩, peeked := by rw [show (over _ _ _ _ _ s').peeked = s'.peeked from rfl, h5]; trivial,
              lx := rfl, issues := ⟨[], [], by simp [shiftPar], by simp [shiftPar, over, h6], trivial⟩, arg := by simp [shiftPar, over],
              delim := by rw [show (over _ _ _ _ _ s').delim = s'.delim from rfl, h7]; exact dl_semi,
              opts := rfl, opts' := h9, permit := h4.symm, chk := rfl, chk' := h10, data := fun _ => rfl }

theorem composes_of {a : List Char} {toks : List (Token × Span)} {old ia : List Issue} {la : List SAst}
    (he : EndsInSemicolon chk a toks) (hc : ¬ Occurs .COPY toks) (hd : ¬ Occurs .DELIMITER toks)
    (h : Api.many.Returns chk a ⟨a, old⟩ opts la (old ++ ia)) (hn : EndsPlain chk opts a old ia) : Composes chk opts a old ia la := by
  obtain ⟨p, ht⟩ := id he
  obtain ⟨n0, s0, s', h0, h1, h2, h3, h4, h5, h6, h7, h8, h9, h10, h11, h12, h13, h14⟩ := final_state ht (occurs_semi hc) (occurs_semi hd) h hn
  refine ⟨s'.argLog, h12, h13, h14, ?_⟩
  intro u b old' hs
  rcases after_first (old' := old') he hs h0 h1 h2 h3 h4 h5 h6 h7 h8 h9 h10 with ⟨m, g1, g2⟩ | ⟨t0, sb, o, g1, g2, g3, g4⟩
  · refine ⟨?_, ?_, ?_⟩
    · rintro lb ib ⟨n, hr⟩
      rw [g1 n] at hr; cases hr
    · rintro m' ⟨n, hr⟩
      rw [g1 n] at hr; cases hr
      exact g2
    · intro hh
      have := hh 0
      rw [g1 0] at this
      cases this
  have hslice : ∀ n, statements.run n o ≠ .panic "slice" := by
    intro n hr
    obtain ⟨-, k, hk⟩ := leads_after (acc := []) g3 (o := .panic "slice") ⟨by simp, n, by rw [List.nil_append, statements_acc, hr]; rfl⟩
    have : Api.many.run k chk (a ++ (u ++ b)) ⟨a ++ (u ++ b), old⟩ opts = .panic "slice" := by
      rw [many_run g1, show statements.run k t0 = _ from hk]; rfl
    exact not_slice this rfl
  have hslice' : ∀ n, statements.run n sb ≠ .panic "slice" := by
    intro n hr
    have : Api.many.run n chk b ⟨b, old'⟩ opts = .panic "slice" := by rw [many_run g2, hr]; rfl
    exact not_slice this rfl
  refine ⟨?_, ?_, ?_⟩
  · intro lb ib hret
    obtain ⟨new, s1, e1, e2, ⟨n, sb', e3, e4⟩, -⟩ := master hret
    cases List.append_cancel_left e1
    rw [g2] at e3
    cases e3
    have hp := run_par statements_par n g4
    rw [show statements.run n sb = .ok lb s1 from e4] at hp
    generalize ho : statements.run n o = r at hp
    cases hp with
    | right => exact absurd ho (hslice n)
    | @ok _ lb' _ t1 hv hsr =>
      obtain ⟨i, j, k1, k2, k3⟩ := hsr.issues
      have k1 : s1.issues = old' ++ i := k1
      have k2 : t1.issues = (old ++ ia) ++ j := k2
      rw [e2] at k1
      cases List.append_cancel_left k1
      refine ⟨lb', j, ?_, ?_, issues_moved k3⟩
      · obtain ⟨l1, l2, o1, rfl, r1, r2⟩ := statements_run ho
        obtain ⟨-, k, hk⟩ := leads_rounds (acc := []) (g3.trans r1) r2
        refine ⟨k, ?_⟩
        rw [many_run g1, show statements.run k t0 = _ from hk]
        show Res.ret _ t1.issues = _
        rw [k2]
        simp
      · rw [← h11]
        exact arelL_moved (stmts_arel hv)
  · rintro m ⟨n, hr⟩
    rw [many_run g2] at hr
    have hp := run_par statements_par n g4
    generalize ho : statements.run n o = r at hp
    generalize ho' : statements.run n sb = r' at hp hr
    cases hp with
    | ok => cases hr
    | err => cases hr
    | oof => cases hr
    | left => exact absurd ho' (hslice' n)
    | right => exact absurd ho (hslice n)
    | panic m' =>
      cases hr
      obtain ⟨-, k, hk⟩ := leads_after (acc := []) g3 (o := .panic m) ⟨by simp, n, by rw [List.nil_append, statements_acc, ho]; rfl⟩
      exact ⟨k, by rw [many_run g1, show statements.run k t0 = _ from hk]; rfl⟩
  · intro hh n
    have hst : Stuck statements o := by
      intro n
      have hr := hh n
      rw [many_run g2] at hr
      have hp := run_par statements_par n g4
      generalize ho : statements.run n o = r at hp
      generalize ho' : statements.run n sb = r' at hp hr
      cases hp with
      | ok => cases hr
      | err => cases hr
      | oof => rfl
      | left => exact absurd ho' (hslice' n)
      | right => exact absurd ho (hslice n)
      | panic m' => cases hr
    have hk := stuck_rounds (acc := []) g3 (fun n => by rw [List.nil_append, statements_acc, hst n]; rfl) n
    rw [many_run g1, show statements.run n t0 = _ from hk]
    rfl

/-- **C44**: `a` is parsed without an Error, ends in `;` (where the delimiter is `;`), and has no COPY (the data of which
would come after the `;`).  Then parsing `a` followed by `b` (and by blanks and comments in between) gives the statements and issues
of `a`, and then those of `b`, with the positions moved and the arguments counted on; it panics or does not end iff
that is so for `b`. -/
theorem C44_compose (a : List Char) (toks : List (Token × Span)) (old ia : List Issue) (la : List SAst)
    (he : EndsInSemicolon chk a toks) (hc : ¬ Occurs .COPY toks) (hd : ¬ Occurs .DELIMITER toks)
    (h : Api.many.Returns chk a ⟨a, old⟩ opts la (old ++ ia)) (hn : ¬ HasError ia) :
    ∃ L : List Span, L.Pairwise (fun a b => a.stop ≤ b.start) ∧
      (∀ sp ∈ L, sp.start < sp.stop ∧ ∃ t, isMarker opts t ∧ IsToken chk a t sp) ∧
      (∀ v ∈ la, ∀ i sp, ((v.ast.HasArg i sp ∧ opts.arguments ≠ .dollar) ∨ v.ast.HasListHack i sp) → L[i]? = some sp) ∧
      ∀ (u b : List Char) (old' : List Issue), Skipped u b →
        (∀ lb ib, Api.many.Returns chk b ⟨b, old'⟩ opts lb (old' ++ ib) →
          ∃ lb' ib', Api.many.Returns chk (a ++ (u ++ b)) ⟨a ++ (u ++ b), old⟩ opts (la ++ lb') (old ++ (ia ++ ib')) ∧
            MovedAll (blen (a ++ u)) (argsBefore opts L.length) L.length (lb.map (·.ast)) (lb'.map (·.ast)) ∧
            Each (MovedIssue (blen (a ++ u))) ib ib') ∧
        (∀ m, Api.many.Panics chk b ⟨b, old'⟩ opts m → Api.many.Panics chk (a ++ (u ++ b)) ⟨a ++ (u ++ b), old⟩ opts m) ∧
        (Api.many.Hangs chk b ⟨b, old'⟩ opts → Api.many.Hangs chk (a ++ (u ++ b)) ⟨a ++ (u ++ b), old⟩ opts) :=
  composes_of he hc hd h (endsPlain_of_clean hn)

/-- A call returns, panics or does not end. -/
theorem many_outcome (chk : Bool) (src : List Char) (old : List Issue) (opts : Opts) :
    (∃ l new, Api.many.Returns chk src ⟨src, old⟩ opts l (old ++ new)) ∨ (∃ m, Api.many.Panics chk src ⟨src, old⟩ opts m) ∨
      Api.many.Hangs chk src ⟨src, old⟩ opts := by
  by_cases h : ∀ n, Api.many.run n chk src ⟨src, old⟩ opts = .running
  · exact .inr (.inr h)
  · obtain ⟨n, h⟩ := Classical.not_forall.1 h
    cases hr : Api.many.run n chk src ⟨src, old⟩ opts with
    | ret l is =>
      obtain ⟨new, s', rfl, -⟩ := master ⟨n, hr⟩
      exact .inl ⟨l, new, n, hr⟩
    | panic m => exact .inr (.inl ⟨m, n, hr⟩)
    | running => exact absurd hr h

/-- Only one of these. -/
theorem many_agree {chk : Bool} {src : List Char} {iss : Issues} {opts : Opts} {n m : Nat} {r r' : Res (List SAst)}
    (h : Api.many.run n chk src iss opts = r) (h' : Api.many.run m chk src iss opts = r') (hr : r ≠ .running) (hr' : r' ≠ .running) : r = r' := by
  have h1 := run_stable .many (Nat.le_max_left n m) chk src iss opts (by rw [h]; exact hr)
  have h2 := run_stable .many (Nat.le_max_right n m) chk src iss opts (by rw [h']; exact hr')
  rw [h] at h1
  rw [h'] at h2
  exact h1.symm.trans h2

theorem composes_back {a : List Char} {old ia : List Issue} {la : List SAst} (h : Composes chk opts a old ia la) (u b : List Char) (old' : List Issue) (hs : Skipped u b) :
    (∀ l is, Api.many.Returns chk (a ++ (u ++ b)) ⟨a ++ (u ++ b), old⟩ opts l is → ∃ lb ib lb' ib' k,
      Api.many.Returns chk b ⟨b, old'⟩ opts lb (old' ++ ib) ∧ l = la ++ lb' ∧ is = old ++ (ia ++ ib') ∧
      MovedAll (blen (a ++ u)) (argsBefore opts k) k (lb.map (·.ast)) (lb'.map (·.ast)) ∧ Each (MovedIssue (blen (a ++ u))) ib ib') ∧
    (∀ m, Api.many.Panics chk (a ++ (u ++ b)) ⟨a ++ (u ++ b), old⟩ opts m → Api.many.Panics chk b ⟨b, old'⟩ opts m) ∧
    (Api.many.Hangs chk (a ++ (u ++ b)) ⟨a ++ (u ++ b), old⟩ opts → Api.many.Hangs chk b ⟨b, old'⟩ opts) := by
  obtain ⟨L, -, -, -, hL⟩ := h
  obtain ⟨h1, h2, h3⟩ := hL u b old' hs
  rcases many_outcome chk b old' opts with ⟨lb, ib, hb⟩ | ⟨m, hb⟩ | hb
  · obtain ⟨lb', ib', ⟨n, g1⟩, g2, g3⟩ := h1 lb ib hb
    refine ⟨?_, ?_, ?_⟩
    · rintro l is ⟨k, hk⟩
      have := many_agree hk g1 (by simp) (by simp)
      cases this
      exact ⟨lb, ib, lb', ib', _, hb, rfl, rfl, g2, g3⟩
    · rintro m ⟨k, hk⟩
      have := many_agree hk g1 (by simp) (by simp)
      cases this
    · intro hh
      have := hh n
      rw [g1] at this
      cases this
  · obtain ⟨n, g1⟩ := h2 m hb
    refine ⟨?_, ?_, ?_⟩
    · rintro l is ⟨k, hk⟩
      have := many_agree hk g1 (by simp) (by simp)
      cases this
    · rintro m' ⟨k, hk⟩
      have := many_agree hk g1 (by simp) (by simp)
      cases this
      exact hb
    · intro hh
      have := hh n
      rw [g1] at this
      cases this
  · have g1 := h3 hb
    refine ⟨?_, ?_, fun _ => hb⟩
    · rintro l is ⟨k, hk⟩
      rw [g1 k] at hk; cases hk
    · rintro m ⟨k, hk⟩
      rw [g1 k] at hk; cases hk

/-- **C44**, backwards: whatever parsing `a` followed by `b` does comes from `b` in this way. -/
theorem C44_compose_back (a : List Char) (toks : List (Token × Span)) (old ia : List Issue) (la : List SAst)
    (he : EndsInSemicolon chk a toks) (hc : ¬ Occurs .COPY toks) (hd : ¬ Occurs .DELIMITER toks)
    (h : Api.many.Returns chk a ⟨a, old⟩ opts la (old ++ ia)) (hn : ¬ HasError ia) (u b : List Char) (old' : List Issue) (hs : Skipped u b) :
    (∀ l is, Api.many.Returns chk (a ++ (u ++ b)) ⟨a ++ (u ++ b), old⟩ opts l is → ∃ lb ib lb' ib' k,
      Api.many.Returns chk b ⟨b, old'⟩ opts lb (old' ++ ib) ∧ l = la ++ lb' ∧ is = old ++ (ia ++ ib') ∧
      MovedAll (blen (a ++ u)) (argsBefore opts k) k (lb.map (·.ast)) (lb'.map (·.ast)) ∧ Each (MovedIssue (blen (a ++ u))) ib ib') ∧
    (∀ m, Api.many.Panics chk (a ++ (u ++ b)) ⟨a ++ (u ++ b), old⟩ opts m → Api.many.Panics chk b ⟨b, old'⟩ opts m) ∧
    (Api.many.Hangs chk (a ++ (u ++ b)) ⟨a ++ (u ++ b), old⟩ opts → Api.many.Hangs chk b ⟨b, old'⟩ opts) :=
  composes_back (C44_compose a toks old ia la he hc hd h hn) u b old' hs

/-! ### Non-vacuity -/

/-- A source that ends in `;`. -/
theorem endsInSemicolon_of_written {chk : Bool} {src : List Char} {toks : List (Token × Span)} {p : Nat}
    (h : Written chk 0 src (toks ++ [(.semiColon, ⟨p, blen src⟩)])) : EndsInSemicolon chk src toks := by
  refine ⟨p, ?_⟩
  have := written_tokensOf h
  simpa using this

theorem ex_semi : EndsInSemicolon true c!"SELECT ?;" [(.ident c!"SELECT" .SELECT, ⟨0, 6⟩), (.questionMark, ⟨7, 8⟩)] :=
  endsInSemicolon_of_written (p := 8) ((C37_written_iff true _ _ (by decide)).2 ⟨⟨c!"SELECT ?;", 9, []⟩, by decide +kernel⟩)

/-- `SELECT ?;` before `SELECT ?`, with a comment in between: two statements, the second one is the one of `SELECT ?`, moved, and so is the Error that the last `;` is missing. -/
example : ∃ l is lb lb' i i', Api.many.Returns true c!"SELECT ?; -- x\nSELECT ?" ⟨c!"SELECT ?; -- x\nSELECT ?", []⟩ { arguments := .questionMark } l is ∧
    Api.many.Returns true c!"SELECT ?" ⟨c!"SELECT ?", []⟩ { arguments := .questionMark } [lb] [i] ∧ is = [i'] ∧ MovedIssue 15 i i' ∧ l.drop 1 = [lb'] ∧ l.length = 2 ∧
    ∃ k, Moved 15 k k lb.ast lb'.ast := by
  obtain ⟨a, is, h1, h2⟩ := returns_of_test (api := .many) (n := 40) (checked := true) (src := c!"SELECT ?;")
    (iss := ⟨c!"SELECT ?;", []⟩) (opts := { arguments := .questionMark }) (f := fun a is => decide (a.length = 1) && is.isEmpty) (by decide +kernel)
  obtain ⟨b, js, h3, h4⟩ := returns_of_test (api := .many) (n := 40) (checked := true) (src := c!"SELECT ?")
    (iss := ⟨c!"SELECT ?", []⟩) (opts := { arguments := .questionMark }) (f := fun a is => decide (a.length = 1) && decide (is.length = 1)) (by decide +kernel)
  simp at h2 h4
  obtain ⟨h2, rfl⟩ := h2
  obtain ⟨h4, h5⟩ := h4
  obtain ⟨i, rfl⟩ := List.length_eq_one_iff.1 h5
  have hsk : Skipped c!" -- x\n" c!"SELECT ?" :=
    .cons c!" " _ _ (.blank _ _ (.inl rfl)) (.cons c!"-- x\n" [] _ (.line '-' '\n' c!" x" _ (.inl rfl) (by decide) (.inl rfl)) (.nil _))
  obtain ⟨L, -, -, -, hL⟩ := C44_compose c!"SELECT ?;" _ [] [] a ex_semi
    (by rintro ⟨v, sp, h⟩; revert h; simp [Keyword.COPY, Keyword.SELECT])
    (by rintro ⟨v, sp, h⟩; revert h; simp [Keyword.DELIMITER, Keyword.SELECT]) h1 (by rintro ⟨i, h, -⟩; cases h)
  obtain ⟨lb', ib', g1, g2, g4⟩ := (hL _ _ [] hsk).1 b [i] h3
  obtain ⟨v, rfl⟩ := List.length_eq_one_iff.1 h2
  obtain ⟨w, rfl⟩ := List.length_eq_one_iff.1 h4
  generalize hm : lb'.map (·.ast) = m at g2
  cases g2 with
  | @cons _ _ _ m' g2 g3 =>
    cases g3
    cases lb' with
    | nil => cases hm
    | cons w' l' =>
      cases l' with
      | cons => simp at hm
      | nil =>
        simp at hm
        subst hm
        cases g4 with
        | cons g4 g5 =>
          cases g5
          exact ⟨_, _, w, w', i, _, g1, h3, rfl, g4, rfl, rfl, _, g2⟩

end SqlParse
