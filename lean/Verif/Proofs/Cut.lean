import Verif.Proofs.CutLex
import Verif.Model.Statement
/-! Runs on the first part `a` of a longer source `a ++ b`: as long as the run on `a` does not reach the end of `a`, the run
on `a ++ b` does the same. -/
namespace SqlParse
variable (chk : Bool) (a b : List Char)

/-- From here on there are only tokens, the last of which is a `;` at the end of the source. -/
inductive ToSemi : Lexer → Prop where
  | stop {l : Lexer} (h : l.rest = []) (hp : l.pos = blen a) : ToSemi l
  | step {l m : Lexer} {t : Token} {sp : Span} (h : l.nextToken chk = .ok t sp m) (ht : t ≠ .eof)
      (hm : t = .semiColon ∨ m.rest ≠ []) (hs : m.src = a) (hr : ToSemi m) : ToSemi l

/-- Corresponding lexers. -/
structure CutL (l l' : Lexer) : Prop where
  src : l.src = a
  eq : l' = ⟨a ++ b, l.pos, l.rest ++ b⟩
  ends : ToSemi chk a l

/-- Corresponding states, before the end of `a`. -/
structure CutR (s t : St) : Prop where
  lx : CutL chk a b s.lx t.lx
  eq : t = { s with lx := t.lx, issueSrc := a ++ b }
  isrc : s.issueSrc = a
  chk : s.checked = chk
  token : s.token ≠ .eof
  peeked : ∀ p, s.peeked = some p → s.token.isKw .LEFT = true ∧ p.1 ≠ .eof

/-- The end of the source has been reached. -/
def Ended (s : St) : Prop :=
  s.lx.rest = [] ∧ ((s.peeked = none ∧ s.token = .eof) ∨ ∃ sp, s.peeked = some (.eof, sp) ∧ s.token.isKw .LEFT = true)

/-- Data has been read. -/
def Loaded (s : St) : Prop := s.dataLog ≠ []

/-- What holds at the end of a run that has an end. -/
def OutG {α : Type} (G : St → Prop) : Out α → Prop
  | .ok _ s => G s
  | .err s => G s
  | _ => True

/-- The first run has left what it has in common with the second one. -/
def Parted {α : Type} (s : St) (o' : Out α) : Prop :=
  Loaded s ∨ (Ended s ∧ ∀ m, (Lexer.mk (a ++ b) (blen a) b).nextToken chk = .panic m → o' = .panic m)

/-- The second run does what the first one does; or the first one reaches the end of its source (then the second one panics
if the token behind panics); or the first one reads data, panics or is not finished. -/
def Follow {α : Type} (o o' : Out α) : Prop :=
  match o with
  | .ok v s => Parted chk a b s o' ∨ ∃ t, o' = .ok v t ∧ CutR chk a b s t
  | .err s => Parted chk a b s o' ∨ ∃ t, o' = .err t ∧ CutR chk a b s t
  | _ => True

variable {chk a b} {α : Type}

theorem nextToken_nil {l : Lexer} (h : l.rest = []) : l.nextToken chk = .ok .eof ⟨blen l.src, blen l.src⟩ ⟨l.src, blen l.src, []⟩ := by
  obtain ⟨src, pos, rest⟩ := l
  cases h
  rfl

theorem CutL.next {l l' : Lexer} (h : CutL chk a b l l') (hr : l.rest ≠ []) :
    ∃ t sp m m', l.nextToken chk = .ok t sp m ∧ l'.nextToken chk = .ok t sp m' ∧ t ≠ .eof ∧ CutL chk a b m m' := by
  cases h.ends with
  | stop h' hp => exact absurd h' hr
  | step h1 ht hm hs hr' =>
    refine ⟨_, _, _, _, h1, ?_, ht, ⟨hs, rfl, hr'⟩⟩
    have := h.eq
    subst this
    unfold Lexer.nextToken at h1 ⊢
    have := nextLoop_app b h1 (k := (l.rest ++ b).length + 1) (by simp) hm ht
    rw [h.src] at this
    exact this

theorem CutL.at {l l' : Lexer} (h : CutL chk a b l l') (hr : l.rest = []) : l' = ⟨a ++ b, blen a, b⟩ := by
  rw [h.eq, hr]
  cases h.ends with
  | stop h' hp => rw [hp]; rfl
  | step h1 ht hm hs hr' => rw [nextToken_nil hr] at h1; cases h1; exact absurd rfl ht

theorem next_loaded {s : St} (h : Loaded s) : OutG Loaded s.next := by
  unfold St.next
  split
  · exact h
  · split
    · exact h
    · trivial

theorem next_ended {s : St} (h : Ended s) : OutG Ended s.next := by
  unfold St.next
  rcases h with ⟨hr, ⟨hp, ht⟩ | ⟨sp, hp, ht⟩⟩
  · rw [hp]
    simp only [nextToken_nil hr]
    exact ⟨rfl, .inl ⟨rfl, rfl⟩⟩
  · rw [hp]
    exact ⟨hr, .inl ⟨rfl, rfl⟩⟩

theorem issue_keeps {G : St → Prop} {s : St} (hG : ∀ i, G { s with issues := i }) (l : Level) (m : Msg) (sp : Span) (fr) :
    OutG G (s.issue l m sp fr) := by
  unfold St.issue
  split
  · exact hG _
  · trivial

theorem op_loaded {o : Op α} {s : St} (h : Loaded s) : OutG Loaded (o.run s) := by
  cases o with
  | next => exact next_loaded h
  | cur => exact h
  | leftParenAhead =>
    simp only [Op.run]
    split
    · split
      · exact h
      · split
        · exact h
        · trivial
    · exact h
  | issue l m sp fr => exact issue_keeps (fun _ => h) _ _ _ _
  | issueIf f l v sp =>
    simp only [Op.run]
    split
    · exact issue_keeps (fun _ => h) _ _ _ _
    · exact h
  | takeArg =>
    have := next_loaded (s := { s with arg := s.arg + 1, argLog := s.argLog ++ [s.span] }) h
    simp only [Op.run]
    revert this
    generalize St.next { s with arg := s.arg + 1, argLog := s.argLog ++ [s.span] } = o
    cases o <;> exact id
  | delim => exact h
  | setDelim t => exact h
  | permit => exact h
  | setPermit x => exact h
  | dialect => exact h
  | arguments => exact h
  | listHack => exact h
  | stdin =>
    simp only [Op.run]
    split
    · trivial
    · next d sp lx _ =>
      have := next_loaded (s := { s with lx := lx, dataLog := s.dataLog ++ [(s.span, d, sp)] }) (by simp [Loaded])
      revert this
      generalize St.next { s with lx := lx, dataLog := s.dataLog ++ [(s.span, d, sp)] } = o
      cases o <;> exact id

theorem stdin_loaded {s : St} : OutG Loaded (Op.stdin.run s) := by
  simp only [Op.run]
  split
  · trivial
  · next d sp lx _ =>
    have := next_loaded (s := { s with lx := lx, dataLog := s.dataLog ++ [(s.span, d, sp)] }) (by simp [Loaded])
    revert this
    generalize St.next { s with lx := lx, dataLog := s.dataLog ++ [(s.span, d, sp)] } = o
    cases o <;> exact id

/-- Ended, or data has been read since. -/
def Gone (s : St) : Prop := Loaded s ∨ Ended s

theorem outG_imp {G H : St → Prop} (h : ∀ s, G s → H s) {o : Out α} (ho : OutG G o) : OutG H o := by
  cases o with
  | ok v s => exact h _ ho
  | err s => exact h _ ho
  | panic m => trivial
  | oof => trivial

theorem op_gone {o : Op α} {s : St} (h : Gone s) : OutG Gone (o.run s) := by
  rcases h with h | h
  · exact outG_imp (fun _ => .inl) (op_loaded h)
  cases o with
  | next => exact outG_imp (fun _ => .inr) (next_ended h)
  | cur => exact .inr h
  | leftParenAhead =>
    simp only [Op.run]
    split
    · next hl =>
      rcases h with ⟨hr, ⟨hp, ht⟩ | ⟨sp, hp, ht⟩⟩
      · rw [ht] at hl; cases hl
      · rw [hp]; exact .inr ⟨hr, .inr ⟨sp, hp, ht⟩⟩
    · exact .inr h
  | issue l m sp fr => exact issue_keeps (fun _ => .inr h) _ _ _ _
  | issueIf f l v sp =>
    simp only [Op.run]
    split
    · exact issue_keeps (fun _ => .inr h) _ _ _ _
    · exact .inr h
  | takeArg =>
    have := next_ended (s := { s with arg := s.arg + 1, argLog := s.argLog ++ [s.span] }) h
    simp only [Op.run]
    revert this
    generalize St.next { s with arg := s.arg + 1, argLog := s.argLog ++ [s.span] } = o
    cases o with
    | ok v s' => exact .inr
    | err s' => exact .inr
    | panic m => exact id
    | oof => exact id
  | delim => exact .inr h
  | setDelim t => exact .inr h
  | permit => exact .inr h
  | setPermit x => exact .inr h
  | dialect => exact .inr h
  | arguments => exact .inr h
  | listHack => exact .inr h
  | stdin => exact outG_imp (fun _ => .inl) stdin_loaded

theorem next_cut {s t : St} (h : CutR chk a b s t) : Follow chk a b s.next t.next := by
  have e := h.eq
  unfold St.next
  cases hp : s.peeked with
  | some p =>
    have hp' : t.peeked = some p := by rw [e]; exact hp
    rw [hp']
    obtain ⟨p1, p2⟩ := h.peeked p hp
    refine .inr ⟨_, rfl, ⟨h.lx, ?_, h.isrc, h.chk, p2, nofun⟩⟩
    rw [e]
  | none =>
    have hp' : t.peeked = none := by rw [e]; exact hp
    have hc : t.checked = chk := by rw [e]; exact h.chk
    rw [hp', hc, h.chk]
    by_cases hr : s.lx.rest = []
    · rw [nextToken_nil hr]
      exact .inl (.inr ⟨⟨rfl, .inl ⟨rfl, rfl⟩⟩, fun m hm => by rw [h.lx.at hr, hm]⟩)
    · obtain ⟨t1, sp, m, m', e1, e2, e3, e4⟩ := h.lx.next hr
      rw [e1, e2]
      refine .inr ⟨_, rfl, ⟨e4, ?_, h.isrc, rfl, e3, nofun⟩⟩
      rw [e]

theorem mkFrags_app {fr : List (String × Span)} {fs : List Fragment} (h : mkFrags a fr = some fs) : mkFrags (a ++ b) fr = some fs := by
  induction fr generalizing fs with
  | nil => exact h
  | cons x r ih =>
    obtain ⟨m, sp⟩ := x
    simp only [mkFrags] at h ⊢
    split at h
    · next e1 e2 => rw [slice_app b e1, ih e2]; exact h
    · cases h

theorem issue_cut {s t : St} (h : CutR chk a b s t) (l : Level) (m : Msg) (sp : Span) (fr) :
    Follow chk a b (s.issue l m sp fr) (t.issue l m sp fr) := by
  have e := h.eq
  have he : t.issueSrc = a ++ b := by rw [e]
  unfold St.issue
  rw [h.isrc, he]
  cases h1 : slice a sp.start sp.stop with
  | none => trivial
  | some seg =>
    cases h2 : mkFrags a fr with
    | none => trivial
    | some fs =>
      rw [slice_app b h1, mkFrags_app h2]
      refine .inr ⟨_, rfl, ⟨h.lx, ?_, rfl, h.chk, h.token, h.peeked⟩⟩
      rw [e]

theorem follow_same {s t : St} {v w : α} (h : CutR chk a b s t) (hv : v = w) : Follow chk a b (.ok v s) (.ok w t) :=
  .inr ⟨t, by rw [hv], h⟩

theorem op_cut {o : Op α} {s t : St} (h : CutR chk a b s t) : Follow chk a b (o.run s) (o.run t) := by
  have e := h.eq
  cases o with
  | next => exact next_cut h
  | cur => exact follow_same h (by rw [e])
  | leftParenAhead =>
    have ht : t.token = s.token := by rw [e]
    simp only [Op.run, ht]
    split
    · next hl =>
      cases hp : s.peeked with
      | some p =>
        have hp' : t.peeked = some p := by rw [e]; exact hp
        rw [hp']
        exact follow_same h rfl
      | none =>
        have hp' : t.peeked = none := by rw [e]; exact hp
        have hc : t.checked = chk := by rw [e]; exact h.chk
        rw [hp', hc, h.chk]
        by_cases hr : s.lx.rest = []
        · rw [nextToken_nil hr]
          exact .inl (.inr ⟨⟨rfl, .inr ⟨_, rfl, hl⟩⟩, fun m hm => by rw [h.lx.at hr, hm]⟩)
        · obtain ⟨t1, sp, m, m', e1, e2, e3, e4⟩ := h.lx.next hr
          rw [e1, e2]
          refine .inr ⟨_, rfl, ⟨e4, ?_, h.isrc, rfl, h.token, ?_⟩⟩
          · rw [e]
          · intro p hp'; cases hp'; exact ⟨hl, e3⟩
    · exact follow_same h rfl
  | issue l m sp fr => exact issue_cut h _ _ _ _
  | issueIf f l v sp =>
    have ho : t.opts = s.opts := by rw [e]
    simp only [Op.run, ho]
    split
    · exact issue_cut h _ _ _ _
    · exact follow_same h rfl
  | takeArg =>
    have h0 : CutR chk a b { s with arg := s.arg + 1, argLog := s.argLog ++ [s.span] } { t with arg := t.arg + 1, argLog := t.argLog ++ [t.span] } :=
      ⟨h.lx, by rw [e], h.isrc, h.chk, h.token, h.peeked⟩
    have := next_cut h0
    have e1 : t.arg = s.arg := by rw [e]
    have e2 : t.span = s.span := by rw [e]
    simp only [Op.run]
    revert this
    generalize St.next { s with arg := s.arg + 1, argLog := s.argLog ++ [s.span] } = o
    generalize St.next { t with arg := t.arg + 1, argLog := t.argLog ++ [t.span] } = o'
    cases o with
    | ok v s' =>
      rintro (hg | ⟨t', rfl, hc⟩)
      · refine .inl (hg.imp id fun h => ⟨h.1, fun m hm => by rw [h.2 m hm]⟩)
      · exact .inr ⟨t', by rw [e1, e2], hc⟩
    | err s' =>
      rintro (hg | ⟨t', rfl, hc⟩)
      · refine .inl (hg.imp id fun h => ⟨h.1, fun m hm => by rw [h.2 m hm]⟩)
      · exact .inr ⟨t', rfl, hc⟩
    | panic m => exact id
    | oof => exact id
  | delim => exact follow_same h (by rw [e])
  | setDelim d => exact follow_same ⟨h.lx, by rw [e], h.isrc, h.chk, h.token, h.peeked⟩ rfl
  | permit => exact follow_same h (by rw [e])
  | setPermit x => exact follow_same ⟨h.lx, by rw [e], h.isrc, h.chk, h.token, h.peeked⟩ rfl
  | dialect => exact follow_same h (by rw [e])
  | arguments => exact follow_same h (by rw [e])
  | listHack => exact follow_same h (by rw [e])
  | stdin =>
    have : OutG Loaded (Op.stdin.run s) := stdin_loaded
    revert this
    generalize Op.stdin.run s = o
    cases o with
    | ok v s' => exact fun h => .inl (.inl h)
    | err s' => exact fun h => .inl (.inl h)
    | panic m => exact id
    | oof => exact id

/-! ### Programs -/

theorem loopN_keeps {G : St → Prop} {σ β : Type} {f : σ → St → Out (Step σ β)} (h : ∀ x s, G s → OutG G (f x s)) :
    ∀ m x s, G s → OutG G (loopN f m x s) := by
  intro m
  induction m with
  | zero => intro x s _; trivial
  | succ m ihm =>
    intro x s hs
    have := h x s hs
    unfold loopN
    revert this
    generalize f x s = o
    cases o with
    | ok v s' =>
      cases v with
      | cont x' => exact fun h => ihm x' s' h
      | done v => exact id
    | err s' => exact id
    | panic m => exact id
    | oof => exact id

/-- What all operations preserve is preserved. -/
theorem runWith_keeps {G : St → Prop} (hG : ∀ {α} (o : Op α) s, G s → OutG G (o.run s)) {R : ∀ α, Fn α → St → Out α}
    (hR : ∀ α (f : Fn α) s, G s → OutG G (R α f s)) (n : Nat) (p : Prog α) : ∀ s, G s → OutG G (runWith R n p s) := by
  induction p with
  | ret v => exact fun s h => h
  | bind p f ih ihf =>
    intro s h
    have := ih s h
    unfold runWith
    revert this
    generalize runWith R n p s = o
    cases o with
    | ok v s' => exact fun h => ihf v s' h
    | err s' => exact id
    | panic m => exact id
    | oof => exact id
  | op o => exact fun s h => hG o s h
  | throw => exact fun s h => h
  | tryP p ih =>
    intro s h
    have := ih s h
    unfold runWith
    revert this
    generalize runWith R n p s = o
    cases o <;> exact id
  | loop body x ih =>
    intro s h
    unfold runWith
    exact loopN_keeps (fun x s h => ih x s h) n x s h
  | call f => exact fun s h => hR _ f s h
  | panic m => exact fun s h => trivial

theorem runFn_keeps {G : St → Prop} (hG : ∀ {α} (o : Op α) s, G s → OutG G (o.run s)) :
    ∀ n α (f : Fn α) s, G s → OutG G (runFn n α f s)
  | 0, _, _, _, _ => trivial
  | n + 1, _, f, s, h => runWith_keeps hG (runFn_keeps hG n) n (body f) s h

theorem follow_left {s : St} {o' : Out α} {o : Out α} (_ : Gone s) (hl : OutG Gone o) (hd : Loaded s → OutG Loaded o)
    (hp : Loaded s ∨ ∀ m, (Lexer.mk (a ++ b) (blen a) b).nextToken chk = .panic m → o' = .panic m) : Follow chk a b o o' := by
  cases o with
  | ok v s' =>
    left
    rcases hp with hp | hp
    · exact .inl (hd hp)
    · rcases hl with hl | hl
      · exact .inl hl
      · exact .inr ⟨hl, hp⟩
  | err s' =>
    left
    rcases hp with hp | hp
    · exact .inl (hd hp)
    · rcases hl with hl | hl
      · exact .inl hl
      · exact .inr ⟨hl, hp⟩
  | panic m => trivial
  | oof => trivial

theorem Parted.gone {s : St} {o' : Out α} (h : Parted chk a b s o') : Gone s := by
  rcases h with h | h
  · exact .inl h
  · exact .inr h.1
theorem Parted.panics {s : St} {o' : Out α} (h : Parted chk a b s o') :
    Loaded s ∨ ∀ m, (Lexer.mk (a ++ b) (blen a) b).nextToken chk = .panic m → o' = .panic m := by
  rcases h with h | h
  · exact .inl h
  · exact .inr h.2

/-- The calls keep what is needed. -/
structure CallsCut (chk : Bool) (a b : List Char) (R : ∀ α, Fn α → St → Out α) : Prop where
  gone : ∀ α (f : Fn α) s, Gone s → OutG Gone (R α f s)
  loaded : ∀ α (f : Fn α) s, Loaded s → OutG Loaded (R α f s)
  cut : ∀ α (f : Fn α) s t, CutR chk a b s t → Follow chk a b (R α f s) (R α f t)

theorem loopN_cut {σ β : Type} {f : σ → St → Out (Step σ β)} (hg : ∀ x s, Gone s → OutG Gone (f x s))
    (hl : ∀ x s, Loaded s → OutG Loaded (f x s)) (hc : ∀ x s t, CutR chk a b s t → Follow chk a b (f x s) (f x t)) :
    ∀ m x s t, CutR chk a b s t → Follow chk a b (loopN f m x s) (loopN f m x t) := by
  intro m
  induction m with
  | zero => intro x s t _; trivial
  | succ m ihm =>
    intro x s t h
    have := hc x s t h
    unfold loopN
    revert this
    generalize f x s = o
    generalize f x t = o'
    cases o with
    | ok v s' =>
      rintro (hd | ⟨t', rfl, hc⟩)
      · cases v with
        | cont x' =>
          refine follow_left hd.gone (loopN_keeps hg m x' s' hd.gone) (fun h => loopN_keeps hl m x' s' h) ?_
          rcases hd.panics with hp | hp
          · exact .inl hp
          · exact .inr fun m hm => by rw [hp m hm]
        | done v =>
          refine follow_left hd.gone hd.gone id ?_
          rcases hd.panics with hp | hp
          · exact .inl hp
          · exact .inr fun m hm => by rw [hp m hm]
      · cases v with
        | cont x' => exact ihm x' s' t' hc
        | done v => exact .inr ⟨t', rfl, hc⟩
    | err s' =>
      rintro (hd | ⟨t', rfl, hc⟩)
      · refine follow_left hd.gone hd.gone id ?_
        rcases hd.panics with hp | hp
        · exact .inl hp
        · exact .inr fun m hm => by rw [hp m hm]
      · exact .inr ⟨t', rfl, hc⟩
    | panic m => exact id
    | oof => exact id

theorem runWith_cut {R : ∀ α, Fn α → St → Out α} (hR : CallsCut chk a b R) (n : Nat) (p : Prog α) :
    ∀ s t, CutR chk a b s t → Follow chk a b (runWith R n p s) (runWith R n p t) := by
  induction p with
  | ret v => exact fun s t h => follow_same h rfl
  | bind p f ih ihf =>
    intro s t h
    have := ih s t h
    unfold runWith
    revert this
    generalize runWith R n p s = o
    generalize runWith R n p t = o'
    cases o with
    | ok v s' =>
      rintro (hd | ⟨t', rfl, hc⟩)
      · refine follow_left hd.gone (runWith_keeps (fun _ _ => op_gone) hR.gone n (f v) s' hd.gone)
          (fun h => runWith_keeps (fun _ _ => op_loaded) hR.loaded n (f v) s' h) ?_
        rcases hd.panics with hp | hp
        · exact .inl hp
        · exact .inr fun m hm => by rw [hp m hm]
      · exact ihf v s' t' hc
    | err s' =>
      rintro (hd | ⟨t', rfl, hc⟩)
      · refine follow_left hd.gone hd.gone id ?_
        rcases hd.panics with hp | hp
        · exact .inl hp
        · exact .inr fun m hm => by rw [hp m hm]
      · exact .inr ⟨t', rfl, hc⟩
    | panic m => exact id
    | oof => exact id
  | op o => exact fun s t h => op_cut h
  | throw => exact fun s t h => .inr ⟨t, rfl, h⟩
  | tryP p ih =>
    intro s t h
    have := ih s t h
    unfold runWith
    revert this
    generalize runWith R n p s = o
    generalize runWith R n p t = o'
    cases o with
    | ok v s' =>
      rintro (hd | ⟨t', rfl, hc⟩)
      · refine follow_left hd.gone hd.gone id ?_
        rcases hd.panics with hp | hp
        · exact .inl hp
        · exact .inr fun m hm => by rw [hp m hm]
      · exact .inr ⟨t', rfl, hc⟩
    | err s' =>
      rintro (hd | ⟨t', rfl, hc⟩)
      · refine follow_left hd.gone hd.gone id ?_
        rcases hd.panics with hp | hp
        · exact .inl hp
        · exact .inr fun m hm => by rw [hp m hm]
      · exact .inr ⟨t', rfl, hc⟩
    | panic m => exact id
    | oof => exact id
  | loop body x ih =>
    intro s t h
    unfold runWith
    exact loopN_cut (fun x s h => runWith_keeps (fun _ _ => op_gone) hR.gone n (body x) s h)
      (fun x s h => runWith_keeps (fun _ _ => op_loaded) hR.loaded n (body x) s h) ih n x s t h
  | call f => exact fun s t h => hR.cut _ f s t h
  | panic m => exact fun s t h => trivial

theorem runFn_cut : ∀ n, CallsCut chk a b (runFn n)
  | 0 => ⟨runFn_keeps (fun _ _ => op_gone) 0, runFn_keeps (fun _ _ => op_loaded) 0, fun _ _ _ _ _ => trivial⟩
  | n + 1 => ⟨runFn_keeps (fun _ _ => op_gone) (n + 1), runFn_keeps (fun _ _ => op_loaded) (n + 1),
      fun _ f s t h => runWith_cut (runFn_cut n) n (body f) s t h⟩

/-- Every program: the run on `a ++ b` follows the run on `a`. -/
theorem run_cut (n : Nat) (p : Prog α) {s t : St} (h : CutR chk a b s t) : Follow chk a b (p.run n s) (p.run n t) :=
  runWith_cut (runFn_cut n) n p s t h

end SqlParse
