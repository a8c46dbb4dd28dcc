import Verif.Proofs.SoundStmt
import Verif.Theorems.Grammar
/-! The converse direction of the grammar: the entry points. -/
namespace SqlParse

/-! ### The tokens of any source -/

/-- `Begins checked data o l toks`: the text `l`, which begins at byte offset `o` of the source, begins with the tokens `toks`
(as in `Laid`); nothing is said about what follows them. -/
inductive Begins (checked : Bool) (data : Data) : Nat → List Char → List Tk → Prop where
  | nil (o : Nat) (l : List Char) : Begins checked data o l []
  | last (o : Nat) (u w rest : List Char) (t : Token) (ht : t ≠ .eof) (hs : Skipped u (w ++ rest)) (hf : ReadsAs checked t w rest) :
      Begins checked data o (u ++ (w ++ rest)) [(t, ⟨o + blen u, o + blen u + blen w⟩)]
  | cons (o o' : Nat) (u w rest rest' : List Char) (t : Token) (toks : List Tk) (ht : t ≠ .eof)
      (hs : Skipped u (w ++ rest)) (hf : ReadsAs checked t w rest)
      (hg : Gap data (t, ⟨o + blen u, o + blen u + blen w⟩) (o + blen u + blen w) rest o' rest') (h : Begins checked data o' rest' toks) :
      Begins checked data o (u ++ (w ++ rest)) ((t, ⟨o + blen u, o + blen u + blen w⟩) :: toks)

theorem begins_increasing {chk : Bool} {data : Data} {o : Nat} {l : List Char} {toks : List Tk} (h : Begins chk data o l toks) :
    (∀ q ∈ toks, o ≤ q.2.start) ∧ Increasing toks := by
  induction h with
  | nil => simp [Increasing]
  | last => simp [Increasing]
  | cons o o' u w rest rest' t toks ht hs hf hg h ih =>
    have := blen_pos_of_ne (reads_cons hf ht)
    have := gap_le hg
    obtain ⟨h1, h2⟩ := ih
    refine ⟨?_, ?_, h2⟩
    · intro q hq
      rcases List.mem_cons.1 hq with rfl | hq
      · simp
      · have := h1 q hq; omega
    · intro q hq
      have := h1 q hq
      simp only; omega

theorem begins_ne_eof {chk : Bool} {data : Data} {o : Nat} {l : List Char} {toks : List Tk} (h : Begins chk data o l toks) :
    ∀ x ∈ toks, x.1 ≠ .eof := by
  induction h with
  | nil => simp
  | last o u w rest t ht hs hf => simpa using ht
  | cons o o' u w rest rest' t toks ht hs hf hg h ih =>
    intro p hp
    rcases List.mem_cons.1 hp with rfl | hp
    · exact ht
    · exact ih p hp

/-- The tokens up to the end of the source or to a panic, given what the data is. -/
theorem sfeed_exists (chk : Bool) (data : Data) (p : Tk) (lx : Lexer) (hl : lx.Fine) :
    ∃ toks last, SFeed chk data p lx (toks ++ last) ∧ (last = [] ∨ ∃ sp, last = [(.eof, sp)]) ∧
      ((∀ lx1, ¬ After data p lx lx1) ∧ toks = [] ∧ last = [] ∨
       ∃ lx1, After data p lx lx1 ∧ Begins chk data lx1.pos lx1.rest toks ∧ (last ≠ [] → Laid chk data lx1.pos lx1.rest (toks ++ last))) := by
  generalize hk : lx.rest.length = k
  induction k using Nat.strongRecOn generalizing p lx with
  | ind k ih =>
    by_cases ha : ∃ lx1, After data p lx lx1
    · obtain ⟨lx1, ha⟩ := ha
      obtain ⟨hl1, hg⟩ := after_gap hl ha
      have hu : ∀ lx2, After data p lx lx2 → lx2 = lx1 := by
        intro lx2 h2
        unfold After at ha h2
        split at ha
        · simp_all
        · next d hd => simp_all
      have hle : lx1.rest.length ≤ lx.rest.length := by
        generalize lx.pos = a at hg
        generalize lx1.pos = b at hg
        generalize lx.rest = r at hg
        generalize lx1.rest = r1 at hg
        cases hg <;> simp
      cases hn : lx1.nextToken chk with
      | panic m =>
        refine ⟨[], [], .stop fun lx2 t sp lx' h1 h2 => ?_, .inl rfl, .inr ⟨lx1, ha, .nil .., by simp⟩⟩
        rw [hu _ h1, hn] at h2; cases h2
      | ok t sp lx' =>
        by_cases he : t = .eof
        · subst he
          exact ⟨[], [(.eof, sp)], .last ha rfl hn, .inr ⟨sp, rfl⟩, .inr ⟨lx1, ha, .nil .., fun _ => laid_last hl1 hn⟩⟩
        · obtain ⟨k0, u, w, k1, k2, k3, k4, k5⟩ := next_laid hl1 hn
          have hlen : 0 < w.length := List.length_pos_iff.2 (reads_cons k3 he)
          have hlt : lx'.rest.length < k := by
            rw [k1] at hle
            simp at hle
            omega
          obtain ⟨toks, last, g1, g2, g3⟩ := ih _ hlt (t, sp) lx' k0 rfl
          refine ⟨(t, sp) :: toks, last, .cons ha (by simp [Token.isLast, he]) hn g1, g2, .inr ⟨lx1, ha, ?_⟩⟩
          rcases g3 with ⟨-, rfl, rfl⟩ | ⟨lx2, g3, g4, g5⟩
          · rw [k1, k4]
            exact ⟨.last _ _ _ _ _ he k2 k3, by simp⟩
          · obtain ⟨m1, m2⟩ := after_gap k0 g3
            refine ⟨?_, fun hl => (laid_next hl1 hn he g3).2 (g5 hl)⟩
            rw [k5] at m2
            rw [k1]
            subst k4
            exact .cons _ _ _ _ _ _ _ _ he k2 k3 m2 g4
    · exact ⟨[], [], .stop fun lx1 t sp lx' h _ => ha ⟨lx1, h⟩, .inl rfl, .inl ⟨fun lx1 h => ha ⟨lx1, h⟩, rfl, rfl⟩⟩

theorem numbered_more {o : Opts} {args : Span → Bool} {f : Span → Nat} {k : Nat} {ts last : List Tk} (h : Numbered o args f k ts)
    (hl : ∀ q ∈ last, argTk o args q = false) : Numbered o args f k (ts ++ last) := by
  induction ts generalizing k with
  | nil =>
    clear h
    induction last generalizing k with
    | nil => trivial
    | cons p l ih =>
      have := hl p (by simp)
      simp only [List.nil_append, Numbered, this]
      exact ih fun q hq => hl q (by simp [hq])
  | cons p ts ih =>
    simp only [List.cons_append, Numbered] at h ⊢
    split
    · next hm => rw [if_pos hm] at h; exact ⟨h.1, ih h.2⟩
    · next hm => rw [if_neg hm] at h; exact ih h

/-- The arguments of a log. -/
def Log.isArg (L : Log) : Span → Bool := fun sp => decide (sp ∈ L.args)

/-- The data of a log. -/
def Log.toData (L : Log) : Data := fun sp => L.data.lookup sp

/-- A first state, for any data and arguments. -/
theorem start_sat {chk : Bool} {src : List Char} {iss : Issues} {opts : Opts} {s : St}
    (hs : St.new chk src iss opts = .ok () s) (L : Log) :
    ∃ ts, SAt (Env.start opts L.toData L.isArg ts) L s ts ∧ s.issues = iss.issues ∧
      ∀ sp, [(.eof, sp)] <:+ ts → Laid chk L.toData 0 src ts := by
  obtain ⟨toks, last, hf, hl, hh⟩ := sfeed_exists chk L.toData (.eof, ⟨0, 0⟩) (Lexer.new src) ⟨[], rfl, rfl⟩
  have hae : After L.toData (.eof, ⟨0, 0⟩) (Lexer.new src) (Lexer.new src) := by simp [After, Data.after]
  have hh : Begins chk L.toData 0 src toks ∧ (last ≠ [] → Laid chk L.toData 0 src (toks ++ last)) := by
    rcases hh with ⟨h, -⟩ | ⟨lx1, h1, h2⟩
    · exact absurd hae (h _)
    · unfold After at hae h1
      simp only [Data.after] at hae h1
      simp at h1
      subst h1
      exact h2
  obtain ⟨hb, hla⟩ := hh
  have he := begins_ne_eof hb
  have hn : Numbered opts L.isArg (markerNo opts L.isArg (toks ++ last)) 0 (toks ++ last) := by
    have h3 : ∀ q ∈ last, argTk opts L.isArg q = false := by
      rintro q hq
      rcases hl with rfl | ⟨sp, rfl⟩
      · cases hq
      · simp at hq; subst hq; rfl
    have hk := numbered_more (numbered_suffix (o := opts) (args := L.isArg) [] toks (begins_increasing hb).2) (last := last) h3
    have e : markerNo opts L.isArg (toks ++ last) = markerNo opts L.isArg toks := by
      funext sp
      unfold markerNo
      rw [List.filter_append, List.length_append]
      have : last.filter (fun p => argTk opts L.isArg p && decide (p.2.start < sp.start)) = [] := by
        rw [List.filter_eq_nil_iff]
        intro q hq
        simp [h3 q hq]
      rw [this]; rfl
    rw [e]
    exact hk
  have hlast : ∀ sp, [(.eof, sp)] <:+ toks ++ last → last ≠ [] := by
    rintro sp ⟨pre, h⟩ rfl
    rw [List.append_nil] at h
    exact he (.eof, sp) (by rw [← h]; simp) rfl
  obtain ⟨hinv, -⟩ := new_binv hs
  replace hn := numbered_noStyle hn
  refine ⟨toks ++ last, ?_⟩
  have hlog : (s.dataLog = [] ∧ s.argLog = []) ∧ s.issues = iss.issues := by
    unfold St.new at hs
    split at hs <;> cases hs
    exact ⟨⟨rfl, rfl⟩, rfl⟩
  refine ⟨?_, hlog.2, fun sp h => hla (hlast sp h)⟩
  clear hb hla he hlast hl
  generalize toks ++ last = ts at *
  have hlg : (∀ x ∈ s.dataLog, x.1.start < s.span.start) ∧ ∀ x ∈ s.argLog, x.start < s.span.start := by rw [hlog.1.1, hlog.1.2]; simp
  unfold St.new at hs
  cases hf with
  | stop h' =>
    cases hx : (Lexer.new src).nextToken chk with
    | panic m => rw [hx] at hs; cases hs
    | ok t sp lx => exact (h' _ _ _ _ hae hx).elim
  | last ha hti h' =>
    simp only [After, Data.after] at ha
    simp at ha
    subst ha
    rw [h'] at hs
    cases hs
    exact ⟨rfl, rfl, rfl, ⟨_, rfl, by simp [SAhead, hti]⟩, hn, hinv, rfl, rfl, hlg⟩
  | cons ha hti h' hf =>
    simp only [After, Data.after] at ha
    simp at ha
    subst ha
    rw [h'] at hs
    cases hs
    exact ⟨rfl, rfl, rfl, ⟨_, rfl, by simp [SAhead, hti]; exact hf⟩, hn, hinv, rfl, rfl, hlg⟩

/-! ### One statement -/

section
set_option linter.unusedSectionVars false
variable {n : Nat} [CallsS n] {c : Env} {ts r tl : List Tk}

theorem stmt_call : D n c (.call .statement) ts (SpecFn c .statement ts) := CallsS.call .statement c ts

theorem singleStatement_d : D n c singleStatement ts (fun o r => ∃ v t sp tl, o = some v ∧ Stm c ts v r ∧ r = (t, sp) :: tl ∧ t = .eof) := by
  unfold singleStatement
  refine d_tryP_bind stmt_call fun o r h => ?_
  cases o with
  | none => exact d_expectedError
  | some v =>
    refine d_curT fun t sp tl he => ?_
    subst he
    refine d_whenNo (fun _ => d_expectedError) fun hb => d_pure ⟨v, t, sp, tl, rfl, h, rfl, by simpa using hb⟩

theorem sat_eof {L : Log} {s : St} {t : Token} {sp : Span} (h : SAt c L s ((t, sp) :: tl)) (ht : t = .eof) : tl = [] := by
  obtain ⟨tl', h1, h2⟩ := h.cur
  cases h1
  unfold SAhead at h2
  have hl : s.token.isLast = true := by rw [ht]; rfl
  cases hp : s.peeked with
  | none => rw [hp] at h2; simpa [hl] using h2
  | some p => rw [hp] at h2; exact absurd h2.1 (by rw [ht]; simp [Token.isKw])

/-! ### Scripts -/

theorem skipDelims_d (hd : c.delim = .semiColon ∨ c.delim = .doubleDollar) :
    D n c skipDelims ts (fun b r => (∀ l, Scr c r l → Scr c ts l) ∧ ∃ t sp tl, r = (t, sp) :: tl ∧ b = decide (t = .eof) ∧ t ≠ c.delim) := by
  refine d_loop (I := fun _ r => ∀ l, Scr c r l → Scr c ts l) (fun _ h => h) ?_
  rintro - ts' hI
  refine d_curT fun t sp tl he => d_delim (d_ite (fun hk => ?_) fun hk => ?_)
  · subst he hk
    refine consume_dbD (by rcases hd with h | h <;> rw [h] <;> rfl) fun hn => d_pure ?_
    exact fun l h => hI l (.skip hn h)
  · subst he
    exact d_pure ⟨hI, _, _, _, rfl, rfl, hk⟩

/-- Like `D`, but the environment may change. -/
def DE (n : Nat) (c : Env) {α : Type} (p : Prog α) (ts : List Tk) (Q : Env → α → List Tk → Prop) : Prop :=
  ∀ L s, SAt c L s ts → match p.run n s with
  | .ok a s' => Calm L s s' → ∃ c' r, SAt c' L s' r ∧ r <:+ ts ∧ Q c' a r
  | .err s' => ¬ Calm L s s'
  | _ => True

theorem de_of {α : Type} {p : Prog α} {Q : Env → α → List Tk → Prop} (h : D n c p ts (Q c)) : DE n c p ts Q := by
  intro L s hs
  have := h L s hs
  cases h1 : p.run n s <;> rw [h1] at this
  · exact fun hi => let ⟨r, k1, k2, k3⟩ := this hi; ⟨c, r, k1, k2, k3⟩
  · exact this
  all_goals trivial

theorem de_seq {α β : Type} {p : Prog α} {f : α → Prog β} {R : Env → α → List Tk → Prop} {Q : Env → β → List Tk → Prop}
    (h : DE n c p ts R) (hf : ∀ c' a r, R c' a r → DE n c' (f a) r Q) : DE n c (p >>= f) ts Q := by
  intro L s hs
  have h1 := h L s hs
  have g1 := run_good n p s hs.inv
  have e : (p >>= f).run n s = match p.run n s with
      | .ok a s' => (f a).run n s' | .err s' => .err s' | .panic m => .panic m | .oof => .oof := by
    show runWith (runFn n) n (.bind p f) s = _
    unfold runWith
    show (match p.run n s with | .ok a s' => _ | .err s' => _ | .panic m => _ | .oof => _) = _
    cases p.run n s <;> rfl
  rw [e]
  cases h2 : p.run n s with
  | ok a s1 =>
    rw [h2] at h1 g1
    simp only
    have g2 := run_good n (f a) s1 g1.1
    cases h3 : (f a).run n s1 with
    | ok b s2 =>
      rw [h3] at g2
      intro hq
      obtain ⟨q1, q2⟩ := quiet_back g1.2 g2.2 hq
      obtain ⟨c', r, g3, g4, g5⟩ := h1 q1
      have g6 := hf _ _ _ g5 L s1 g3
      rw [h3] at g6
      obtain ⟨c'', r', k1, k2, k3⟩ := g6 q2
      exact ⟨c'', r', k1, k2.trans g4, k3⟩
    | err s2 =>
      rw [h3] at g2
      intro hq
      obtain ⟨q1, q2⟩ := quiet_back g1.2 g2.2 hq
      obtain ⟨c', r, g3, g4, g5⟩ := h1 q1
      have g6 := hf _ _ _ g5 L s1 g3
      rw [h3] at g6
      exact g6 q2
    | panic m => trivial
    | oof => trivial
  | err s1 => rw [h2] at h1; exact h1
  | panic m => trivial
  | oof => trivial

theorem de_bind {α β : Type} {p : Prog α} {f : α → Prog β} {R : α → List Tk → Prop} {Q : Env → β → List Tk → Prop}
    (h : D n c p ts R) (hf : ∀ a r, R a r → DE n c (f a) r Q) : DE n c (p >>= f) ts Q := by
  refine de_seq (R := fun c' a r => c' = c ∧ R a r) (de_of (h.mono fun _ _ h => ⟨rfl, h⟩)) ?_
  rintro c' a r ⟨rfl, h'⟩
  exact hf a r h'

theorem setDelimiter_de : DE n c setDelimiter ts (fun c' _ r => ∃ d s', (d = .semiColon ∨ d = .doubleDollar) ∧ ts = (d, s') :: r ∧
    c.data s' = none ∧ c' = { c with delim := d }) := by
  refine de_bind (R := fun x r => ∃ tl, r = x :: tl ∧ ts = x :: tl) (d_cur' fun t sp tl he => ⟨tl, rfl, he⟩) ?_
  rintro ⟨t, sp⟩ r ⟨tl, rfl, rfl⟩
  refine de_bind (R := fun _ r => r = (t, sp) :: tl ∧ (t = .semiColon ∨ t = .doubleDollar)) ?_ ?_
  · refine d_tail (d_whenNo (fun _ => d_warn) fun hb => d_pure ⟨rfl, ?_⟩)
    simp at hb
    by_cases h : t = .doubleDollar
    · exact .inr h
    · exact .inl (hb h)
  · rintro - r ⟨rfl, ht⟩
    refine de_seq (R := fun c' _ r => c' = { c with delim := t } ∧ r = (t, sp) :: tl) ?_ ?_
    · intro L s hs
      exact fun _ => ⟨{ c with delim := t }, _, ⟨hs.opts, rfl, hs.permit, hs.cur, hs.num, hs.inv.setDelim t, hs.data, hs.args, hs.log⟩,
        List.suffix_refl _, rfl, rfl⟩
    · rintro c' - r ⟨rfl, rfl⟩
      have hs : t.solid = true := by rcases ht with rfl | rfl <;> rfl
      exact de_of (d_tail (d_nextA (by rcases ht with rfl | rfl <;> rfl) fun _ hn => d_pure ⟨t, sp, ht, rfl, hn, rfl⟩))

/-- What is added to the list after a statement. -/
def Added (c : Env) (v : SAst) (sp : Span) (l : List SAst) : Prop :=
  takesData v = false ∧ c.data sp = none ∧ l = [v] ∨
  takesData v = true ∧ ∃ d dsp, c.data sp = some (d, dsp) ∧ l = [v, ⟨.node .Statement_Stdin [.str d, .span dsp]⟩]

theorem finishStatement_d {acc : List SAst} {v : SAst} (hd : c.delim = .semiColon ∨ c.delim = .doubleDollar) :
    D n c (finishStatement acc (some v)) ts (fun x r => ∃ sp l, ts = (c.delim, sp) :: r ∧ Added c v sp l ∧ x = .cont (acc ++ l)) := by
  unfold finishStatement
  refine d_curT fun t sp tl he => d_delim ?_
  subst he
  refine d_bind (R := fun b r => b = false ∧ t = c.delim ∧ r = (t, sp) :: tl) ?_ ?_
  · refine d_ite (fun _ => ?_) fun h => d_pure ⟨rfl, by simpa using h, rfl⟩
    exact d_expectedError
  · rintro b r ⟨rfl, rfl, rfl⟩
    simp only [Bool.false_eq_true, if_false]
    unfold afterDelim
    cases hv : v.readsStdin with
    | false =>
      simp only [Bool.false_eq_true, if_false]
      refine d_assoc (d_delim (d_assoc (d_tryP_bind (ctk_dD (by rcases hd with h | h <;> rw [h] <;> rfl)) fun a r h => ?_)))
      obtain ⟨h, hn⟩ := h
      cases h
      exact d_seq (d_pure (d_pure ⟨_, _, rfl, .inl ⟨by rw [takesData_eq]; exact hv, hn, rfl⟩, rfl⟩))
    | true =>
      simp only [if_true]
      refine d_assoc (d_stdin hd fun d dsp hda => d_seq (d_pure (d_pure ⟨_, _, rfl, .inr ⟨by rw [takesData_eq]; exact hv, d, dsp, hda, rfl⟩, ?_⟩)))
      rw [List.append_assoc]
      rfl

/-- What is known after a round. -/
def ScrRound (c : Env) (ts : List Tk) (acc : List SAst) (c' : Env) : Step (List SAst) (List SAst) → List Tk → Prop
  | .done l, r => ∃ sp tl, r = (.eof, sp) :: tl ∧ l = acc ∧ (tl = [] → Scr c ts [])
  | .cont acc', r => (c'.delim = .semiColon ∨ c'.delim = .doubleDollar) ∧ ∃ l1, acc' = acc ++ l1 ∧ ∀ l, Scr c' r l → Scr c ts (l1 ++ l)

theorem statementsStep_de {acc : List SAst} (hd : c.delim = .semiColon ∨ c.delim = .doubleDollar) :
    DE n c (statementsStep acc) ts (ScrRound c ts acc) := by
  unfold statementsStep
  refine de_bind (skipDelims_d hd) ?_
  rintro b r ⟨h1, t, sp, tl, rfl, rfl, h2⟩
  by_cases ht : t = .eof
  · subst ht
    simp only [decide_true, if_true]
    exact de_of (d_pure ⟨sp, tl, rfl, rfl, fun h => h1 _ (h ▸ .eof)⟩)
  · simp only [ht, decide_false, Bool.false_eq_true, if_false]
    refine de_bind skw_d fun o r ho => ?_
    cases ho with
    | some hk =>
      refine de_seq setDelimiter_de ?_
      rintro c' - r ⟨d, s', hd', rfl, hn, rfl⟩
      exact de_of (d_pure ⟨hd', [], by simp, fun l hl => h1 _ (.delimiter hk hd' hn hl)⟩)
    | none hk =>
      refine de_bind (R := fun o r => ∃ v, o = some v ∧ Stm c ((t, sp) :: tl) v r) ?_ ?_
      · refine d_tryP' ?_
        unfold topStatement
        refine d_bind stmt_call fun o r h => ?_
        refine d_tail (orExpected_db fun v hv => d_pure ?_)
        subst hv
        exact ⟨v, rfl, h⟩
      · rintro o r ⟨v, rfl, h3⟩
        refine de_of ((finishStatement_d hd).mono ?_)
        rintro x r' ⟨sp', l', rfl, ha, rfl⟩
        refine ⟨hd, l', rfl, fun l hl => h1 _ ?_⟩
        rcases ha with ⟨a1, a2, rfl⟩ | ⟨a1, d, dsp, a2, rfl⟩
        · exact .stmt h3 a1 a2 hl
        · exact .copy h3 a1 a2 hl

theorem statements_sound {acc : List SAst} {L : Log} {s : St} (hd : c.delim = .semiColon ∨ c.delim = .doubleDollar) (hs : SAt c L s ts) :
    match (Prog.loop statementsStep acc).run n s with
    | .ok l s' => Calm L s s' → ∃ l', l = acc ++ l' ∧ Scr c ts l' ∧ ∃ sp, [(.eof, sp)] <:+ ts
    | .err s' => ¬ Calm L s s'
    | _ => True := by
  show match runWith (runFn n) n (.loop statementsStep acc) s with
    | .ok l s' => Calm L s s' → ∃ l', l = acc ++ l' ∧ Scr c ts l' ∧ ∃ sp, [(.eof, sp)] <:+ ts
    | .err s' => ¬ Calm L s s'
    | _ => True
  unfold runWith
  suffices hg : ∀ k acc c ts s, (c.delim = .semiColon ∨ c.delim = .doubleDollar) → SAt c L s ts →
      match loopN (fun x s => runWith (runFn n) n (statementsStep x) s) k acc s with
      | .ok l s' => Calm L s s' → ∃ l', l = acc ++ l' ∧ Scr c ts l' ∧ ∃ sp, [(.eof, sp)] <:+ ts
      | .err s' => ¬ Calm L s s'
      | _ => True from hg n acc c ts s hd hs
  intro k
  induction k with
  | zero => intro acc c ts s _ _; trivial
  | succ k ih =>
    intro acc c ts s hd hs
    have g := statementsStep_de (n := n) (acc := acc) hd L s hs
    have p1 := run_good n (statementsStep acc) s hs.inv
    have e : runWith (runFn n) n (statementsStep acc) s = (statementsStep acc).run n s := rfl
    unfold loopN
    rw [e]
    cases h2 : (statementsStep acc).run n s with
    | ok st s1 =>
      rw [h2] at g p1
      cases st with
      | done b =>
        intro hi
        obtain ⟨c', r, k1, k0, sp, tl, rfl, rfl, k2⟩ := g hi
        have := sat_eof k1 rfl
        subst this
        exact ⟨[], by simp, k2 rfl, sp, k0⟩
      | cont y =>
        simp only
        have p2 := loopN_good (fun x s hs => runWith_good (runFn_good n) n (statementsStep x) s hs) k y s1 p1.1
        cases h3 : loopN (fun x s => runWith (runFn n) n (statementsStep x) s) k y s1 with
        | ok b s2 =>
          rw [h3] at p2
          intro hq
          obtain ⟨q1, q2⟩ := quiet_back p1.2 p2.2 hq
          obtain ⟨c', r, k1, k0, k2, l1, rfl, k3⟩ := g q1
          have g6 := ih (acc ++ l1) c' r s1 k2 k1
          rw [h3] at g6
          obtain ⟨l', rfl, k4, sp, k5⟩ := g6 q2
          exact ⟨l1 ++ l', by simp, k3 _ k4, sp, k5.trans k0⟩
        | err s2 =>
          rw [h3] at p2
          intro hq
          obtain ⟨q1, q2⟩ := quiet_back p1.2 p2.2 hq
          obtain ⟨c', r, k1, k0, k2, l1, rfl, k3⟩ := g q1
          have g6 := ih (acc ++ l1) c' r s1 k2 k1
          rw [h3] at g6
          exact g6 q2
        | panic m => trivial
        | oof => trivial
    | err s1 => rw [h2] at g; exact g
    | panic m => trivial
    | oof => trivial

end
end SqlParse
