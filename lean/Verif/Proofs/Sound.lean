import Verif.Proofs.StreamRules
import Verif.Spec.GrammarScript
/-!
The converse direction of the grammar: `D n c p ts Q` says that when the program `p` is run (with fuel `n`) at a state
where the tokens `ts` are still to be read, and adds no issue, then it has succeeded, with a result `a` and remaining
tokens `r` such that `Q a r`.  (Nothing is said about panics and runs that do not finish.)
-/
namespace SqlParse

/-- The token is the last one that is looked at. -/
def Token.isLast (t : Token) : Bool := decide (t = .eof)

/-- What has been read as COPY data: the span of the token before it, the text, and the span of the text. -/
abbrev DLog := List (Span × List Char × Span)

/-- All the data that is read in a run, and the spans of all arguments. -/
structure Log where
  data : DLog
  args : List Span

/-- The lexer will read the tokens `ts` after the token `p`, and the data after them: up to the end of the file or a panic. -/
inductive SFeed (chk : Bool) (data : Data) : Tk → Lexer → List Tk → Prop where
  | last {p : Tk} {lx lx1 lx' : Lexer} {t : Token} {sp : Span} (ha : After data p lx lx1) (ht : t.isLast = true)
      (h : lx1.nextToken chk = .ok t sp lx') : SFeed chk data p lx [(t, sp)]
  | stop {p : Tk} {lx : Lexer} (h : ∀ lx1 t sp lx', After data p lx lx1 → lx1.nextToken chk = .ok t sp lx' → False) : SFeed chk data p lx []
  | cons {p : Tk} {lx lx1 lx' : Lexer} {t : Token} {sp : Span} {ts : List Tk} (ha : After data p lx lx1) (ht : t.isLast = false)
      (h : lx1.nextToken chk = .ok t sp lx') (hf : SFeed chk data (t, sp) lx' ts) : SFeed chk data p lx ((t, sp) :: ts)

/-- The tokens after the current one. -/
def SAhead (data : Data) (s : St) (ts : List Tk) : Prop :=
  match s.peeked with
  | none => if s.token.isLast then ts = [] else SFeed s.checked data (s.token, s.span) s.lx ts
  | some p => s.token.isKw .LEFT = true ∧ ∃ tl, ts = p :: tl ∧ if p.1.isLast then tl = [] else SFeed s.checked data p s.lx tl

/-- The state `s` fits the environment `c`, and has the tokens `ts` before it; `L` is all the data and the arguments that are read in the run. -/
structure SAt (c : Env) (L : Log) (s : St) (ts : List Tk) : Prop where
  opts : s.opts.noStyle = c.opts
  delim : s.delim = c.delim
  permit : s.permit = c.permit
  cur : ∃ tl, ts = (s.token, s.span) :: tl ∧ SAhead c.data s tl
  num : Numbered c.opts c.args c.num s.arg ts
  inv : BInv s
  data : c.data = fun sp => L.data.lookup sp
  args : c.args = fun sp => decide (sp ∈ L.args)
  log : (∀ x ∈ s.dataLog, x.1.start < s.span.start) ∧ ∀ x ∈ s.argLog, x.start < s.span.start

/-- No issue has been added, and the data and arguments read up to `s'` are the beginning of `L`. -/
def Calm (L : Log) (s s' : St) : Prop :=
  s'.issues = s.issues ∧ (∃ l, L.data = s'.dataLog ++ l ∧ ∀ x ∈ l, s'.span.start ≤ x.1.start) ∧
    ∃ l, L.args = s'.argLog ++ l ∧ ∀ x ∈ l, s'.span.start ≤ x.start

/-- See above. -/
def DOut {α : Type} (c : Env) (L : Log) (s : St) (ts : List Tk) (Q : α → List Tk → Prop) : Out α → Prop
  | .ok a s' => Calm L s s' → ∃ r, SAt c L s' r ∧ r <:+ ts ∧ Q a r
  | .err s' => ¬ Calm L s s'
  | _ => True

/-- See above. -/
def D (n : Nat) (c : Env) {α : Type} (p : Prog α) (ts : List Tk) (Q : α → List Tk → Prop) : Prop :=
  ∀ L s, SAt c L s ts → DOut c L s ts Q (p.run n s)

theorem quiet_back {L : Log} {s s1 s2 : St} (m1 : Mono s s1) (m2 : Mono s1 s2) (h : Calm L s s2) : Calm L s s1 ∧ Calm L s1 s2 := by
  obtain ⟨l1, h1, -⟩ := m1.issues
  obtain ⟨l2, h2, -⟩ := m2.issues
  obtain ⟨h3, h4⟩ := h
  rw [h2, h1] at h3
  simp at h3
  obtain ⟨rfl, rfl⟩ := h3
  simp at h1 h2
  refine ⟨⟨h1, ?_, ?_⟩, h2, h4⟩
  · obtain ⟨⟨l, k1, k2⟩, -⟩ := h4
    obtain ⟨l', k3, k4⟩ := m2.data
    refine ⟨l' ++ l, by rw [k1, k3]; simp, fun x hx => ?_⟩
    rcases List.mem_append.1 hx with hx | hx
    · exact k4 x hx
    · have := k2 x hx
      have := m2.start
      omega
  · obtain ⟨-, l, k1, k2⟩ := h4
    obtain ⟨l', k3, k4⟩ := m2.log
    refine ⟨l' ++ l, by rw [k1, k3]; simp, fun x hx => ?_⟩
    rcases List.mem_append.1 hx with hx | hx
    · exact k4 x hx
    · have := k2 x hx
      have := m2.start
      omega

theorem lookup_none_of {L : DLog} {sp : Span} (h : ∀ x ∈ L, x.1 ≠ sp) : L.lookup sp = none := by
  induction L with
  | nil => rfl
  | cons x L ih =>
    rw [List.lookup_cons]
    have : (sp == x.1) = false := by
      have := h x (by simp)
      simpa using fun e => this e.symm
    rw [this]
    exact ih fun y hy => h y (by simp [hy])

/-- A token that is not the last one is not empty. -/
theorem tok_pos {s : St} (h : BInv s) (ht : s.token ≠ .eof) : s.span.start < s.span.stop := by
  obtain ⟨a, w, b, g1, g2, g3, g4, g5, -⟩ := h.tok
  have : w ≠ [] := fun hw => ht (g5.2 hw)
  have := blen_pos_of_ne this
  omega

/-- Nothing is read after a token that is passed by. -/
theorem quiet_none {L : Log} {s s' : St} (hl : ∀ x ∈ s.dataLog, x.1.start < s.span.start) (hd : s'.dataLog = s.dataLog)
    (hs : s.span.start < s'.span.start) (hq : Calm L s s') : L.data.lookup s.span = none := by
  obtain ⟨-, ⟨l, e, h⟩, -⟩ := hq
  rw [e]
  refine lookup_none_of fun x hx => ?_
  rcases List.mem_append.1 hx with hx | hx
  · rw [hd] at hx
    have := hl x hx
    intro e; rw [e] at this; omega
  · have := h x hx
    intro e; rw [e] at this; omega

/-- What is read is in the log. -/
theorem quiet_some {L : Log} {s s' : St} {d : List Char} {sp : Span} (hl : ∀ x ∈ s.dataLog, x.1.start < s.span.start)
    (hd : s'.dataLog = s.dataLog ++ [(s.span, d, sp)]) (hq : Calm L s s') : L.data.lookup s.span = some (d, sp) := by
  obtain ⟨-, ⟨l, e, h⟩, -⟩ := hq
  rw [e, hd, List.append_assoc, List.lookup_append, lookup_none_of fun x hx => by have := hl x hx; intro e; rw [e] at this; omega]
  simp

/-- A token that is passed by is not an argument. -/
theorem quiet_noArg {L : Log} {s s' : St} (hl : ∀ x ∈ s.argLog, x.start < s.span.start) (hd : s'.argLog = s.argLog)
    (hs : s.span.start < s'.span.start) (hq : Calm L s s') : s.span ∉ L.args := by
  obtain ⟨-, -, l, e, h⟩ := hq
  rw [e]
  intro hx
  rcases List.mem_append.1 hx with hx | hx
  · rw [hd] at hx
    have := hl _ hx
    omega
  · have := h _ hx
    omega

/-- An argument is in the log. -/
theorem quiet_arg {L : Log} {s s' : St} (hd : s'.argLog = s.argLog ++ [s.span]) (hq : Calm L s s') : s.span ∈ L.args := by
  obtain ⟨-, -, l, e, -⟩ := hq
  rw [e, hd]
  simp

section rules
variable {α β σ : Type} {n : Nat} {c : Env} {ts r tl : List Tk} {t : Token} {sp : Span} {Q : β → List Tk → Prop} {R : α → List Tk → Prop}

theorem D.mono {p : Prog β} {Q' : β → List Tk → Prop} (h : D n c p ts Q') (hQ : ∀ a r, Q' a r → Q a r) : D n c p ts Q := by
  intro L s hs
  have := h L s hs
  cases h1 : p.run n s <;> rw [h1] at this
  · intro hi
    obtain ⟨r, g1, g2, g3⟩ := this hi
    exact ⟨r, g1, g2, hQ _ _ g3⟩
  · exact this
  all_goals trivial

theorem d_ret {a : β} (h : Q a ts) : D n c (.ret a) ts Q := by
  intro L s hs
  unfold Prog.run runWith
  exact fun _ => ⟨ts, hs, List.suffix_refl _, h⟩

theorem d_pure {a : β} (h : Q a ts) : D n c (pure a : Prog β) ts Q := d_ret h

theorem d_seq {p : Prog α} {f : α → Prog β} (h : D n c p ts (fun a r => D n c (f a) r Q)) : D n c (p >>= f) ts Q := by
  intro L s hs
  have h1 := h L s hs
  have g1 := run_good n p s hs.inv
  have e : (p >>= f).run n s = runWith (runFn n) n (.bind p f) s := rfl
  rw [e]
  unfold runWith
  have e' : runWith (runFn n) n p s = p.run n s := rfl
  rw [e']
  cases h2 : p.run n s with
  | ok a s1 =>
    rw [h2] at h1 g1
    simp only
    have e2 : runWith (runFn n) n (f a) s1 = (f a).run n s1 := rfl
    rw [e2]
    have g2 := run_good n (f a) s1 g1.1
    cases h3 : (f a).run n s1 with
    | ok b s2 =>
      rw [h3] at g2
      intro hq
      obtain ⟨q1, q2⟩ := quiet_back g1.2 g2.2 hq
      obtain ⟨r, g3, g4, g5⟩ := h1 q1
      have g6 := g5 L s1 g3
      rw [h3] at g6
      obtain ⟨r', k1, k2, k3⟩ := g6 q2
      exact ⟨r', k1, k2.trans g4, k3⟩
    | err s2 =>
      rw [h3] at g2
      intro hq
      obtain ⟨q1, q2⟩ := quiet_back g1.2 g2.2 hq
      obtain ⟨r, g3, g4, g5⟩ := h1 q1
      have g6 := g5 L s1 g3
      rw [h3] at g6
      exact g6 q2
    | panic m => trivial
    | oof => trivial
  | err s1 => rw [h2] at h1; exact h1
  | panic m => trivial
  | oof => trivial

/-- Sequencing with a specification of the first program. -/
theorem d_bind {p : Prog α} {f : α → Prog β} (h : D n c p ts R) (hf : ∀ a r, R a r → D n c (f a) r Q) : D n c (p >>= f) ts Q :=
  d_seq (h.mono hf)

theorem d_assoc {γ : Type} {p : Prog α} {f : α → Prog γ} {g : γ → Prog β} (h : D n c (p >>= fun x => f x >>= g) ts Q) :
    D n c ((p >>= f) >>= g) ts Q := by
  intro L s hs
  have := h L s hs
  have e : ((p >>= f) >>= g).run n s = (p >>= fun x => f x >>= g).run n s := by
    show runWith _ _ (.bind (.bind p f) g) s = runWith _ _ (.bind p fun x => .bind (f x) g) s
    simp only [runWith]
    cases runWith (runFn n) n p s <;> rfl
  rw [e]; exact this

/-- After an issue anything is right. -/
theorem d_err {m : Msg} {sp : Span} {fr} {f : Unit → Prog β} : D n c (err m sp fr >>= f) ts Q := by
  refine d_seq ?_
  intro L s hs
  show DOut c L s ts _ (s.issue .error m sp fr)
  unfold St.issue
  split
  · intro h
    exact absurd h.1 (by simp)
  · trivial

theorem d_warn {m : Msg} {sp : Span} {fr} {f : Unit → Prog β} : D n c (warn m sp fr >>= f) ts Q := by
  refine d_seq ?_
  intro L s hs
  show DOut c L s ts _ (s.issue .warning m sp fr)
  unfold St.issue
  split
  · intro h
    exact absurd h.1 (by simp)
  · trivial

/-- One issue at the end. -/
theorem d_err' {Q : Unit → List Tk → Prop} {m : Msg} {sp : Span} {fr} : D n c (err m sp fr) ts Q := by
  intro L s hs
  show DOut c L s ts _ (s.issue .error m sp fr)
  unfold St.issue
  split
  · intro h
    exact absurd h.1 (by simp)
  · trivial

theorem d_cur' {Q' : Token × Span → List Tk → Prop} (h : ∀ t sp tl, ts = (t, sp) :: tl → Q' (t, sp) ((t, sp) :: tl)) : D n c cur ts Q' := by
  intro L s hs
  obtain ⟨tl, h1, h2⟩ := hs.cur
  show DOut c L s ts _ (Out.ok (s.token, s.span) s)
  intro _
  refine ⟨ts, hs, List.suffix_refl _, ?_⟩
  have := h _ _ _ h1
  rw [← h1] at this
  exact this

theorem d_cur {f : Token × Span → Prog β} (h : ∀ t sp tl, ts = (t, sp) :: tl → D n c (f (t, sp)) ((t, sp) :: tl) Q) :
    D n c (cur >>= f) ts Q := d_seq (d_cur' h)

theorem d_curT {f : Token → Prog β} (h : ∀ t sp tl, ts = (t, sp) :: tl → D n c (f t) ((t, sp) :: tl) Q) :
    D n c (curT >>= f) ts Q := d_assoc (d_cur fun t sp tl he => d_seq (d_ret (h t sp tl he)))

theorem d_curS {f : Span → Prog β} (h : ∀ t sp tl, ts = (t, sp) :: tl → D n c (f sp) ((t, sp) :: tl) Q) :
    D n c (curS >>= f) ts Q := d_assoc (d_cur fun t sp tl he => d_seq (d_ret (h t sp tl he)))

theorem d_expectedError {m : Wanted} {f : Unit → Prog β} : D n c (expectedError m >>= f) ts Q :=
  d_assoc (d_curS fun _ _ _ _ => d_err)

theorem d_expectedFailure {m : Wanted} : D n c (expectedFailure m) ts Q := d_expectedError
theorem d_errHere {m : String} : D n c (errHere m) ts Q := d_curS fun _ _ _ _ => d_err
theorem d_expectedFailure_bind {m : Wanted} {f : α → Prog β} : D n c (expectedFailure m >>= f) ts Q :=
  d_seq d_expectedFailure
theorem d_errHere_bind {m : String} {f : α → Prog β} : D n c (errHere m >>= f) ts Q := d_seq d_errHere
theorem d_panic {m : String} : D n c (.panic m) ts Q := fun _ _ _ => trivial
theorem d_panic_bind {m : String} {f : α → Prog β} : D n c (.panic m >>= f) ts Q := fun _ _ _ => trivial

theorem d_op {α : Type} {o : Op α} {R : α → List Tk → Prop} {a : α} (h : ∀ L s, SAt c L s ts → o.run s = .ok a s) (hr : R a ts) : D n c (.op o) ts R := by
  intro L s hs
  show DOut c L s ts _ (o.run s)
  rw [h L s hs]
  exact fun _ => ⟨ts, hs, List.suffix_refl _, hr⟩

theorem d_dialect {f : Dialect → Prog β} (h : D n c (f c.opts.dialect) ts Q) : D n c (dialect >>= f) ts Q :=
  d_seq (d_op (fun _ s hs => by rw [← hs.opts]; rfl) h)
theorem d_isPg {f : Bool → Prog β} (h : D n c (f (decide (c.opts.dialect = .postgreSQL))) ts Q) : D n c (isPg >>= f) ts Q :=
  d_assoc (d_dialect (d_seq (d_ret h)))
theorem d_isMaria {f : Bool → Prog β} (h : D n c (f (decide (c.opts.dialect = .mariaDB))) ts Q) : D n c (isMaria >>= f) ts Q :=
  d_assoc (d_dialect (d_seq (d_ret h)))
theorem d_isSqlite {f : Bool → Prog β} (h : D n c (f (decide (c.opts.dialect = .sqlite))) ts Q) : D n c (isSqlite >>= f) ts Q :=
  d_assoc (d_dialect (d_seq (d_ret h)))
theorem d_listHack {f : Bool → Prog β} (h : D n c (f c.opts.listHack) ts Q) : D n c (Prog.op .listHack >>= f) ts Q :=
  d_seq (d_op (fun _ s hs => by rw [← hs.opts]; rfl) h)
theorem d_arguments {f : Arguments → Prog β} (h : D n c (f c.opts.arguments) ts Q) : D n c (Prog.op .arguments >>= f) ts Q :=
  d_seq (d_op (fun _ s hs => by rw [← hs.opts]; rfl) h)
theorem d_delim {f : Token → Prog β} (h : D n c (f c.delim) ts Q) : D n c (Prog.op .delim >>= f) ts Q :=
  d_seq (d_op (fun _ s hs => by rw [← hs.delim]; rfl) h)
theorem d_permit {f : Bool → Prog β} (h : D n c (f c.permit) ts Q) : D n c (Prog.op .permit >>= f) ts Q :=
  d_seq (d_op (fun _ s hs => by rw [← hs.permit]; rfl) h)

theorem d_issueIf' {Q : Unit → List Tk → Prop} {f : WarnFlag} {l : Level} {v : List Char} {sp' : Span} (h : Q () ts) :
    D n c (issueIf f l v sp') ts Q := by
  intro L s hs
  show DOut c L s ts _ (if s.opts.flag f then s.issue l (f.msg v) sp' [] else .ok () s)
  split
  · unfold St.issue
    split
    · intro h
      exact absurd h.1 (by simp)
    · trivial
  · exact fun _ => ⟨ts, hs, List.suffix_refl _, h⟩

theorem d_issueIf {f : WarnFlag} {l : Level} {v : List Char} {sp' : Span} {g : Unit → Prog β} (h : D n c (g ()) ts Q) :
    D n c (issueIf f l v sp' >>= g) ts Q := d_seq (d_issueIf' h)

theorem d_capsWarn {v : List Char} {sp' : Span} {g : Unit → Prog β} (h : D n c (g ()) ts Q) :
    D n c (capsWarn v sp' >>= g) ts Q := by
  refine d_seq ?_
  unfold capsWarn Prog.when
  split
  · exact d_issueIf' h
  · exact d_ret h

/-- `if b { report an error }` -/
theorem d_whenErr {b : Bool} {m : Msg} {sp' : Span} {fr} {g : Unit → Prog β} (h : b = false → D n c (g ()) ts Q) :
    D n c (Prog.when b (err m sp' fr) >>= g) ts Q := by
  cases b with
  | true => exact d_err
  | false => exact d_seq (d_ret (h rfl))

/-- The stream moves on by one token. -/
theorem sat_next {s s' : St} (hl : s.token.isLast = false) (hc : ∃ tl', (t, sp) :: tl = (s.token, s.span) :: tl' ∧ SAhead c.data s tl')
    (hd : c.data.after (s.token, s.span) = none) (h : s.next = .ok () s') : ∃ tl', tl = (s'.token, s'.span) :: tl' ∧ SAhead c.data s' tl' := by
  obtain ⟨tl', h1, h2⟩ := hc
  injection h1 with h1 h3
  subst h3
  unfold SAhead at h2
  unfold St.next at h
  cases hp : s.peeked with
  | none =>
    rw [hp] at h2 h
    simp only at h2 h
    rw [if_neg (by simp [hl])] at h2
    cases h2 with
    | last ha ht h' =>
      rw [After, hd] at ha
      simp only at ha
      subst ha
      rw [h'] at h
      cases h
      exact ⟨_, rfl, by simp [SAhead, ht]⟩
    | stop h' =>
      cases hn : s.lx.nextToken s.checked with
      | ok t sp lx => exact (h' s.lx t sp lx (by simp [After, hd]) hn).elim
      | panic m => rw [hn] at h; cases h
    | cons ha ht' h' hf =>
      rw [After, hd] at ha
      simp only at ha
      subst ha
      rw [h'] at h
      cases h
      exact ⟨_, rfl, by simp [SAhead, ht', hf]⟩
  | some p =>
    rw [hp] at h2 h
    obtain ⟨h6, tl2, rfl, h7⟩ := h2
    cases h
    exact ⟨tl2, rfl, by simp only [SAhead]; exact h7⟩

theorem next_only {s : St} : (∃ s', s.next = .ok () s' ∧ s'.opts = s.opts ∧ s'.dataLog = s.dataLog ∧ s'.argLog = s.argLog) ∨ ∃ m, s.next = .panic m := by
  unfold St.next
  split
  · exact .inl ⟨_, rfl, rfl, rfl, rfl⟩
  · split
    · exact .inl ⟨_, rfl, rfl, rfl, rfl⟩
    · exact .inr ⟨_, rfl⟩

/-- What is known after `next`; before it, the argument may have been counted. -/
theorem sat_move {L : Log} {s s' : St} {k : Nat} (ht : t.isLast = false) (ho : s.opts.noStyle = c.opts) (hdl : s.delim = c.delim)
    (hp : s.permit = c.permit) (hc : ∃ tl', (t, sp) :: tl = (s.token, s.span) :: tl' ∧ SAhead c.data s tl') (hk : s.arg = k)
    (hn : Numbered c.opts c.args c.num k tl) (hb : BInv s)
    (hda : c.data = fun sp => L.data.lookup sp) (har : c.args = fun sp => decide (sp ∈ L.args))
    (hlg : ∀ x ∈ s.dataLog, x.1.start < s.span.start) (hla : ∀ x ∈ s.argLog, x.start ≤ s.span.start)
    (h : s.next = .ok () s') (hq : Calm L s s') : SAt c L s' tl ∧ c.data sp = none := by
  obtain ⟨tl', h1, -⟩ := id hc
  injection h1 with h1 h3
  injection h1 with h4 h5
  have hl : s.token.isLast = false := by rw [← h4]; exact ht
  have he : s.token ≠ .eof := by intro h; rw [h] at hl; cases hl
  obtain ⟨g1, g2, g3, g4, g5, g6, g7, g8⟩ := next_ok hb h
  have hpos := tok_pos hb he
  rcases next_only (s := s) with ⟨s2, k1, k2, k3, k4⟩ | ⟨m, k1⟩
  · rw [h] at k1
    cases k1
    have hnone : c.data s.span = none := by rw [hda]; exact quiet_none hlg k3 (by omega) hq
    have hg := next_good hb
    rw [h] at hg
    refine ⟨⟨by rw [k2]; exact ho, g3.trans hdl, g4.trans hp, sat_next hl hc (after_of _ hnone) h, by rw [g7, hk]; exact hn,
      hg.1, hda, har, fun x hx => ?_, fun x hx => ?_⟩, by rw [h5]; exact hnone⟩
    · rw [k3] at hx
      have := hlg x hx
      omega
    · rw [k4] at hx
      have := hla x hx
      omega
  · rw [h] at k1; cases k1

theorem d_nextA' {Q : Unit → List Tk → Prop} (ht : t.isLast = false) (h : c.noArg (t, sp) → c.data sp = none → Q () tl) :
    D n c next ((t, sp) :: tl) Q := by
  intro L s hs
  show DOut c L s _ _ s.next
  obtain ⟨tl', e1, -⟩ := hs.cur
  injection e1 with e1 _
  injection e1 with e2 e3
  rcases next_only (s := s) with ⟨s', h1, -, -, k4⟩ | ⟨m, h1⟩
  · rw [h1]
    intro hq
    have he : s.token ≠ .eof := by intro h; rw [e2, h] at ht; cases ht
    have hpos := tok_pos hs.inv he
    obtain ⟨g1, g2, -, -, g5, g6, -⟩ := next_ok hs.inv h1
    have ha : c.noArg (t, sp) := by
      have : sp ∉ L.args := by rw [e3]; exact quiet_noArg hs.log.2 k4 (by omega) hq
      simp [Env.noArg, argTk, hs.args, this]
    have hn := hs.num
    rw [Numbered, if_neg (by simp [Env.noArg] at ha; simp [ha])] at hn
    obtain ⟨k1, k2⟩ := sat_move ht hs.opts hs.delim hs.permit hs.cur rfl hn hs.inv hs.data hs.args hs.log.1
      (fun x hx => Nat.le_of_lt (hs.log.2 x hx)) h1 hq
    exact ⟨tl, k1, List.suffix_cons .., h ha k2⟩
  · rw [h1]; trivial

theorem d_nextA {f : Unit → Prog β} (ht : t.isLast = false) (h : c.noArg (t, sp) → c.data sp = none → D n c (f ()) tl Q) :
    D n c (next >>= f) ((t, sp) :: tl) Q := d_seq (d_nextA' ht h)

theorem d_next {f : Unit → Prog β} (ht : t.isLast = false) (h : D n c (f ()) tl Q) :
    D n c (next >>= f) ((t, sp) :: tl) Q := d_nextA ht fun _ _ => h

theorem d_consumeA' {Q : Span → List Tk → Prop} (ht : t.isLast = false) (h : c.noArg (t, sp) → c.data sp = none → Q sp tl) :
    D n c consume ((t, sp) :: tl) Q :=
  d_curS fun _ _ _ he => by cases he; exact d_nextA ht fun ha hd => d_pure (h ha hd)

theorem d_consumeA {f : Span → Prog β} (ht : t.isLast = false) (h : c.noArg (t, sp) → c.data sp = none → D n c (f sp) tl Q) :
    D n c (consume >>= f) ((t, sp) :: tl) Q := d_seq (d_consumeA' ht h)

theorem d_takeArg {f : Nat × Span → Prog β} (ht : t.isLast = false) (hm : marker c.opts t = true)
    (h : argTk c.opts c.args (t, sp) = true → D n c (f (c.num sp, sp)) tl Q) :
    D n c (Prog.op .takeArg >>= f) ((t, sp) :: tl) Q := by
  refine d_seq ?_
  intro L s hs
  show DOut c L s _ _ (match St.next { s with arg := s.arg + 1, argLog := s.argLog ++ [s.span] } with
    | .ok _ s' => Out.ok (s.arg, s.span) s' | .err s' => .err s' | .panic m => .panic m | .oof => .oof)
  obtain ⟨tl', h1, h2⟩ := hs.cur
  injection h1 with h1 h3
  injection h1 with h4 h5
  have h0 : BInv { s with arg := s.arg + 1, argLog := s.argLog ++ [s.span] } := ⟨hs.inv.lex, hs.inv.tok, hs.inv.pos, hs.inv.peek⟩
  rcases next_only (s := { s with arg := s.arg + 1, argLog := s.argLog ++ [s.span] }) with ⟨s', g1, -, -, g4⟩ | ⟨m, g1⟩
  · rw [g1]
    intro hq
    have ha : argTk c.opts c.args (t, sp) = true := by
      have : sp ∈ L.args := by rw [h5]; exact quiet_arg g4 hq
      simp [argTk, hs.args, this, hm]
    have hn := hs.num
    rw [Numbered, if_pos ha] at hn
    obtain ⟨k1, k2⟩ := sat_move (s := { s with arg := s.arg + 1, argLog := s.argLog ++ [s.span] }) ht hs.opts hs.delim hs.permit hs.cur rfl
      hn.2 h0 hs.data hs.args hs.log.1 (fun x hx => by
        rcases List.mem_append.1 hx with hx | hx
        · exact Nat.le_of_lt (hs.log.2 x hx)
        · simp at hx; subst hx; exact Nat.le_refl _) g1 hq
    refine ⟨tl, k1, List.suffix_cons .., ?_⟩
    rw [← hn.1, ← h5]; exact h ha
  · rw [g1]; trivial

/-- Reading the data after the current token. -/
theorem d_stdin {f : List Char × Span → Prog β} (ht : t = .semiColon ∨ t = .doubleDollar)
    (h : ∀ d dsp, c.data sp = some (d, dsp) → D n c (f (d, dsp)) tl Q) : D n c (Prog.op .stdin >>= f) ((t, sp) :: tl) Q := by
  refine d_seq ?_
  intro L s hs
  show DOut c L s _ _ (Op.run .stdin s)
  have hgood := op_good .stdin hs.inv
  have hn := hs.num
  rw [Numbered, if_neg (by rcases ht with rfl | rfl <;> simp [argTk, marker, Token.isKw])] at hn
  obtain ⟨tl', h1, h2⟩ := hs.cur
  injection h1 with h1 h3
  injection h1 with h4 h5
  subst h3
  have hp : s.peeked = none := by
    cases hp : s.peeked with
    | none => rfl
    | some p =>
      unfold SAhead at h2
      rw [hp] at h2
      obtain ⟨h6, -⟩ := h2
      rw [← h4] at h6
      rcases ht with rfl | rfl <;> cases h6
  have hne : s.token ≠ .eof := by rw [← h4]; rcases ht with rfl | rfl <;> simp
  have hpos := tok_pos hs.inv hne
  have hst := hs.inv.pos
  obtain ⟨d, dsp, lx1, r1, r2, r3, r4, r5, r6, -⟩ := readStdin_spec hs.inv.lex
  unfold Op.run at hgood ⊢
  simp only [r1, St.next, hp] at hgood ⊢
  cases hx : lx1.nextToken s.checked with
  | panic m => trivial
  | ok t' sp' lx' =>
    rw [hx] at hgood
    simp only at hgood ⊢
    intro hq
    have hsome : c.data s.span = some (d, dsp) := by rw [hs.data]; exact quiet_some hs.log.1 rfl hq
    have hda : c.data.after (s.token, s.span) = some (d, dsp) := by rw [after_dlm _ (by rw [← h4]; exact ht), hsome]
    have hlt : s.span.start < sp'.start := by
      obtain ⟨g1, g2, g3, -⟩ := nextToken_inv r2 hx
      omega
    refine ⟨tl, ⟨hs.opts, hs.delim, hs.permit, ?_, hn, hgood.1, hs.data, hs.args, ?_, ?_⟩,
      List.suffix_cons .., h d dsp (by rw [h5]; exact hsome)⟩
    · unfold SAhead at h2
      rw [hp] at h2
      simp only at h2
      rw [if_neg (by rw [← h4]; rcases ht with rfl | rfl <;> simp [Token.isLast])] at h2
      cases h2 with
      | last ha ht h' =>
        rw [After, hda] at ha
        simp only [r1, Option.some.injEq, Prod.mk.injEq, true_and] at ha
        subst ha
        rw [h'] at hx
        cases hx
        exact ⟨_, rfl, by simp [SAhead, ht]⟩
      | stop h' => exact (h' lx1 t' sp' lx' (by simp [After, hda, r1]) hx).elim
      | cons ha ht' h' hf =>
        rw [After, hda] at ha
        simp only [r1, Option.some.injEq, Prod.mk.injEq, true_and] at ha
        subst ha
        rw [h'] at hx
        cases hx
        exact ⟨_, rfl, by simp [SAhead, ht', hf]⟩
    · intro x hx
      rcases List.mem_append.1 hx with hx | hx
      · have := hs.log.1 x hx
        simp only; omega
      · simp at hx
        subst hx
        exact hlt
    · intro x hx
      have := hs.log.2 x hx
      simp only; omega

/-- Looking one token ahead after LEFT. -/
theorem d_leftParenAhead {f : Bool → Prog β}
    (h1 : ∀ x tl', tl = x :: tl' → t.isKw .LEFT = true → D n c (f (decide (x.1 = .lParen))) ((t, sp) :: tl) Q)
    (h2 : t.isKw .LEFT = false → D n c (f false) ((t, sp) :: tl) Q) : D n c (Prog.op .leftParenAhead >>= f) ((t, sp) :: tl) Q := by
  refine d_seq ?_
  intro L s hs
  show DOut c L s _ _ (Op.run .leftParenAhead s)
  have hgood := op_good .leftParenAhead hs.inv
  obtain ⟨tl', g1, g2⟩ := hs.cur
  injection g1 with g1 g3
  injection g1 with g4 g5
  subst g3
  subst g4
  subst g5
  cases hk : s.token.isKw .LEFT with
  | false =>
    simp only [Op.run, hk, Bool.false_eq_true, if_false]
    exact fun _ => ⟨_, hs, List.suffix_refl _, h2 hk⟩
  | true =>
    have hne : s.token.isLast = false := by
      obtain ⟨v, hv⟩ := isKw_iff hk
      rw [hv]; rfl
    simp only [Op.run, hk, if_true] at hgood ⊢
    have hda := after_kw hk c.data s.span
    unfold SAhead at g2
    cases hp : s.peeked with
    | some p =>
      rw [hp] at g2
      obtain ⟨k1, tl2, k2, k3⟩ := g2
      exact fun _ => ⟨_, hs, List.suffix_refl _, h1 p tl2 k2 hk⟩
    | none =>
      rw [hp] at g2 hgood
      simp only at g2 hgood
      rw [if_neg (by simp [hne])] at g2
      cases g2 with
      | @last _ lx lx1 lx' t' sp' ha ht h' =>
        rw [After, hda] at ha
        simp only at ha
        subst ha
        rw [h'] at hgood ⊢
        intro _
        refine ⟨_, ⟨hs.opts, hs.delim, hs.permit, ⟨_, rfl, ?_⟩, hs.num, hgood.1, hs.data, hs.args, hs.log⟩, List.suffix_refl _, h1 _ _ rfl hk⟩
        simp [SAhead, hk, ht]
      | stop h' =>
        cases hn : s.lx.nextToken s.checked with
        | ok t sp lx => exact (h' s.lx t sp lx (by simp [After, hda]) hn).elim
        | panic m => trivial
      | @cons _ lx lx1 lx' t' sp' tl3 ha ht' h' hf =>
        rw [After, hda] at ha
        simp only at ha
        subst ha
        rw [h'] at hgood ⊢
        intro _
        refine ⟨_, ⟨hs.opts, hs.delim, hs.permit, ⟨_, rfl, ?_⟩, hs.num, hgood.1, hs.data, hs.args, hs.log⟩, List.suffix_refl _, h1 _ _ rfl hk⟩
        simp [SAhead, hk, ht', hf]

theorem d_tryP' {p : Prog α} {Q : Option α → List Tk → Prop} (h : D n c p ts fun a r => Q (some a) r) : D n c (.tryP p) ts Q := by
  intro L s hs
  have h1 := h L s hs
  show DOut c L s ts _ (runWith (runFn n) n (.tryP p) s)
  unfold runWith
  have e' : runWith (runFn n) n p s = p.run n s := rfl
  rw [e']
  cases h2 : p.run n s <;> rw [h2] at h1
  · exact h1
  · exact fun h => absurd h h1
  all_goals trivial

theorem d_tryP {p : Prog α} {f : Option α → Prog β} (h : D n c p ts fun a r => D n c (f (some a)) r Q) : D n c (.tryP p >>= f) ts Q :=
  d_seq (d_tryP' h)

/-- Loops: an invariant. -/
theorem d_loop {body : σ → Prog (Step σ β)} {I : σ → List Tk → Prop} {x : σ} (h0 : I x ts)
    (h : ∀ x ts, I x ts → D n c (body x) ts fun st r => match st with | .cont y => I y r | .done b => Q b r) :
    D n c (.loop body x) ts Q := by
  intro L s hs
  show DOut c L s ts _ (runWith (runFn n) n (.loop body x) s)
  unfold runWith
  suffices hg : ∀ j x ts s, I x ts → SAt c L s ts → DOut c L s ts Q (loopN (fun x s => runWith (runFn n) n (body x) s) j x s) from
    hg n x ts s h0 hs
  intro j
  induction j with
  | zero => intro x ts s _ _; trivial
  | succ j ih =>
    intro x ts s hI hs
    have g := h x ts hI L s hs
    have p1 := run_good n (body x) s hs.inv
    have e : runWith (runFn n) n (body x) s = (body x).run n s := rfl
    unfold loopN
    rw [e]
    cases h2 : (body x).run n s with
    | ok st s1 =>
      rw [h2] at g p1
      cases st with
      | done b => exact g
      | cont y =>
        simp only
        have p2 := loopN_good (fun x s hs => runWith_good (runFn_good n) n (body x) s hs) j y s1 p1.1
        cases h3 : loopN (fun x s => runWith (runFn n) n (body x) s) j y s1 with
        | ok b s2 =>
          rw [h3] at p2
          intro hq
          obtain ⟨q1, q2⟩ := quiet_back p1.2 p2.2 hq
          obtain ⟨r, g3, g4, g5⟩ := g q1
          have g6 := ih y r s1 g5 g3
          rw [h3] at g6
          obtain ⟨r', k1, k2, k3⟩ := g6 q2
          exact ⟨r', k1, k2.trans g4, k3⟩
        | err s2 =>
          rw [h3] at p2
          intro hq
          obtain ⟨q1, q2⟩ := quiet_back p1.2 p2.2 hq
          obtain ⟨r, g3, g4, g5⟩ := g q1
          have g6 := ih y r s1 g5 g3
          rw [h3] at g6
          exact g6 q2
        | panic m => trivial
        | oof => trivial
    | err s1 => rw [h2] at g; exact g
    | panic m => trivial
    | oof => trivial

/-- A program in another environment. -/
theorem d_switch {p : Prog α} {f : α → Prog β} {c' : Env} {o o' : Op Unit} {g g' : St → St}
    (ho : ∀ s, o.run s = .ok () (g s)) (ho' : ∀ s, o'.run s = .ok () (g' s))
    (hi : ∀ s, (g s).issues = s.issues) (hi' : ∀ s, (g' s).issues = s.issues) (hl : ∀ s, (g' s).dataLog = s.dataLog)
    (hla : ∀ s, (g' s).argLog = s.argLog) (hp : ∀ s, (g' s).span = s.span)
    (hg : ∀ L s ts, SAt c L s ts → SAt c' L (g s) ts) (hg' : ∀ L s ts, SAt c' L s ts → SAt c L (g' s) ts)
    (h : D n c' p ts R) (hf : ∀ a r, R a r → D n c (f a) r Q) :
    D n c (Prog.op o >>= fun _ => p >>= fun a => Prog.op o' >>= fun _ => f a) ts Q := by
  suffices hs : D n c (Prog.op o >>= fun _ => p >>= fun a => Prog.op o' >>= fun _ => .ret a) ts R by
    have := d_bind hs hf
    intro L s hs
    have := this L s hs
    have e : ((Prog.op o >>= fun _ => p >>= fun a => Prog.op o' >>= fun _ => .ret a) >>= f).run n s =
        (Prog.op o >>= fun _ => p >>= fun a => Prog.op o' >>= fun _ => f a).run n s := by
      show runWith _ _ (.bind (.bind (.op o) fun _ => .bind p fun a => .bind (.op o') fun _ => .ret a) f) s =
        runWith _ _ (.bind (.op o) fun _ => .bind p fun a => .bind (.op o') fun _ => f a) s
      simp only [runWith, ho, ho']
      cases runWith (runFn n) n p (g s) <;> rfl
    rw [← e]
    exact this
  intro L s hs
  have h1 := h L (g s) (hg L s ts hs)
  have e : (Prog.op o >>= fun _ => p >>= fun a => Prog.op o' >>= fun _ => .ret a).run n s =
      match p.run n (g s) with | .ok a s' => .ok a (g' s') | .err s' => .err s' | .panic m => .panic m | .oof => .oof := by
    show runWith _ _ (.bind (.op o) fun _ => .bind p fun a => .bind (.op o') fun _ => .ret a) s = _
    simp only [runWith, ho, ho', Prog.run]
    cases runWith (runFn n) n p (g s) <;> rfl
  rw [e]
  cases h2 : p.run n (g s) with
  | ok a s' =>
    rw [h2] at h1
    intro h3
    obtain ⟨r, k1, k2, k3⟩ := h1 ⟨by rw [hi, ← h3.1, hi'], by rw [← hl, ← hla, ← hp]; exact h3.2⟩
    exact ⟨r, hg' _ _ _ k1, k2, k3⟩
  | err s' =>
    rw [h2] at h1
    intro hq
    exact h1 ⟨by rw [hi]; exact hq.1, hq.2⟩
  | panic m => trivial
  | oof => trivial

theorem d_withPermit {p : Prog α} {f : α → Prog β} {b : Bool} (h : D n { c with permit := b } p ts R) (hf : ∀ a r, R a r → D n c (f a) r Q) :
    D n c (Prog.op (.setPermit b) >>= fun _ => p >>= fun a => Prog.op (.setPermit c.permit) >>= fun _ => f a) ts Q :=
  d_switch (c' := { c with permit := b }) (g := fun s => { s with permit := b }) (g' := fun s => { s with permit := c.permit }) (fun _ => rfl) (fun _ => rfl) (fun _ => rfl) (fun _ => rfl) (fun _ => rfl) (fun _ => rfl) (fun _ => rfl)
    (fun _ _ _ h => ⟨h.opts, h.delim, rfl, h.cur, h.num, ⟨h.inv.lex, h.inv.tok, h.inv.pos, h.inv.peek⟩, h.data, h.args, h.log⟩) (fun _ _ _ h => ⟨h.opts, h.delim, rfl, h.cur, h.num, ⟨h.inv.lex, h.inv.tok, h.inv.pos, h.inv.peek⟩, h.data, h.args, h.log⟩) h hf

theorem d_withDelim {p : Prog α} {f : α → Prog β} {t : Token} (h : D n { c with delim := t } p ts R) (hf : ∀ a r, R a r → D n c (f a) r Q) :
    D n c (Prog.op (.setDelim t) >>= fun _ => p >>= fun a => Prog.op (.setDelim c.delim) >>= fun _ => f a) ts Q :=
  d_switch (c' := { c with delim := t }) (g := fun s => { s with delim := t }) (g' := fun s => { s with delim := c.delim }) (fun _ => rfl) (fun _ => rfl) (fun _ => rfl) (fun _ => rfl) (fun _ => rfl) (fun _ => rfl) (fun _ => rfl)
    (fun _ _ _ h => ⟨h.opts, rfl, h.permit, h.cur, h.num, ⟨h.inv.lex, h.inv.tok, h.inv.pos, h.inv.peek⟩, h.data, h.args, h.log⟩) (fun _ _ _ h => ⟨h.opts, rfl, h.permit, h.cur, h.num, ⟨h.inv.lex, h.inv.tok, h.inv.pos, h.inv.peek⟩, h.data, h.args, h.log⟩) h hf

end rules
end SqlParse
