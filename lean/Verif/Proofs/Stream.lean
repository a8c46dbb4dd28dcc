import Verif.Spec.Grammar
import Verif.Theorems.Written
import Verif.Proofs.Runs
import Verif.Proofs.Sim
/-!
Running programs on streams of tokens.  `P c p ts a ts'` says: from a parser state at which the tokens `ts` are still to
be read (the current one first), the program `p` succeeds with `a`, adds no issue, and leaves the tokens `ts'`.
-/
namespace SqlParse

/-- The arguments among the tokens have the numbers `k`, `k + 1`, ... -/
def Numbered (o : Opts) (args : Span → Bool) (num : Span → Nat) : Nat → List Tk → Prop
  | _, [] => True
  | k, p :: ts => if argTk o args p then num p.2 = k ∧ Numbered o args num (k + 1) ts else Numbered o args num k ts

theorem noArg_of {c : Env} {t : Token} (h : marker c.opts t = false) (sp : Span) : c.noArg (t, sp) := by
  simp [Env.noArg, argTk, h]

/-- The data after the token `p` is read from the lexer `lx`, if there is any. -/
def After (data : Data) (p : Tk) (lx lx1 : Lexer) : Prop :=
  match data.after p with
  | none => lx1 = lx
  | some (d, sp) => lx.readStdin = some (d, sp, lx1)

/-- After the token `p`, and its data, the lexer will read the tokens `ts`, the last of which is the end of the file. -/
inductive Feed (chk : Bool) (data : Data) : Tk → Lexer → List Tk → Prop where
  | eof {p : Tk} {lx lx1 lx' : Lexer} {sp : Span} (ha : After data p lx lx1) (h : lx1.nextToken chk = .ok .eof sp lx') :
      Feed chk data p lx [(.eof, sp)]
  | cons {p : Tk} {lx lx1 lx' : Lexer} {t : Token} {sp : Span} {ts : List Tk} (ha : After data p lx lx1) (ht : t ≠ .eof)
      (h : lx1.nextToken chk = .ok t sp lx') (hf : Feed chk data (t, sp) lx' ts) : Feed chk data p lx ((t, sp) :: ts)

/-- The tokens after the current one. -/
def Ahead (data : Data) (s : St) (ts : List Tk) : Prop :=
  match s.peeked with
  | none => if s.token = .eof then ts = [] else Feed s.checked data (s.token, s.span) s.lx ts
  | some p => s.token.isKw .LEFT = true ∧ ∃ tl, ts = p :: tl ∧ if p.1 = .eof then tl = [] else Feed s.checked data p s.lx tl

/-- The state `s` fits the environment `c`, has the issues `is`, and the tokens `ts` before it. -/
structure At0 (c : Env) (is : List Issue) (s : St) (ts : List Tk) : Prop where
  opts : s.opts = c.opts
  quiet : c.opts.warnUnquoted = false ∧ c.opts.warnCaps = false
  delim : s.delim = c.delim
  permit : s.permit = c.permit
  issues : s.issues = is
  cur : ∃ tl, ts = (s.token, s.span) :: tl ∧ Ahead c.data s tl

/-- ... and the argument markers are numbered as in the environment. -/
structure At (c : Env) (is : List Issue) (s : St) (ts : List Tk) : Prop extends At0 c is s ts where
  num : Numbered c.opts c.args c.num s.arg ts

/-- The program succeeds. -/
def Yields {α : Type} (p : Prog α) (s : St) (a : α) (s' : St) : Prop := ∃ n, p.run n s = .ok a s'

/-- On the tokens `ts` the program succeeds with `a`, adds no issue, leaves the tokens `ts'`. -/
def P (c : Env) {α : Type} (p : Prog α) (ts : List Tk) (a : α) (ts' : List Tk) : Prop :=
  ∀ is s, At c is s ts → ∃ s', Yields p s a s' ∧ At c is s' ts'

section yields
variable {α β σ : Type}

theorem run_mono {p : Prog α} {s s' : St} {a : α} {n n' : Nat} (h : p.run n s = .ok a s') (hn : n ≤ n') :
    p.run n' s = .ok a s' := by
  rcases run_le hn p s with h1 | h1
  · rw [h] at h1; cases h1
  · rw [← h1, h]

theorem Yields.ret (a : α) (s : St) : Yields (.ret a) s a s := ⟨0, by unfold Prog.run runWith; rfl⟩

theorem Yields.op {o : Op α} {s s' : St} {a : α} (h : o.run s = .ok a s') : Yields (.op o) s a s' :=
  ⟨0, by unfold Prog.run; rw [runWith_op]; exact h⟩

theorem Yields.bind {p : Prog α} {f : α → Prog β} {s s1 s2 : St} {a : α} {b : β} (h1 : Yields p s a s1)
    (h2 : Yields (f a) s1 b s2) : Yields (p >>= f) s b s2 := by
  obtain ⟨n1, h1⟩ := h1
  obtain ⟨n2, h2⟩ := h2
  refine ⟨max n1 n2, ?_⟩
  have e1 := run_mono h1 (Nat.le_max_left n1 n2)
  have e2 := run_mono h2 (Nat.le_max_right n1 n2)
  unfold Prog.run at *
  rw [runWith_bind e1, e2]

theorem Yields.tryP {p : Prog α} {s s1 : St} {a : α} (h : Yields p s a s1) : Yields (.tryP p) s (some a) s1 := by
  obtain ⟨n, h⟩ := h
  refine ⟨n, ?_⟩
  unfold Prog.run at *
  conv => lhs; unfold runWith
  rw [h]

theorem Yields.call {f : Fn α} {s s1 : St} {a : α} (h : Yields (body f) s a s1) : Yields (.call f) s a s1 := by
  obtain ⟨n, h⟩ := h
  refine ⟨n + 1, ?_⟩
  unfold Prog.run at *
  conv => lhs; unfold runWith
  unfold runFn
  exact h

theorem Yields.done {body : σ → Prog (Step σ β)} {x : σ} {s s1 : St} {b : β} (h : Yields (body x) s (.done b) s1) :
    Yields (.loop body x) s b s1 := by
  obtain ⟨n, h⟩ := h
  refine ⟨n + 1, ?_⟩
  have h := run_mono h (Nat.le_succ n)
  unfold Prog.run at *
  conv => lhs; unfold runWith
  unfold loopN
  rw [h]

theorem Yields.cont {body : σ → Prog (Step σ β)} {x y : σ} {s s1 s2 : St} {b : β} (h : Yields (body x) s (.cont y) s1)
    (hr : Yields (.loop body y) s1 b s2) : Yields (.loop body x) s b s2 := by
  obtain ⟨n1, h1⟩ := h
  obtain ⟨n2, h2⟩ := hr
  refine ⟨max n1 n2 + 1, ?_⟩
  have e1 := run_mono h1 (show n1 ≤ max n1 n2 + 1 by omega)
  unfold Prog.run at *
  unfold runWith at h2
  conv => lhs; unfold runWith
  unfold loopN
  rw [e1]
  simp only
  rcases loopN_le (fun x s => runWith_le (runFn_le (show n2 ≤ max n1 n2 + 1 by omega)) (show n2 ≤ max n1 n2 + 1 by omega) (body x) s)
    (show n2 ≤ max n1 n2 by omega) y s1 with h3 | h3
  · rw [h2] at h3; cases h3
  · rw [← h3, h2]

end yields

section rules
variable {α β σ : Type} {c : Env} {ts ts1 ts2 tl : List Tk} {t : Token} {sp : Span}

theorem P.ret (a : α) : P c (.ret a) ts a ts := fun _ s hs => ⟨s, .ret a s, hs⟩

theorem P.pure (a : α) : P c (pure a : Prog α) ts a ts := P.ret a

theorem P.bind {p : Prog α} {f : α → Prog β} {a : α} {b : β} (h1 : P c p ts a ts1) (h2 : P c (f a) ts1 b ts2) :
    P c (p >>= f) ts b ts2 := by
  intro is s hs
  obtain ⟨s1, g1, g2⟩ := h1 is s hs
  obtain ⟨s2, g3, g4⟩ := h2 is s1 g2
  exact ⟨s2, g1.bind g3, g4⟩

theorem P.tryP {p : Prog α} {a : α} (h : P c p ts a ts1) : P c (.tryP p) ts (some a) ts1 := by
  intro is s hs
  obtain ⟨s1, g1, g2⟩ := h is s hs
  exact ⟨s1, g1.tryP, g2⟩

theorem P.call {f : Fn α} {a : α} (h : P c (body f) ts a ts1) : P c (.call f) ts a ts1 := by
  intro is s hs
  obtain ⟨s1, g1, g2⟩ := h is s hs
  exact ⟨s1, g1.call, g2⟩

theorem P.done {body : σ → Prog (Step σ β)} {x : σ} {b : β} (h : P c (body x) ts (.done b) ts1) :
    P c (.loop body x) ts b ts1 := by
  intro is s hs
  obtain ⟨s1, g1, g2⟩ := h is s hs
  exact ⟨s1, g1.done, g2⟩

theorem P.cont {body : σ → Prog (Step σ β)} {x y : σ} {b : β} (h : P c (body x) ts (.cont y) ts1)
    (hr : P c (.loop body y) ts1 b ts2) : P c (.loop body x) ts b ts2 := by
  intro is s hs
  obtain ⟨s1, g1, g2⟩ := h is s hs
  obtain ⟨s2, g3, g4⟩ := hr is s1 g2
  exact ⟨s2, g1.cont g3, g4⟩

theorem P.cur : P c SqlParse.cur ((t, sp) :: tl) (t, sp) ((t, sp) :: tl) := by
  intro is s hs
  obtain ⟨tl', h1, -⟩ := hs.cur
  cases h1
  exact ⟨s, .op rfl, hs⟩

theorem P.curT : P c curT ((t, sp) :: tl) t ((t, sp) :: tl) := P.bind P.cur (P.ret _)
theorem P.curS : P c curS ((t, sp) :: tl) sp ((t, sp) :: tl) := P.bind P.cur (P.ret _)

theorem P.isPg : P c isPg ts (decide (c.opts.dialect = .postgreSQL)) ts := by
  intro is s hs
  exact ⟨s, Yields.bind (.op (show _ = Out.ok s.opts.dialect s from rfl)) (by rw [hs.opts]; exact .ret _ s), hs⟩
theorem P.isMaria : P c isMaria ts (decide (c.opts.dialect = .mariaDB)) ts := by
  intro is s hs
  exact ⟨s, Yields.bind (.op (show _ = Out.ok s.opts.dialect s from rfl)) (by rw [hs.opts]; exact .ret _ s), hs⟩
theorem P.isSqlite : P c isSqlite ts (decide (c.opts.dialect = .sqlite)) ts := by
  intro is s hs
  exact ⟨s, Yields.bind (.op (show _ = Out.ok s.opts.dialect s from rfl)) (by rw [hs.opts]; exact .ret _ s), hs⟩
theorem P.listHack : P c (.op .listHack) ts c.opts.listHack ts := by
  intro is s hs
  exact ⟨s, .op (by rw [← hs.opts]; rfl), hs⟩
theorem P.arguments : P c (.op .arguments) ts c.opts.arguments ts := by
  intro is s hs
  exact ⟨s, .op (by rw [← hs.opts]; rfl), hs⟩
theorem P.delim : P c (.op .delim) ts c.delim ts := by
  intro is s hs
  exact ⟨s, .op (by rw [← hs.delim]; rfl), hs⟩
theorem P.permit : P c (.op .permit) ts c.permit ts := by
  intro is s hs
  exact ⟨s, .op (by rw [← hs.permit]; rfl), hs⟩

theorem P.issueIf {f : WarnFlag} {l : Level} {v : List Char} {sp' : Span} : P c (issueIf f l v sp') ts () ts := by
  intro is s hs
  refine ⟨s, .op ?_, hs⟩
  have : s.opts.flag f = false := by
    rw [hs.opts]
    cases f
    · exact hs.quiet.1
    · exact hs.quiet.2
  simp [Op.run, this]

theorem isKw_ne_eof {k : Keyword} (h : t.isKw k = true) : t ≠ .eof := by rintro rfl; cases h

/-- There is no data after a keyword. -/
theorem after_kw {k : Keyword} (h : t.isKw k = true) (data : Data) (sp : Span) : data.after (t, sp) = none := by
  obtain ⟨v, rfl⟩ := isKw_iff h
  simp [Data.after]

/-- There is no data after an argument marker. -/
theorem after_marker {o : Opts} (h : marker o t = true) (data : Data) (sp : Span) : data.after (t, sp) = none := by
  unfold Data.after
  rw [if_neg]
  rintro (h1 | h1) <;> simp only at h1 <;> rw [h1] at h <;> simp [marker, Token.isKw] at h

/-- There is no data after a string. -/
theorem after_str {v : List Char} (h : t.strVal? = some v) (data : Data) (sp : Span) : data.after (t, sp) = none := by
  unfold Data.after
  rw [if_neg]
  rintro (h1 | h1) <;> simp only at h1 <;> rw [h1] at h <;> cases h

theorem after_of (data : Data) {sp : Span} (h : data sp = none) : data.after (t, sp) = none := by
  unfold Data.after
  split
  · exact h
  · rfl

theorem after_dlm (data : Data) {sp : Span} (ht : t = .semiColon ∨ t = .doubleDollar) : data.after (t, sp) = data sp := by
  unfold Data.after
  rw [if_pos ht]

/-- The stream moves on by one token. -/
theorem at_next {is : List Issue} {s : St} (ht : t ≠ .eof) (hd : c.data.after (t, sp) = none) (h : At0 c is s ((t, sp) :: tl))
    (hm : Numbered c.opts c.args c.num s.arg tl) :
    ∃ s', s.next = .ok () s' ∧ At c is s' tl := by
  obtain ⟨tl', h1, h2⟩ := h.cur
  injection h1 with h1 h3
  injection h1 with h4 h5
  subst h3
  unfold Ahead at h2
  unfold St.next
  cases hp : s.peeked with
  | none =>
    rw [hp] at h2
    simp only at h2
    rw [if_neg (by rw [← h4]; exact ht), ← h4, ← h5] at h2
    cases h2 with
    | eof ha h' =>
      rw [After, hd] at ha
      simp only at ha
      subst ha
      rw [h']
      exact ⟨_, rfl, ⟨h.opts, h.quiet, h.delim, h.permit, h.issues, _, rfl, by simp [Ahead]⟩, hm⟩
    | cons ha ht' h' hf =>
      rw [After, hd] at ha
      simp only at ha
      subst ha
      rw [h']
      exact ⟨_, rfl, ⟨h.opts, h.quiet, h.delim, h.permit, h.issues, _, rfl, by simp [Ahead, ht', hf]⟩, hm⟩
  | some p =>
    rw [hp] at h2
    obtain ⟨h6, tl2, rfl, h7⟩ := h2
    refine ⟨_, rfl, ⟨h.opts, h.quiet, h.delim, h.permit, h.issues, tl2, rfl, ?_⟩, hm⟩
    simp only [Ahead]
    exact h7

theorem P.nextA (ht : t ≠ .eof) (hm : c.noArg (t, sp)) (hd : c.data.after (t, sp) = none := by simp [Data.after]) :
    P c next ((t, sp) :: tl) () tl := by
  intro is s hs
  have hn := hs.num
  rw [Numbered, if_neg (by simp [Env.noArg] at hm; simp [hm])] at hn
  obtain ⟨s', h1, h2⟩ := at_next ht hd hs.toAt0 hn
  exact ⟨s', .op h1, h2⟩

theorem P.next (ht : t ≠ .eof) (hm : marker c.opts t = false) (hd : c.data.after (t, sp) = none := by simp [Data.after]) :
    P c next ((t, sp) :: tl) () tl := P.nextA ht (noArg_of hm sp) hd

theorem P.consumeA (ht : t ≠ .eof) (hm : c.noArg (t, sp)) (hd : c.data.after (t, sp) = none := by simp [Data.after]) :
    P c consume ((t, sp) :: tl) sp tl :=
  P.bind P.curS (P.bind (P.nextA ht hm hd) (P.ret _))

theorem P.consume (ht : t ≠ .eof) (hm : marker c.opts t = false) (hd : c.data.after (t, sp) = none := by simp [Data.after]) :
    P c consume ((t, sp) :: tl) sp tl :=
  P.bind P.curS (P.bind (P.next ht hm hd) (P.ret _))

theorem P.takeArg (ht : t ≠ .eof) (ha : argTk c.opts c.args (t, sp) = true) : P c (.op .takeArg) ((t, sp) :: tl) (c.num sp, sp) tl := by
  intro is s hs
  have hn := hs.num
  have hm : marker c.opts t = true := by simp [argTk] at ha; exact ha.1
  rw [Numbered, if_pos ha] at hn
  obtain ⟨tl', h1, h2⟩ := hs.cur
  injection h1 with h1 h3
  injection h1 with h4 h5
  have hs' : At0 c is { s with arg := s.arg + 1, argLog := s.argLog ++ [s.span] } ((t, sp) :: tl) :=
    ⟨hs.opts, hs.quiet, hs.delim, hs.permit, hs.issues, hs.cur⟩
  obtain ⟨s', g1, g2⟩ := at_next ht (after_marker hm c.data sp) hs' hn.2
  refine ⟨s', .op ?_, g2⟩
  show (match St.next { s with arg := s.arg + 1, argLog := s.argLog ++ [s.span] } with
    | .ok _ s' => Out.ok (s.arg, s.span) s' | .err s' => .err s' | .panic m => .panic m | .oof => .oof) = _
  rw [g1, hn.1, h5]

/-- Reading the data after the current token. -/
theorem P.stdin {d : List Char} {dsp : Span} (ht : t = .semiColon ∨ t = .doubleDollar) (hd : c.data sp = some (d, dsp)) :
    P c (.op .stdin) ((t, sp) :: tl) (d, dsp) tl := by
  intro is s hs
  have hn := hs.num
  rw [Numbered, if_neg (by rcases ht with rfl | rfl <;> simp [argTk, marker, Token.isKw])] at hn
  obtain ⟨tl', h1, h2⟩ := hs.cur
  injection h1 with h1 h3
  injection h1 with h4 h5
  subst h3
  unfold Ahead at h2
  have hda : c.data.after (s.token, s.span) = some (d, dsp) := by rw [← h4, ← h5, after_dlm _ ht, hd]
  cases hp : s.peeked with
  | some p =>
    rw [hp] at h2
    obtain ⟨h6, -⟩ := h2
    rw [← h4] at h6
    rcases ht with rfl | rfl <;> cases h6
  | none =>
    rw [hp] at h2
    simp only at h2
    rw [if_neg (by rw [← h4]; rcases ht with rfl | rfl <;> simp)] at h2
    have fin : ∀ {lx1 lx' : Lexer} {t' : Token} {sp' : Span} {tl' : List Tk}, s.lx.readStdin = some (d, dsp, lx1) →
        lx1.nextToken s.checked = .ok t' sp' lx' → tl = (t', sp') :: tl' →
        (if t' = .eof then tl' = [] else Feed s.checked c.data (t', sp') lx' tl') →
        ∃ s', Yields (.op .stdin) s (d, dsp) s' ∧ At c is s' tl := by
      intro lx1 lx' t' sp' tl' g1 g2 g3 g4
      subst g3
      refine ⟨{ s with token := t', span := sp', lx := lx', dataLog := s.dataLog ++ [(s.span, d, dsp)] }, .op ?_,
        ⟨⟨hs.opts, hs.quiet, hs.delim, hs.permit, hs.issues, tl', ?_, ?_⟩, ?_⟩⟩
      · simp [Op.run, g1, St.next, hp, g2]
      · rfl
      · simp only [Ahead, hp]
        exact g4
      · exact hn
    cases h2 with
    | eof ha h' =>
      rw [After, hda] at ha
      exact fin ha h' rfl (by simp)
    | cons ha ht' h' hf =>
      rw [After, hda] at ha
      exact fin ha h' rfl (by simp [ht', hf])

/-- Looking one token ahead after LEFT. -/
theorem P.leftParenAhead {x : Tk} (ht : t.isKw .LEFT = true) :
    P c (.op .leftParenAhead) ((t, sp) :: x :: tl) (decide (x.1 = .lParen)) ((t, sp) :: x :: tl) := by
  intro is s hs
  obtain ⟨tl', h1, h2⟩ := hs.cur
  injection h1 with h1 h3
  injection h1 with h4 h5
  subst h3
  have hk : s.token.isKw .LEFT = true := by rw [← h4]; exact ht
  have hne : s.token ≠ .eof := by
    intro he; rw [he] at hk; cases hk
  have hda := after_kw hk c.data s.span
  unfold Ahead at h2
  cases hp : s.peeked with
  | some p =>
    rw [hp] at h2
    obtain ⟨h6, tl2, h7, h8⟩ := h2
    injection h7 with h7 h9
    subst h7
    refine ⟨s, .op ?_, hs⟩
    simp [Op.run, hk, hp]
  | none =>
    rw [hp] at h2
    simp only at h2
    rw [if_neg hne] at h2
    cases h2 with
    | @eof _ lx lx1 lx' sp' ha h' =>
      rw [After, hda] at ha
      simp only at ha
      subst ha
      refine ⟨{ s with peeked := some (.eof, sp'), lx := lx' }, .op ?_, ⟨hs.opts, hs.quiet, hs.delim, hs.permit, hs.issues,
        [(.eof, sp')], by rw [← h4, ← h5], ?_⟩, hs.num⟩
      · simp [Op.run, hk, hp, h']
      · simp [Ahead, hk]
    | @cons _ lx lx1 lx' t' sp' tl3 ha ht' h' hf =>
      rw [After, hda] at ha
      simp only at ha
      subst ha
      refine ⟨{ s with peeked := some (t', sp'), lx := lx' }, .op ?_, ⟨hs.opts, hs.quiet, hs.delim, hs.permit, hs.issues,
        (t', sp') :: tl, by rw [← h4, ← h5], ?_⟩, hs.num⟩
      · simp [Op.run, hk, hp, h']
      · simp [Ahead, hk, ht', hf]

theorem P.leftParenAhead_no (ht : t.isKw .LEFT = false) :
    P c (.op .leftParenAhead) ((t, sp) :: tl) false ((t, sp) :: tl) := by
  intro is s hs
  obtain ⟨tl', h1, h2⟩ := hs.cur
  injection h1 with h1 h3
  injection h1 with h4 h5
  refine ⟨s, .op ?_, hs⟩
  simp [Op.run, ← h4, ht]

theorem P.capsWarn {v : List Char} {sp' : Span} : P c (capsWarn v sp') ts () ts := by
  unfold SqlParse.capsWarn Prog.when
  split
  · exact P.issueIf
  · exact P.ret _

/-- A keyword other than the list marker is no marker. -/
theorem marker_kw {k : Keyword} (h : t.isKw k = true) (hk : k ≠ .«_LIST_») : marker c.opts t = false := by
  obtain ⟨v, rfl⟩ := isKw_iff h
  simp [marker, Token.isKw, hk]

theorem P.ckw {k : Keyword} (h : t.isKw k = true) (hk : k ≠ .«_LIST_» := by decide) : P c (ckw k) ((t, sp) :: tl) sp tl := by
  have hm := marker_kw (c := c) h hk
  have he := isKw_ne_eof h
  obtain ⟨v, rfl⟩ := isKw_iff h
  refine P.bind P.cur ?_
  show P c (if k = k then _ else _) _ _ _
  rw [if_pos rfl]
  exact P.bind P.capsWarn (P.consume he hm (after_kw h _ _))

theorem P.skw {k : Keyword} (h : t.isKw k = true) (hk : k ≠ .«_LIST_» := by decide) : P c (skw k) ((t, sp) :: tl) (some sp) tl := by
  have hm := marker_kw (c := c) h hk
  have he := isKw_ne_eof h
  obtain ⟨v, rfl⟩ := isKw_iff h
  refine P.bind P.cur ?_
  show P c (if k = k then _ else _) _ _ _
  rw [if_pos rfl]
  exact P.bind P.capsWarn (P.bind (P.consume he hm (after_kw h _ _)) (P.ret _))

theorem P.skw_no {k : Keyword} (h : t.isKw k = false) : P c (SqlParse.skw k) ((t, sp) :: tl) none ((t, sp) :: tl) := by
  refine P.bind P.cur ?_
  cases t with
  | ident v k' =>
    show P c (if k' = k then _ else _) _ _ _
    rw [if_neg (by simpa [Token.isKw] using h)]
    exact P.ret _
  | _ => exact P.ret _

theorem P.ctk (ht : t ≠ .eof) (hm : marker c.opts t = false) (hd : c.data.after (t, sp) = none := by simp [Data.after]) :
    P c (ctk t) ((t, sp) :: tl) sp tl := by
  refine P.bind P.curT ?_
  rw [if_pos rfl]
  exact P.consume ht hm hd

theorem P.stk (ht : t ≠ .eof) (hm : marker c.opts t = false) (hd : c.data.after (t, sp) = none := by simp [Data.after]) :
    P c (stk t) ((t, sp) :: tl) (some sp) tl := by
  refine P.bind P.curT ?_
  rw [if_pos rfl]
  exact P.bind (P.consume ht hm hd) (P.ret _)

theorem P.stk_no {t' : Token} (h : t ≠ t') : P c (SqlParse.stk t') ((t, sp) :: tl) none ((t, sp) :: tl) := by
  refine P.bind P.curT ?_
  rw [if_neg h]
  exact P.ret _

theorem P.skips (ht : t ≠ .eof) (hm : marker c.opts t = false) (hd : c.data.after (t, sp) = none := by simp [Data.after]) :
    P c (skips t) ((t, sp) :: tl) true tl :=
  P.bind (P.stk ht hm hd) (P.ret _)

theorem P.skips_no {t' : Token} (h : t ≠ t') : P c (SqlParse.skips t') ((t, sp) :: tl) false ((t, sp) :: tl) :=
  P.bind (P.stk_no h) (P.ret _)

end rules
end SqlParse
