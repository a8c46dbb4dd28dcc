import Verif.Proofs.HereAll
import Verif.Proofs.Meta
import Verif.Proofs.Cut
import Verif.Spec.Prefix
/-! Runs on two sources that begin with the same tokens: as long as the runs read only these tokens they do the same; after
that they say that something was expected only where the last of these tokens starts, or later. -/
namespace SqlParse

/-- Level, message and span of an issue. -/
def Issue.key (i : Issue) : Level × Msg × Span := (i.level, i.message, i.span)

/-- The issues about something expected that start before `P`. -/
def early (P : Nat) (l : List Issue) : List (Level × Msg × Span) :=
  (l.map Issue.key).filter fun k => k.2.1.isSyntax && decide (k.2.2.start < P)

theorem early_append (P : Nat) (l m : List Issue) : early P (l ++ m) = early P l ++ early P m := by simp [early]

/-- Both lexers give the tokens `toks`. -/
inductive Common (chk : Bool) : Lexer → Lexer → List (Token × Span) → Prop where
  | nil (l l' : Lexer) : Common chk l l' []
  | cons {l l' m m' : Lexer} {t : Token} {sp : Span} {r : List (Token × Span)} (h : l.nextToken chk = .ok t sp m)
      (h' : l'.nextToken chk = .ok t sp m') (hr : Common chk m m' r) : Common chk l l' ((t, sp) :: r)

/-- The last token starts at `P`. -/
def LastAt (P : Nat) (l : List (Token × Span)) : Prop := l.getLast?.map (·.2.start) = some P

theorem LastAt.tail {P : Nat} {a b : Token × Span} {l : List (Token × Span)} (h : LastAt P (a :: b :: l)) : LastAt P (b :: l) := by
  simpa [LastAt] using h

theorem common_of_scan {chk : Bool} : ∀ (toks : List (Token × Span)) {l l' : Lexer} {r r' : List (Token × Span)},
    Scan chk l (toks ++ r) → Scan chk l' (toks ++ r') → Common chk l l' toks
  | [], l, l', _, _, _, _ => .nil l l'
  | (t, sp) :: toks, l, l', r, r', h, h' => by
    rw [List.cons_append] at h h'
    generalize e : toks ++ r = L at h
    generalize e' : toks ++ r' = L' at h'
    cases h with
    | last h =>
      cases toks with
      | cons _ _ => cases e
      | nil =>
        cases h' with
        | last h' => exact .cons h h' (.nil _ _)
        | cons h' ht hs => exact absurd rfl ht
    | cons h ht hs =>
      cases h' with
      | last h' => exact absurd rfl ht
      | cons h' ht' hs' =>
        subst e e'
        exact .cons h h' (common_of_scan toks hs hs')

section
variable {chk : Bool} {P : Nat} {α : Type}

/-- The two runs are still at the common tokens. -/
structure PreR (chk : Bool) (P : Nat) (s t : St) : Prop where
  rem : ∃ rem, Common chk s.lx t.lx rem ∧ LastAt P ((s.token, s.span) :: (s.peeked.toList ++ rem))
  eq : t = { s with lx := t.lx, issueSrc := t.issueSrc, issues := t.issues }
  issues : s.issues.map Issue.key = t.issues.map Issue.key
  chk : s.checked = chk
  inv : BInv s
  inv' : BInv t

/-- The run has left the common tokens; `K` was said before. -/
def Late (P : Nat) (K : List (Level × Msg × Span)) (s : St) : Prop :=
  Loaded s ∨ (P ≤ s.span.start ∧ BInv s ∧ early P s.issues = K)

/-- Corresponding outcomes. -/
inductive PRel (chk : Bool) (P : Nat) : Out α → Out α → Prop where
  | ok {v : α} {s t : St} (h : PreR chk P s t) : PRel chk P (.ok v s) (.ok v t)
  | err {s t : St} (h : PreR chk P s t) : PRel chk P (.err s) (.err t)
  | late {o o' : Out α} (K : List (Level × Msg × Span)) (h : OutG (Late P K) o) (h' : OutG (Late P K) o') : PRel chk P o o'
  | panic {m : String} {o : Out α} : PRel chk P (.panic m) o
  | panic' {m : String} {o : Out α} : PRel chk P o (.panic m)
  | oof {o : Out α} : PRel chk P .oof o
  | oof' {o : Out α} : PRel chk P o .oof

theorem PreR.early {s t : St} (h : PreR chk P s t) : early P s.issues = early P t.issues := by
  unfold SqlParse.early; rw [h.issues]

/-! ### After the common tokens -/

theorem good_late {K : List (Level × Msg × Span)} {s : St} {o : Out α} (hP : P ≤ s.span.start) (hK : early P s.issues = K)
    (hg : Good s o) (hi : OutG (fun s' => early P s'.issues = early P s.issues) o) : OutG (Late P K) o := by
  cases o with
  | ok v s' => exact .inr ⟨Nat.le_trans hP hg.2.start, hg.1, hi.trans hK⟩
  | err s' => exact .inr ⟨Nat.le_trans hP hg.2.start, hg.1, hi.trans hK⟩
  | panic m => trivial
  | oof => trivial

theorem next_early {s : St} : OutG (fun s' => s'.issues = s.issues) s.next := by
  unfold St.next
  split
  · rfl
  · split
    · rfl
    · trivial

theorem issue_early {s : St} {l : Level} {m : Msg} {sp : Span} {fr : List (String × Span)} (h : m.isSyntax = false ∨ P ≤ sp.start) :
    OutG (fun s' => early P s'.issues = early P s.issues) (s.issue l m sp fr) := by
  unfold St.issue
  split
  · show early P (s.issues ++ _) = _
    rw [early_append]
    suffices h' : ∀ x, (x : Issue).message = m → x.span = sp → early P [x] = [] by rw [h' _ rfl rfl, List.append_nil]
    rintro x rfl rfl
    have : (x.message.isSyntax && decide (x.span.start < P)) = false := by
      rcases h with h | h
      · rw [h]; rfl
      · rw [show decide (x.span.start < P) = false from decide_eq_false (by omega), Bool.and_false]
    simp [early, Issue.key, this]
  · trivial

theorem op_early {o : Op α} {s : St} (hq : o.quiet = true) :
    OutG (fun s' => Loaded s' ∨ early P s'.issues = early P s.issues) (o.run s) := by
  cases o with
  | next => exact outG_imp (fun s' h => .inr (by rw [h])) next_early
  | cur => exact .inr rfl
  | leftParenAhead =>
    simp only [Op.run]
    split
    · split
      · exact .inr rfl
      · split
        · exact .inr rfl
        · trivial
    · exact .inr rfl
  | issue l m sp fr =>
    refine outG_imp (fun _ => .inr) (issue_early (.inl ?_))
    simpa [Op.quiet] using hq
  | issueIf f l v sp =>
    simp only [Op.run]
    split
    · exact outG_imp (fun _ => .inr) (issue_early (.inl (by cases f <;> rfl)))
    · exact .inr rfl
  | takeArg =>
    have := next_early (s := { s with arg := s.arg + 1, argLog := s.argLog ++ [s.span] })
    simp only [Op.run]
    revert this
    generalize St.next { s with arg := s.arg + 1, argLog := s.argLog ++ [s.span] } = o
    cases o with
    | ok v s' => exact fun h => .inr (by rw [show s'.issues = s.issues from h])
    | err s' => exact fun h => .inr (by rw [show s'.issues = s.issues from h])
    | panic m => exact id
    | oof => exact id
  | delim => exact .inr rfl
  | setDelim t => exact .inr rfl
  | permit => exact .inr rfl
  | setPermit x => exact .inr rfl
  | dialect => exact .inr rfl
  | arguments => exact .inr rfl
  | listHack => exact .inr rfl
  | stdin => exact outG_imp (fun _ => .inl) stdin_loaded

theorem op_late {K : List (Level × Msg × Span)} {o : Op α} {s : St} (hq : o.quiet = true) (h : Late P K s) : OutG (Late P K) (o.run s) := by
  rcases h with h | ⟨h1, h2, h3⟩
  · exact outG_imp (fun _ => .inl) (op_loaded h)
  · have hg := op_good o h2
    have he := op_early (P := P) (s := s) hq
    revert hg he
    generalize o.run s = o'
    cases o' with
    | ok v s' => exact fun hg he => he.imp id fun he => ⟨Nat.le_trans h1 hg.2.start, hg.1, he.trans h3⟩
    | err s' => exact fun hg he => he.imp id fun he => ⟨Nat.le_trans h1 hg.2.start, hg.1, he.trans h3⟩
    | panic m => exact fun _ => id
    | oof => exact fun _ => id

theorem expected_run (R : ∀ α, Fn α → St → Out α) (n : Nat) (w : Wanted) (s : St) :
    runWith R n (expectedError w) s = s.issue .error (.expected w) s.span [] := by
  rfl

theorem errHere_eq (R : ∀ α, Fn α → St → Out α) (n : Nat) (m : String) (s : St) :
    runWith R n (errHere (α := α) m) s = match s.issue .error (.plain m) s.span [] with
      | .ok _ s' => .err s'
      | .err s' => .err s'
      | .panic m => .panic m
      | .oof => .oof := by
  rw [show errHere (α := α) m = .bind curS (fun sp => .bind (err (.plain m) sp []) fun _ => .throw) from rfl]
  rw [show runWith R n (.bind curS (fun sp => .bind (err (.plain m) sp []) fun _ => (.throw : Prog α))) s =
    runWith R n (.bind (err (.plain m) s.span []) fun _ => (.throw : Prog α)) s from rfl]
  unfold runWith
  rw [show runWith R n (err (.plain m) s.span []) s = s.issue .error (.plain m) s.span [] from rfl]
  generalize St.issue s .error (.plain m) s.span [] = o
  cases o <;> simp [runWith]

theorem here_late {K : List (Level × Msg × Span)} {m : Msg} {s : St} (h : Late P K s) :
    OutG (Late P K) (s.issue .error m s.span []) := by
  rcases h with h | ⟨h1, h2, h3⟩
  · exact outG_imp (fun _ => .inl) (op_loaded (o := .issue .error m s.span []) h)
  · exact good_late h1 h3 (issue_good h2 _ _ _ _) (issue_early (.inr h1))

theorem runWith_late {K : List (Level × Msg × Span)} {R : ∀ α, Fn α → St → Out α} (hR : ∀ α (f : Fn α) s, Late P K s → OutG (Late P K) (R α f s))
    (n : Nat) {p : Prog α} (hp : EH p) : ∀ s, Late P K s → OutG (Late P K) (runWith R n p s) := by
  induction hp with
  | ret v => exact fun s h => h
  | bind _ _ ih ihf =>
    intro s h
    have := ih s h
    unfold runWith
    revert this
    generalize runWith R n _ s = o
    cases o with
    | ok v s' => exact fun h => ihf v s' h
    | err s' => exact id
    | panic m => exact id
    | oof => exact id
  | op o hq => exact fun s h => op_late hq h
  | expected w => exact fun s h => by rw [expected_run]; exact here_late h
  | here m =>
    intro s h
    rw [errHere_eq]
    have := here_late (m := .plain m) h
    revert this
    generalize St.issue s .error (.plain m) s.span [] = o
    cases o <;> exact id
  | throw => exact fun s h => h
  | tryP _ ih =>
    intro s h
    have := ih s h
    unfold runWith
    revert this
    generalize runWith R n _ s = o
    cases o <;> exact id
  | loop x _ ih =>
    intro s h
    unfold runWith
    exact loopN_keeps (fun x s h => ih x s h) n x s h
  | call f => exact fun s h => hR _ f s h
  | panic m => exact fun s h => trivial

theorem runFn_late {K : List (Level × Msg × Span)} : ∀ n α (f : Fn α) s, Late P K s → OutG (Late P K) (runFn n α f s)
  | 0, _, _, _, _ => trivial
  | n + 1, _, f, s, h => runWith_late (runFn_late n) n (inferInstance : EH (body f)) s h

/-! ### At the common tokens -/

theorem next_pre {s t : St} (h : PreR chk P s t) : PRel chk P s.next t.next := by
  obtain ⟨rem, hc, hl⟩ := h.rem
  have e := h.eq
  have hg := next_good h.inv
  have hg' := next_good h.inv'
  unfold St.next at hg hg' ⊢
  cases hp : s.peeked with
  | some p =>
    obtain ⟨x, y⟩ := p
    have hp' : t.peeked = some (x, y) := by rw [e]; exact hp
    rw [hp] at hg hl
    rw [hp'] at hg'
    rw [hp']
    refine .ok ⟨⟨rem, hc, hl.tail⟩, ?_, h.issues, h.chk, hg.1, hg'.1⟩
    rw [e]
  | none =>
    have hp' : t.peeked = none := by rw [e]; exact hp
    have hc' : t.checked = chk := by rw [e]; exact h.chk
    rw [hp, h.chk] at hg
    rw [hp', hc'] at hg'
    rw [hp', hc', h.chk]
    rw [hp] at hl
    cases hc with
    | nil =>
      have hP : s.span.start = P := by simpa [LastAt] using hl
      have hP' : t.span.start = P := by rw [e]; exact hP
      refine .late (early P s.issues) ?_ ?_
      · revert hg
        cases s.lx.nextToken chk with
        | ok a b c => exact fun hg => .inr ⟨hP ▸ hg.2.start, hg.1, rfl⟩
        | panic m => exact fun _ => trivial
      · revert hg'
        cases t.lx.nextToken chk with
        | ok a b c => exact fun hg => .inr ⟨hP' ▸ hg.2.start, hg.1, h.early.symm⟩
        | panic m => exact fun _ => trivial
    | cons h1 h2 hr =>
      rw [h1] at hg
      rw [h2] at hg'
      rw [h1, h2]
      refine .ok ⟨⟨_, hr, ?_⟩, ?_, h.issues, rfl, hg.1, hg'.1⟩
      · exact LastAt.tail hl
      · rw [e]

theorem issue_pre {s t : St} (h : PreR chk P s t) (l : Level) (m : Msg) (sp : Span) (fr) :
    PRel chk P (s.issue l m sp fr) (t.issue l m sp fr) := by
  have e := h.eq
  have hg := issue_good h.inv l m sp fr
  have hg' := issue_good h.inv' l m sp fr
  unfold St.issue at hg hg' ⊢
  cases h1 : slice s.issueSrc sp.start sp.stop with
  | none => exact .panic
  | some seg =>
    cases h2 : mkFrags s.issueSrc fr with
    | none => exact .panic
    | some fs =>
      cases h3 : slice t.issueSrc sp.start sp.stop with
      | none => exact .panic'
      | some seg' =>
        cases h4 : mkFrags t.issueSrc fr with
        | none => exact .panic'
        | some fs' =>
          rw [h1, h2] at hg
          rw [h3, h4] at hg'
          refine .ok ⟨h.rem, ?_, ?_, h.chk, hg.1, hg'.1⟩
          · rw [e]
          · simp [h.issues, Issue.key]

theorem prel_same {s t : St} {v w : α} (h : PreR chk P s t) (hv : v = w) : PRel chk P (.ok v s) (.ok w t) := by
  subst hv; exact .ok h

theorem binv_arg {s : St} (h : BInv s) (n : Nat) (l : List Span) : BInv { s with arg := n, argLog := l } :=
  ⟨h.lex, h.tok, h.pos, h.peek⟩

theorem op_pre {o : Op α} {s t : St} (h : PreR chk P s t) : PRel chk P (o.run s) (o.run t) := by
  have e := h.eq
  cases o with
  | next => exact next_pre h
  | cur => exact prel_same h (by rw [e])
  | leftParenAhead =>
    have hg := op_good .leftParenAhead h.inv
    have hg' := op_good .leftParenAhead h.inv'
    have ht : t.token = s.token := by rw [e]
    simp only [Op.run, ht] at hg hg' ⊢
    split
    · next hl =>
      rw [if_pos hl] at hg hg'
      cases hp : s.peeked with
      | some p =>
        have hp' : t.peeked = some p := by rw [e]; exact hp
        rw [hp']
        exact prel_same h rfl
      | none =>
        have hp' : t.peeked = none := by rw [e]; exact hp
        have hc' : t.checked = chk := by rw [e]; exact h.chk
        rw [hp, h.chk] at hg
        rw [hp', hc'] at hg'
        rw [hp', hc', h.chk]
        obtain ⟨rem, hc, hla⟩ := h.rem
        rw [hp] at hla
        cases hc with
        | nil =>
          have hP : s.span.start = P := by simpa [LastAt] using hla
          have hP' : t.span.start = P := by rw [e]; exact hP
          refine .late (early P s.issues) ?_ ?_
          · revert hg
            cases s.lx.nextToken chk with
            | ok a b c => exact fun hg => .inr ⟨hP ▸ hg.2.start, hg.1, rfl⟩
            | panic m => exact fun _ => trivial
          · revert hg'
            cases t.lx.nextToken chk with
            | ok a b c => exact fun hg => .inr ⟨hP' ▸ hg.2.start, hg.1, h.early.symm⟩
            | panic m => exact fun _ => trivial
        | cons h1 h2 hr =>
          rw [h1] at hg
          rw [h2] at hg'
          rw [h1, h2]
          refine .ok ⟨⟨_, hr, ?_⟩, ?_, h.issues, rfl, hg.1, hg'.1⟩
          · exact hla
          · rw [e]
    · exact prel_same h rfl
  | issue l m sp fr => exact issue_pre h _ _ _ _
  | issueIf f l v sp =>
    have ho : t.opts = s.opts := by rw [e]
    simp only [Op.run, ho]
    split
    · exact issue_pre h _ _ _ _
    · exact prel_same h rfl
  | takeArg =>
    have h0 : PreR chk P { s with arg := s.arg + 1, argLog := s.argLog ++ [s.span] } { t with arg := t.arg + 1, argLog := t.argLog ++ [t.span] } :=
      ⟨h.rem, by rw [e], h.issues, h.chk, binv_arg h.inv _ _, binv_arg h.inv' _ _⟩
    have := next_pre h0
    have e1 : t.arg = s.arg := by rw [e]
    have e2 : t.span = s.span := by rw [e]
    simp only [Op.run]
    revert this
    generalize St.next { s with arg := s.arg + 1, argLog := s.argLog ++ [s.span] } = o
    generalize St.next { t with arg := t.arg + 1, argLog := t.argLog ++ [t.span] } = o'
    intro this
    rw [e1, e2]
    cases this with
    | ok h => exact .ok h
    | err h => exact .err h
    | late K h h' => exact .late K (by cases o <;> exact h) (by cases o' <;> exact h')
    | panic => exact .panic
    | panic' => exact .panic'
    | oof => exact .oof
    | oof' => exact .oof'
  | delim => exact prel_same h (by rw [e])
  | setDelim d => exact prel_same ⟨h.rem, by rw [e], h.issues, h.chk, ⟨h.inv.lex, h.inv.tok, h.inv.pos, h.inv.peek⟩, ⟨h.inv'.lex, h.inv'.tok, h.inv'.pos, h.inv'.peek⟩⟩ rfl
  | permit => exact prel_same h (by rw [e])
  | setPermit x => exact prel_same ⟨h.rem, by rw [e], h.issues, h.chk, ⟨h.inv.lex, h.inv.tok, h.inv.pos, h.inv.peek⟩, ⟨h.inv'.lex, h.inv'.tok, h.inv'.pos, h.inv'.peek⟩⟩ rfl
  | dialect => exact prel_same h (by rw [e])
  | arguments => exact prel_same h (by rw [e])
  | listHack => exact prel_same h (by rw [e])
  | stdin => exact .late [] (outG_imp (fun _ => .inl) stdin_loaded) (outG_imp (fun _ => .inl) stdin_loaded)

/-- The calls keep what is needed. -/
structure CallsPre (chk : Bool) (P : Nat) (R : ∀ α, Fn α → St → Out α) : Prop where
  late : ∀ K α (f : Fn α) s, Late P K s → OutG (Late P K) (R α f s)
  pre : ∀ α (f : Fn α) s t, PreR chk P s t → PRel chk P (R α f s) (R α f t)

theorem loopN_pre {σ β : Type} {f : σ → St → Out (Step σ β)} (hl : ∀ K x s, Late P K s → OutG (Late P K) (f x s))
    (h : ∀ x s t, PreR chk P s t → PRel chk P (f x s) (f x t)) : ∀ m x s t, PreR chk P s t → PRel chk P (loopN f m x s) (loopN f m x t) := by
  intro m
  induction m with
  | zero => intro x s t _; exact .oof
  | succ m ihm =>
    intro x s t hs
    have := h x s t hs
    unfold loopN
    revert this
    generalize f x s = o
    generalize f x t = o'
    intro this
    cases this with
    | @ok v s' t' h =>
      cases v with
      | cont x' => exact ihm x' _ _ h
      | done v => exact .ok h
    | err h => exact .err h
    | late K h h' =>
      refine .late K ?_ ?_
      · revert h
        cases o with
        | ok v s' =>
          cases v with
          | cont x' => exact fun h => loopN_keeps (fun x s h => hl K x s h) m x' s' h
          | done v => exact id
        | err s' => exact id
        | panic m => exact id
        | oof => exact id
      · revert h'
        cases o' with
        | ok v s' =>
          cases v with
          | cont x' => exact fun h => loopN_keeps (fun x s h => hl K x s h) m x' s' h
          | done v => exact id
        | err s' => exact id
        | panic m => exact id
        | oof => exact id
    | panic => exact .panic
    | panic' => exact .panic'
    | oof => exact .oof
    | oof' => exact .oof'

theorem runWith_pre {R : ∀ α, Fn α → St → Out α} (hR : CallsPre chk P R) (n : Nat) {p : Prog α} (hp : EH p) :
    ∀ s t, PreR chk P s t → PRel chk P (runWith R n p s) (runWith R n p t) := by
  induction hp with
  | ret v => exact fun s t h => .ok h
  | bind hp hf ih ihf =>
    intro s t h
    have := ih s t h
    unfold runWith
    revert this
    generalize runWith R n _ s = o
    generalize runWith R n _ t = o'
    intro this
    cases this with
    | ok h => exact ihf _ _ _ h
    | err h => exact .err h
    | late K h h' =>
      refine .late K ?_ ?_
      · revert h
        cases o with
        | ok v s' => exact fun h => runWith_late (hR.late K) n (hf v) s' h
        | err s' => exact id
        | panic m => exact id
        | oof => exact id
      · revert h'
        cases o' with
        | ok v s' => exact fun h => runWith_late (hR.late K) n (hf v) s' h
        | err s' => exact id
        | panic m => exact id
        | oof => exact id
    | panic => exact .panic
    | panic' => exact .panic'
    | oof => exact .oof
    | oof' => exact .oof'
  | op o hq => exact fun s t h => op_pre h
  | expected w =>
    intro s t h
    rw [expected_run, expected_run]
    have e := h.eq
    rw [show t.span = s.span by rw [e]]
    exact issue_pre h _ _ _ _
  | here m =>
    intro s t h
    rw [errHere_eq, errHere_eq]
    have e := h.eq
    rw [show t.span = s.span by rw [e]]
    have := issue_pre h .error (.plain m) s.span []
    revert this
    generalize St.issue s .error (.plain m) s.span [] = o
    generalize St.issue t .error (.plain m) s.span [] = o'
    intro this
    cases this with
    | ok h => exact .err h
    | err h => exact .err h
    | late K h h' => exact .late K (by cases o <;> exact h) (by cases o' <;> exact h')
    | panic => exact .panic
    | panic' => exact .panic'
    | oof => exact .oof
    | oof' => exact .oof'
  | throw => exact fun s t h => .err h
  | tryP hp ih =>
    intro s t h
    have := ih s t h
    unfold runWith
    revert this
    generalize runWith R n _ s = o
    generalize runWith R n _ t = o'
    intro this
    cases this with
    | ok h => exact .ok h
    | err h => exact .ok h
    | late K h h' => exact .late K (by cases o <;> exact h) (by cases o' <;> exact h')
    | panic => exact .panic
    | panic' => exact .panic'
    | oof => exact .oof
    | oof' => exact .oof'
  | loop x hb ih =>
    intro s t h
    unfold runWith
    exact loopN_pre (fun K x s h => runWith_late (hR.late K) n (hb x) s h) ih n x s t h
  | call f => exact fun s t h => hR.pre _ f s t h
  | panic m => exact fun s t h => .panic

theorem runFn_pre : ∀ n, CallsPre chk P (runFn n)
  | 0 => ⟨fun _ _ _ _ _ => trivial, fun _ _ _ _ _ => .oof⟩
  | n + 1 => ⟨fun _ α f s h => runFn_late (n + 1) α f s h, fun _ f s t h => runWith_pre (runFn_pre n) n (inferInstance : EH (body f)) s t h⟩

theorem run_pre (n : Nat) {p : Prog α} (hp : EH p) {s t : St} (h : PreR chk P s t) : PRel chk P (p.run n s) (p.run n t) :=
  runWith_pre (runFn_pre n) n hp s t h

end
end SqlParse
