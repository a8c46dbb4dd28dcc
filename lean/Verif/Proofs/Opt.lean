import Verif.Proofs.Watch
import Verif.Spec.Dialects
/-!
Two runs on the same source with different options.  They go in step (`Lock`), until one of them has reported an Error because the dialects
differ, or data of COPY has been read.
-/
namespace SqlParse

/-- The dialects differ. -/
def Differ (o o' : Opts) : Prop := o.dialect ≠ o'.dialect

/-- The token is treated alike with both options. -/
structure AlikeOpt (o o' : Opts) (t : Token) : Prop where
  args : o.arguments = o'.arguments ∨ ((∀ n, t ≠ .dollarArg n) ∧ t ≠ .questionMark ∧ t ≠ .percentS)
  list : o.listHack = o'.listHack ∨ t.isKw .«_LIST_» = false
  words : Differ o o' → ∀ k ∈ [Keyword.FUNCTION, .REAL, .PRECISION, .CASCADE, .IDENTITY], t.isKw k = false

/-- A source and two options. -/
structure Dsrc where
  chk : Bool
  o : Opts
  o' : Opts
  unquoted : o.warnUnquoted = o'.warnUnquoted
  caps : o.warnCaps = o'.warnCaps

/-- The lexer may get from one state to the other. -/
inductive LexTo (chk : Bool) : Lexer → Lexer → Prop where
  | refl (lx : Lexer) : LexTo chk lx lx
  | step {lx lx1 lx2 : Lexer} {t : Token} {sp : Span} (h : lx.nextToken chk = .ok t sp lx1) (hr : LexTo chk lx1 lx2) : LexTo chk lx lx2

/-- All tokens that come are treated alike. -/
def AheadD (E : Dsrc) (lx : Lexer) : Prop := ∀ lx1 t sp lx2, LexTo E.chk lx lx1 → lx1.nextToken E.chk = .ok t sp lx2 → AlikeOpt E.o E.o' t

theorem AheadD.now {E : Dsrc} {lx lx2 : Lexer} {t : Token} {sp : Span} (h : AheadD E lx) (he : lx.nextToken E.chk = .ok t sp lx2) : AlikeOpt E.o E.o' t :=
  h lx t sp lx2 (.refl lx) he
theorem AheadD.step {E : Dsrc} {lx lx2 : Lexer} {t : Token} {sp : Span} (h : AheadD E lx) (he : lx.nextToken E.chk = .ok t sp lx2) : AheadD E lx2 :=
  fun lx1 t' sp' lx3 hr h' => h lx1 t' sp' lx3 (.step he hr) h'

/-- All tokens are treated alike. -/
structure TokD (E : Dsrc) (s : St) : Prop where
  checked : s.checked = E.chk
  tok : AlikeOpt E.o E.o' s.token
  peek : ∀ q, s.peeked = some q → AlikeOpt E.o E.o' q.1
  ahead : AheadD E s.lx

/-- The first run. -/
structure Unary (E : Dsrc) (s : St) : Prop where
  checked : s.checked = E.chk
  opts : s.opts = E.o
  tok : AlikeOpt E.o E.o' s.token
  peek : ∀ q, s.peeked = some q → AlikeOpt E.o E.o' q.1
  ahead : AheadD E s.lx

/-- The issues of the two runs: the same, or, if the dialects differ, the same apart from what is reported about the dialect. -/
def IssRel (E : Dsrc) (i i' : List Issue) : Prop := i = i' ∨ (Differ E.o E.o' ∧ apartFromDialect i = apartFromDialect i')

/-- The state with the other options and issues. -/
def St.twin (E : Dsrc) (s : St) (is : List Issue) : St := { s with opts := E.o', issues := is }

/-- An Error that is not about the dialect. -/
def HasOther (is : List Issue) : Prop := ∃ i ∈ is, i.level = .error ∧ i.aboutDialect = false

/-- The first run need not be followed. -/
def PastL (E : Dsrc) (s : St) : Prop := Loaded s ∨ (Differ E.o E.o' ∧ HasOther s.issues)
def Bad (s : St) : Prop := HasOther s.issues

theorem hasOther_more {is js : List Issue} (h : HasOther is) : HasOther (is ++ js) := by
  obtain ⟨i, h1, h2⟩ := h
  exact ⟨i, List.mem_append_left _ h1, h2⟩

theorem IssRel.append {E : Dsrc} {i i' : List Issue} (h : IssRel E i i') (x : List Issue) : IssRel E (i ++ x) (i' ++ x) := by
  rcases h with rfl | ⟨h, h'⟩
  · exact .inl rfl
  · exact .inr ⟨h, by unfold apartFromDialect at *; rw [List.filter_append, List.filter_append, h']⟩

/-- The two states. -/
def PairD (E : Dsrc) (s s' : St) : Prop := Unary E s ∧ ∃ is, IssRel E s.issues is ∧ s' = s.twin E is

/-- The two outcomes are in step. -/
def SameD {α : Type} (E : Dsrc) : Out α → Out α → Prop
  | .ok a s, .ok a' s' => a = a' ∧ PairD E s s'
  | .err s, .err s' => PairD E s s'
  | .panic m, .panic m' => m = m'
  | .oof, .oof => True
  | _, _ => False

variable {E : Dsrc} {α β σ : Type}

/-- The two outcomes: in step, or one of them need not be followed. -/
def OutD (E : Dsrc) (o o' : Out α) : Prop := SameD E o o' ∨ OutG (PastL E) o ∨ (Differ E.o E.o' ∧ OutG Bad o')

/-- Issues are only added. -/
def More (s s' : St) : Prop := ∃ i, s'.issues = s.issues ++ i

theorem next_more {s : St} : OutG (More s) s.next := by
  unfold St.next
  split
  · exact ⟨[], by simp⟩
  · split
    · exact ⟨[], by simp⟩
    · trivial
theorem issue_more {s : St} {l : Level} {m : Msg} {sp : Span} {fr : List (String × Span)} : OutG (More s) (s.issue l m sp fr) := by
  unfold St.issue
  split
  · exact ⟨_, rfl⟩
  · trivial
theorem op_more {o : Op α} {s : St} : OutG (More s) (o.run s) := by
  have h : More s s := ⟨[], by simp⟩
  cases o with
  | next => exact next_more
  | cur => exact h
  | leftParenAhead =>
    simp only [Op.run]
    split
    · split
      · exact h
      · split
        · exact ⟨[], by simp⟩
        · trivial
    · exact h
  | issue l m sp fr => exact issue_more
  | issueIf f l v sp =>
    simp only [Op.run]
    split
    · exact issue_more
    · exact h
  | takeArg =>
    have := next_more (s := { s with arg := s.arg + 1, argLog := s.argLog ++ [s.span] })
    simp only [Op.run]
    revert this
    generalize St.next { s with arg := s.arg + 1, argLog := s.argLog ++ [s.span] } = o
    cases o <;> exact id
  | delim => exact h
  | setDelim t => exact ⟨[], by simp⟩
  | permit => exact h
  | setPermit x => exact ⟨[], by simp⟩
  | dialect => exact h
  | arguments => exact h
  | listHack => exact h
  | stdin =>
    simp only [Op.run]
    split
    · trivial
    · next d sp lx _ =>
      have := next_more (s := { s with lx := lx, dataLog := s.dataLog ++ [(s.span, d, sp)] })
      revert this
      generalize St.next { s with lx := lx, dataLog := s.dataLog ++ [(s.span, d, sp)] } = o
      cases o <;> exact id

theorem op_bad {o : Op α} {s : St} (h : Bad s) : OutG Bad (o.run s) := outG_imp (fun s' ⟨i, hi⟩ => by unfold Bad; rw [hi]; exact hasOther_more h) op_more
theorem op_pastL {o : Op α} {s : St} (h : PastL E s) : OutG (PastL E) (o.run s) := by
  rcases h with h | ⟨h1, h⟩
  · exact outG_imp (fun _ => .inl) (op_loaded h)
  · exact outG_imp (fun _ h => .inr ⟨h1, h⟩) (op_bad h)

/-- The calls. -/
structure CallsD (E : Dsrc) (R R' : ∀ α, Fn α → St → Out α) : Prop where
  left : ∀ α (f : Fn α) s, PastL E s → OutG (PastL E) (R α f s)
  right : ∀ α (f : Fn α) s, Bad s → OutG Bad (R' α f s)
  both : ∀ α (f : Fn α) s s', PairD E s s' → OutD E (R α f s) (R' α f s')

/-- `p` and `q` go in step. -/
def D2 (E : Dsrc) (p q : Prog α) : Prop := ∀ R R' n s s', CallsD E R R' → PairD E s s' → OutD E (runWith R n p s) (runWith R' n q s')

/-- `p` does the same with both options. -/
class DA (E : Dsrc) (p : Prog α) : Prop where
  h : D2 E p p

theorem CallsD.pastL {R R' : ∀ α, Fn α → St → Out α} (hR : CallsD E R R') {n : Nat} {p : Prog α} {s : St} (h : PastL E s) : OutG (PastL E) (runWith R n p s) :=
  runWith_keeps (fun _ _ => op_pastL) hR.left n p s h
theorem CallsD.bad {R R' : ∀ α, Fn α → St → Out α} (hR : CallsD E R R') {n : Nat} {p : Prog α} {s : St} (h : Bad s) : OutG Bad (runWith R' n p s) :=
  runWith_keeps (fun _ _ => op_bad) hR.right n p s h

theorem D2.bind {p q : Prog α} {f g : α → Prog β} (h : D2 E p q) (hf : ∀ a, D2 E (f a) (g a)) : D2 E (.bind p f) (.bind q g) := by
  intro R R' n s t hR hs
  have h1 := h R R' n s t hR hs
  unfold runWith
  generalize runWith R n p s = o at h1
  generalize runWith R' n q t = o' at h1
  rcases h1 with h1 | h1 | ⟨hd, h1⟩
  · cases o with
    | ok a s' =>
      cases o' with
      | ok a' t' =>
        obtain ⟨rfl, h1⟩ := h1
        exact hf a R R' n s' t' hR h1
      | _ => cases h1
    | err s' => cases o' <;> first | exact .inl h1 | cases h1
    | panic m => cases o' <;> first | exact .inl h1 | cases h1
    | oof => cases o' <;> first | exact .inl h1 | cases h1
  · refine .inr (.inl ?_)
    cases o with
    | ok a s' => exact hR.pastL h1
    | err s' => exact h1
    | panic m => trivial
    | oof => trivial
  · refine .inr (.inr ⟨hd, ?_⟩)
    cases o' with
    | ok a s' => exact hR.bad h1
    | err s' => exact h1
    | panic m => trivial
    | oof => trivial

theorem D2.tryP {p q : Prog α} (h : D2 E p q) : D2 E (.tryP p) (.tryP q) := by
  intro R R' n s t hR hs
  have h1 := h R R' n s t hR hs
  unfold runWith
  generalize runWith R n p s = o at h1
  generalize runWith R' n q t = o' at h1
  rcases h1 with h1 | h1 | ⟨hd, h1⟩
  · refine .inl ?_
    cases o <;> cases o' <;> first | exact h1 | exact ⟨by rw [h1.1], h1.2⟩ | exact ⟨rfl, h1⟩ | cases h1
  · refine .inr (.inl ?_)
    cases o <;> exact h1
  · refine .inr (.inr ⟨hd, ?_⟩)
    cases o' <;> exact h1

theorem loopN_d2 {R R' : ∀ α, Fn α → St → Out α} (hR : CallsD E R R') {n : Nat} {b b' : σ → Prog (Step σ β)} (hb : ∀ x, D2 E (b x) (b' x)) :
    ∀ j x s t, PairD E s t → OutD E (loopN (fun x s => runWith R n (b x) s) j x s) (loopN (fun x s => runWith R' n (b' x) s) j x t) := by
  intro j
  induction j with
  | zero => intro x s t _; exact .inl trivial
  | succ j ih =>
    intro x s t hs
    have h1 := hb x R R' n s t hR hs
    unfold loopN
    generalize runWith R n (b x) s = o at h1
    generalize runWith R' n (b' x) t = o' at h1
    rcases h1 with h1 | h1 | ⟨hd, h1⟩
    · cases o with
      | ok a s' =>
        cases o' with
        | ok a' t' =>
          obtain ⟨rfl, h1⟩ := h1
          cases a with
          | cont y => exact ih y s' t' h1
          | done y => exact .inl ⟨rfl, h1⟩
        | _ => cases h1
      | err s' => cases o' <;> first | exact .inl h1 | cases h1
      | panic m => cases o' <;> first | exact .inl h1 | cases h1
      | oof => cases o' <;> first | exact .inl h1 | cases h1
    · refine .inr (.inl ?_)
      cases o with
      | ok a s' =>
        cases a with
        | cont y => exact loopN_keeps (fun x s h => hR.pastL h) j y s' h1
        | done y => exact h1
      | err s' => exact h1
      | panic m => trivial
      | oof => trivial
    · refine .inr (.inr ⟨hd, ?_⟩)
      cases o' with
      | ok a s' =>
        cases a with
        | cont y => exact loopN_keeps (fun x s h => hR.bad h) j y s' h1
        | done y => exact h1
      | err s' => exact h1
      | panic m => trivial
      | oof => trivial

theorem D2.loop {b b' : σ → Prog (Step σ β)} {x : σ} (hb : ∀ x, D2 E (b x) (b' x)) : D2 E (.loop b x) (.loop b' x) :=
  fun _ _ n s t hR hs => loopN_d2 hR hb n x s t hs

theorem D2.ret {a : α} : D2 E (.ret a) (.ret a) := fun _ _ _ _ _ _ hs => .inl ⟨rfl, hs⟩

/-! ### Operations -/

/-- The operation does not look at the options that may differ. -/
def Op.blind {α : Type} : Op α → Bool
  | .dialect => false
  | .arguments => false
  | .listHack => false
  | _ => true

/-- Both outcomes add the same issues. -/
def TwD (E : Dsrc) (i i' : List Issue) : Out α → Out α → Prop
  | .ok a s, .ok a' s' => a = a' ∧ ∃ x, s.issues = i ++ x ∧ s' = s.twin E (i' ++ x)
  | .err s, .err s' => ∃ x, s.issues = i ++ x ∧ s' = s.twin E (i' ++ x)
  | .panic m, .panic m' => m = m'
  | .oof, .oof => True
  | _, _ => False

theorem tw_same {a : α} {s : St} {is : List Issue} : TwD E s.issues is (.ok a s) (.ok a (s.twin E is)) := ⟨rfl, [], by simp, by simp⟩

theorem next_twin {s : St} {is : List Issue} : TwD E s.issues is s.next (s.twin E is).next := by
  unfold St.next St.twin
  dsimp only
  split
  · exact ⟨rfl, [], by simp, by simp [St.twin]⟩
  · split
    · exact ⟨rfl, [], by simp, by simp [St.twin]⟩
    · rfl
theorem issue_twin {s : St} {is : List Issue} {l : Level} {m : Msg} {sp : Span} {fr : List (String × Span)} : TwD E s.issues is (s.issue l m sp fr) ((s.twin E is).issue l m sp fr) := by
  unfold St.issue St.twin
  dsimp only
  split
  · exact ⟨rfl, _, rfl, rfl⟩
  · rfl

theorem op_twin {o : Op α} {s : St} {is : List Issue} (hs : Unary E s) (ho : o.blind = true) : TwD E s.issues is (o.run s) (o.run (s.twin E is)) := by
  cases o with
  | next => exact next_twin
  | cur => exact tw_same
  | leftParenAhead =>
    have h' : (s.twin E is).token.isKw .LEFT = s.token.isKw .LEFT := rfl
    simp only [Op.run]
    by_cases h : s.token.isKw .LEFT = true
    · rw [if_pos h, if_pos (h'.trans h)]
      unfold St.twin
      dsimp only
      cases hp : s.peeked with
      | some q => exact ⟨rfl, [], by simp, by simp [St.twin, hp]⟩
      | none =>
        dsimp only
        generalize Lexer.nextToken s.checked s.lx = o
        cases o with
        | ok t sp lx => exact ⟨rfl, [], by simp, by simp [St.twin]⟩
        | panic m => rfl
    · rw [if_neg h, if_neg (by rw [h']; exact h)]
      exact tw_same
  | issue l m sp fr => exact issue_twin
  | issueIf f l v sp =>
    have : (s.twin E is).opts.flag f = s.opts.flag f := by
      rw [hs.opts]
      cases f with
      | unquoted => exact E.unquoted.symm
      | caps => exact E.caps.symm
    simp only [Op.run, this]
    split
    · exact issue_twin
    · exact tw_same
  | takeArg =>
    have := next_twin (E := E) (is := is) (s := { s with arg := s.arg + 1, argLog := s.argLog ++ [s.span] })
    unfold St.twin at this
    simp only [Op.run, St.twin]
    generalize St.next { s with arg := s.arg + 1, argLog := s.argLog ++ [s.span] } = x at this
    generalize St.next { { s with opts := E.o', issues := is } with arg := s.arg + 1, argLog := s.argLog ++ [s.span] } = y at this
    cases x <;> cases y <;> first | exact this | exact ⟨rfl, this.2⟩ | cases this
  | delim => exact tw_same
  | setDelim t => exact ⟨rfl, [], by simp, by simp [St.twin]⟩
  | permit => exact tw_same
  | setPermit x => exact ⟨rfl, [], by simp, by simp [St.twin]⟩
  | dialect => cases ho
  | arguments => cases ho
  | listHack => cases ho
  | stdin =>
    simp only [Op.run, St.twin]
    split
    · rfl
    · next d sp lx _ =>
      have := next_twin (E := E) (is := is) (s := { s with lx := lx, dataLog := s.dataLog ++ [(s.span, d, sp)] })
      unfold St.twin at this
      generalize St.next { s with lx := lx, dataLog := s.dataLog ++ [(s.span, d, sp)] } = x at this
      generalize St.next { { s with opts := E.o', issues := is } with lx := lx, dataLog := s.dataLog ++ [(s.span, d, sp)] } = y at this
      cases x <;> cases y <;> first | exact this | exact ⟨rfl, this.2⟩ | cases this

theorem next_unary {s : St} (h : Unary E s) : OutG (Unary E) s.next := by
  obtain ⟨h1, h2, h3, h4, h5⟩ := h
  unfold St.next
  split
  · next q hq => exact ⟨h1, h2, h4 _ hq, fun _ h => (by cases h), h5⟩
  · next hq =>
    split
    · next t sp lx he =>
      rw [h1] at he
      exact ⟨h1, h2, h5.now he, fun _ h => (by rw [hq] at h; cases h), h5.step he⟩
    · trivial

theorem issue_unary {s : St} {l : Level} {m : Msg} {sp : Span} {fr : List (String × Span)} (h : Unary E s) : OutG (Unary E) (s.issue l m sp fr) := by
  unfold St.issue
  split
  · exact ⟨h.checked, h.opts, h.tok, h.peek, h.ahead⟩
  · trivial

theorem op_unary {o : Op α} {s : St} (h : Unary E s) : OutG (fun s => Unary E s ∨ Loaded s) (o.run s) := by
  have lift : ∀ {β : Type} {x : Out β}, OutG (Unary E) x → OutG (fun s => Unary E s ∨ Loaded s) x := fun hx => outG_imp (fun _ => .inl) hx
  cases o with
  | next => exact lift (next_unary h)
  | cur => exact .inl h
  | leftParenAhead =>
    refine lift ?_
    simp only [Op.run]
    split
    · split
      · exact h
      · split
        · next t sp lx he =>
          rw [h.checked] at he
          exact ⟨h.checked, h.opts, h.tok, fun q hq => by cases hq; exact h.ahead.now he, h.ahead.step he⟩
        · trivial
    · exact h
  | issue l m sp fr => exact lift (issue_unary h)
  | issueIf f l v sp =>
    refine lift ?_
    simp only [Op.run]
    split
    · exact issue_unary h
    · exact h
  | takeArg =>
    have := next_unary (E := E) (s := { s with arg := s.arg + 1, argLog := s.argLog ++ [s.span] }) ⟨h.checked, h.opts, h.tok, h.peek, h.ahead⟩
    refine lift ?_
    simp only [Op.run]
    revert this
    generalize St.next { s with arg := s.arg + 1, argLog := s.argLog ++ [s.span] } = o
    cases o <;> exact id
  | delim => exact .inl h
  | setDelim t => exact .inl ⟨h.checked, h.opts, h.tok, h.peek, h.ahead⟩
  | permit => exact .inl h
  | setPermit x => exact .inl ⟨h.checked, h.opts, h.tok, h.peek, h.ahead⟩
  | dialect => exact .inl h
  | arguments => exact .inl h
  | listHack => exact .inl h
  | stdin => exact outG_imp (fun _ => .inr) stdin_loaded

theorem D2.op {o : Op α} (ho : o.blind = true) : D2 E (.op o) (.op o) := by
  rintro R R' n s _ hR ⟨hs, is, hi, rfl⟩
  have h1 := op_unary (o := o) hs
  have h2 := op_twin (is := is) hs ho
  unfold runWith
  generalize Op.run o s = x at h1 h2
  generalize Op.run o (s.twin E is) = y at h2
  cases x with
  | ok a s' =>
    cases y with
    | ok a' t' =>
      obtain ⟨rfl, x, e1, e2⟩ := h2
      rcases h1 with h1 | h1
      · exact .inl ⟨rfl, h1, _, by rw [e1]; exact hi.append x, e2⟩
      · exact .inr (.inl (.inl h1))
    | _ => cases h2
  | err s' =>
    cases y with
    | err t' =>
      obtain ⟨x, e1, e2⟩ := h2
      rcases h1 with h1 | h1
      · exact .inl ⟨h1, _, by rw [e1]; exact hi.append x, e2⟩
      · exact .inr (.inl (.inl h1))
    | _ => cases h2
  | panic m => cases y <;> first | exact .inl h2 | cases h2
  | oof => cases y <;> first | exact .inl h2 | cases h2

theorem D2.throw : D2 E (α := α) .throw .throw := fun _ _ _ _ _ _ hs => .inl hs
theorem D2.panic {m : String} : D2 E (α := α) (.panic m) (.panic m) := fun _ _ _ _ _ _ _ => .inl rfl
theorem D2.call {f : Fn α} : D2 E (.call f) (.call f) := fun _ _ _ s t hR hs => hR.both _ f s t hs

/-! ### What depends on the options -/

/-- The two dialects. -/
theorem D2.dialect {f : Dialect → Prog β} (h : ∀ d, D2 E (f d) (f d)) (h' : Differ E.o E.o' → D2 E (f E.o.dialect) (f E.o'.dialect)) :
    D2 E (.bind (.op .dialect) f) (.bind (.op .dialect) f) := by
  intro R R' n s t hR hs
  have : OutD E (runWith R n (f s.opts.dialect) s) (runWith R' n (f E.o'.dialect) t) := by
    rw [hs.1.opts]
    by_cases hd : E.o.dialect = E.o'.dialect
    · rw [hd]; exact h _ R R' n s t hR hs
    · exact h' hd R R' n s t hR hs
  obtain ⟨h1, is, h2, rfl⟩ := hs
  exact this

theorem D2.flag {d : Dialect} {f : Bool → Prog β} (h : ∀ b, D2 E (f b) (f b)) (h' : Differ E.o E.o' → D2 E (f true) (f false) ∧ D2 E (f false) (f true)) :
    D2 E (.bind (.bind (.op .dialect) fun x => .ret (decide (x = d))) f) (.bind (.bind (.op .dialect) fun x => .ret (decide (x = d))) f) := by
  have := D2.dialect (E := E) (f := fun x => f (decide (x = d))) (fun _ => h _) (fun hd => by
    have := h' hd
    cases decide (E.o.dialect = d) <;> cases decide (E.o'.dialect = d) <;> first | exact this.1 | exact this.2 | exact h _)
  exact this

theorem D2.isPg {f : Bool → Prog β} (h : ∀ b, D2 E (f b) (f b)) (h' : Differ E.o E.o' → D2 E (f true) (f false) ∧ D2 E (f false) (f true)) :
    D2 E (isPg >>= f) (isPg >>= f) := D2.flag h h'
theorem D2.isMaria {f : Bool → Prog β} (h : ∀ b, D2 E (f b) (f b)) (h' : Differ E.o E.o' → D2 E (f true) (f false) ∧ D2 E (f false) (f true)) :
    D2 E (isMaria >>= f) (isMaria >>= f) := D2.flag h h'
theorem D2.isSqlite {f : Bool → Prog β} (h : ∀ b, D2 E (f b) (f b)) (h' : Differ E.o E.o' → D2 E (f true) (f false) ∧ D2 E (f false) (f true)) :
    D2 E (isSqlite >>= f) (isSqlite >>= f) := D2.flag h h'

theorem D2.arguments {f : Arguments → Prog β} (he : E.o.arguments = E.o'.arguments) (h : ∀ d, D2 E (f d) (f d)) :
    D2 E (.bind (.op .arguments) f) (.bind (.op .arguments) f) := by
  intro R R' n s t hR hs
  have : OutD E (runWith R n (f s.opts.arguments) s) (runWith R' n (f E.o'.arguments) t) := by
    rw [hs.1.opts, he]
    exact h _ R R' n s t hR hs
  obtain ⟨h1, is, h2, rfl⟩ := hs
  exact this

theorem D2.listHack {f : Bool → Prog β} (h : ∀ b b', (E.o.listHack = E.o'.listHack → b = b') → D2 E (f b) (f b')) :
    D2 E (.bind (.op .listHack) f) (.bind (.op .listHack) f) := by
  intro R R' n s t hR hs
  have : OutD E (runWith R n (f s.opts.listHack) s) (runWith R' n (f E.o'.listHack) t) := by
    rw [hs.1.opts]
    exact h _ _ id R R' n s t hR hs
  obtain ⟨h1, is, h2, rfl⟩ := hs
  exact this

/-- `p` always reports an Error. -/
def Errs (E : Dsrc) (p : Prog α) : Prop := ∀ R n s, TokD E s → OutG Bad (runWith R n p s)

theorem Errs.left {p q : Prog α} (hd : Differ E.o E.o') (h : Errs E p) : D2 E p q :=
  fun R _ n s _ _ hs => .inr (.inl (outG_imp (fun _ h => .inr ⟨hd, h⟩) (h R n s ⟨hs.1.checked, hs.1.tok, hs.1.peek, hs.1.ahead⟩)))
theorem Errs.right {p q : Prog α} (hd : Differ E.o E.o') (h : Errs E q) : D2 E p q :=
  fun _ R n s _ _ ⟨hs, _, _, e⟩ => .inr (.inr ⟨hd, h R n _ (e ▸ ⟨hs.checked, hs.tok, hs.peek, hs.ahead⟩)⟩)

theorem issue_bad {s : St} {m : Msg} {sp : Span} {fr : List (String × Span)} (hm : m ∉ dialectMessages) : OutG Bad (s.issue .error m sp fr) := by
  unfold St.issue
  split
  · exact ⟨_, List.mem_append_right _ (List.mem_singleton.mpr rfl), rfl, by simp [Issue.aboutDialect, hm]⟩
  · trivial
theorem expected_other {w : Wanted} : Msg.expected w ∉ dialectMessages := by simp [dialectMessages]

/-- Something about the dialect is reported, and nothing else happens. -/
def OutSays (s : St) : Out Unit → Prop
  | .ok _ s' => ∃ x, s' = { s with issues := s.issues ++ x } ∧ apartFromDialect x = []
  | .panic _ => True
  | _ => False

/-- `p` reports something about the dialect and does nothing else. -/
def Says (p : Prog Unit) : Prop := ∀ R n s, OutSays s (runWith R n p s)

theorem issue_says {s : St} {m : Msg} {sp : Span} {fr : List (String × Span)} (hm : m ∈ dialectMessages) : OutSays s (s.issue .error m sp fr) := by
  unfold St.issue
  split
  · exact ⟨_, rfl, by simp [apartFromDialect, Issue.aboutDialect, hm]⟩
  · trivial
theorem says_err {m : Msg} {sp : Span} {fr : List (String × Span)} (hm : m ∈ dialectMessages) : Says (err m sp fr) := fun _ _ _ => issue_says hm
theorem says_spanErr {γ : Type} [ToF γ] {a : γ} {m : Msg} {fr : Span → List (String × Span)} (hm : m ∈ dialectMessages) : Says (spanOf a >>= fun sp => err m sp (fr sp)) := by
  intro R n s
  show OutSays s (runWith R n (.bind (spanOf a) _) s)
  unfold spanOf
  split
  · exact issue_says hm
  · trivial
  · trivial

theorem apart_append {i x : List Issue} (h : apartFromDialect x = []) : apartFromDialect (i ++ x) = apartFromDialect i := by
  unfold apartFromDialect at *
  rw [List.filter_append, h, List.append_nil]
theorem Says.left {p : Prog Unit} (hd : Differ E.o E.o') (h : Says p) : D2 E p (.ret ()) := by
  rintro R R' n s _ hR ⟨hs, is, hi, rfl⟩
  have h1 := h R n s
  revert h1
  generalize runWith R n p s = o
  intro h1
  cases o with
  | ok a s' =>
    obtain ⟨x, rfl, hx⟩ := h1
    exact .inl ⟨rfl, ⟨hs.checked, hs.opts, hs.tok, hs.peek, hs.ahead⟩, is, .inr ⟨hd, (apart_append hx).trans (by rcases hi with rfl | ⟨-, h⟩; rfl; exact h)⟩, rfl⟩
  | panic m => exact .inr (.inl trivial)
  | err s' => cases h1
  | oof => cases h1
theorem Says.right {p : Prog Unit} (hd : Differ E.o E.o') (h : Says p) : D2 E (.ret ()) p := by
  rintro R R' n s _ hR ⟨hs, is, hi, rfl⟩
  have h1 := h R' n (s.twin E is)
  revert h1
  generalize runWith R' n p (s.twin E is) = o
  intro h1
  cases o with
  | ok a s' =>
    obtain ⟨x, rfl, hx⟩ := h1
    exact .inl ⟨rfl, hs, is ++ x, .inr ⟨hd, Eq.trans (by rcases hi with rfl | ⟨-, h⟩; rfl; exact h) (apart_append hx).symm⟩, rfl⟩
  | panic m => exact .inr (.inr ⟨hd, trivial⟩)
  | err s' => cases h1
  | oof => cases h1

theorem errs_expectedFailure {w : Wanted} : Errs E (expectedFailure (α := α) w) := by
  intro R n s h
  have h1 : OutG Bad (s.issue .error (.expected w) s.span []) := issue_bad expected_other
  have h2 : runWith R n (expectedError w) s = s.issue .error (.expected w) s.span [] := by unfold expectedError; rfl
  show OutG Bad (runWith R n (.bind (expectedError w) fun _ => .throw) s)
  unfold runWith
  rw [h2]
  revert h1
  generalize s.issue .error (.expected w) s.span [] = o
  cases o <;> exact id
theorem errs_ckw {k : Keyword} (hk : ∀ t, AlikeOpt E.o E.o' t → t.isKw k = false) : Errs E (ckw k) := by
  intro R n s h
  have h1 := hk _ h.tok
  show OutG Bad (runWith R n ((fun (x : Token × Span) => match x.1 with
  | .ident v k' =>
    if k' = k then (capsWarn v x.2 >>= fun _ => consume)
    else expectedFailure (.kw k)
  | _ => expectedFailure (.kw k)) (s.token, s.span)) s)
  dsimp only
  split
  · next v k' hv =>
    rw [hv] at h1
    rw [if_neg (by intro hk; subst hk; simp [Token.isKw] at h1)]
    exact errs_expectedFailure R n s h
  · exact errs_expectedFailure R n s h

/-! ### Going through programs -/

instance da_ret {a : α} : DA E (Prog.ret a) := ⟨.ret⟩
instance da_pure {a : α} : DA E (pure a : Prog α) := ⟨.ret⟩
instance da_bind {p : Prog α} {f : α → Prog β} [h : DA E p] [hf : ∀ a, DA E (f a)] : DA E (Prog.bind p f) := ⟨.bind h.h fun a => (hf a).h⟩
instance da_bind' {p : Prog α} {f : α → Prog β} [h : DA E p] [hf : ∀ a, DA E (f a)] : DA E (p >>= f) := ⟨.bind h.h fun a => (hf a).h⟩
instance da_throw : DA E (α := α) .throw := ⟨.throw⟩
instance da_tryP {p : Prog α} [h : DA E p] : DA E (Prog.tryP p) := ⟨.tryP h.h⟩
instance da_loop {body : σ → Prog (Step σ β)} {init : σ} [h : ∀ x, DA E (body x)] : DA E (Prog.loop body init) := ⟨.loop fun x => (h x).h⟩
instance da_call {f : Fn α} : DA E (Prog.call f) := ⟨.call⟩
instance da_panic {m : String} : DA E (α := α) (.panic m) := ⟨.panic⟩
instance da_issue {l : Level} {m : Msg} {sp : Span} {fr : List (String × Span)} : DA E (.op (.issue l m sp fr)) := ⟨.op rfl⟩
instance da_cur : DA E (.op .cur) := ⟨.op rfl⟩
instance da_next : DA E (.op .next) := ⟨.op rfl⟩
instance da_left : DA E (.op .leftParenAhead) := ⟨.op rfl⟩
instance da_issueIf {f : WarnFlag} {l : Level} {v : List Char} {sp : Span} : DA E (.op (.issueIf f l v sp)) := ⟨.op rfl⟩
instance da_takeArg : DA E (.op .takeArg) := ⟨.op rfl⟩
instance da_delim : DA E (.op .delim) := ⟨.op rfl⟩
instance da_setDelim {t : Token} : DA E (.op (.setDelim t)) := ⟨.op rfl⟩
instance da_permit : DA E (.op .permit) := ⟨.op rfl⟩
instance da_setPermit {b : Bool} : DA E (.op (.setPermit b)) := ⟨.op rfl⟩
instance da_stdin : DA E (.op .stdin) := ⟨.op rfl⟩
theorem da_if {c : Prop} [Decidable c] {p q : Prog α} (h : DA E p) (h' : DA E q) : DA E (if c then p else q) := by split <;> assumption
instance da_ite {c : Prop} [Decidable c] {p q : Prog α} [h : DA E p] [h' : DA E q] : DA E (if c then p else q) := da_if h h'
theorem DA.bind {p : Prog α} {f : α → Prog β} (h : DA E p) (hf : ∀ a, DA E (f a)) : DA E (.bind p f) := ⟨.bind h.h fun a => (hf a).h⟩
theorem DA.onPg {f : Bool → Prog β} (h : ∀ b, DA E (f b)) (h' : Differ E.o E.o' → D2 E (f true) (f false) ∧ D2 E (f false) (f true)) :
    DA E (isPg >>= f) := ⟨.isPg (fun b => (h b).h) h'⟩
theorem DA.onMaria {f : Bool → Prog β} (h : ∀ b, DA E (f b)) (h' : Differ E.o E.o' → D2 E (f true) (f false) ∧ D2 E (f false) (f true)) :
    DA E (isMaria >>= f) := ⟨.isMaria (fun b => (h b).h) h'⟩
theorem DA.onSqlite {f : Bool → Prog β} (h : ∀ b, DA E (f b)) (h' : Differ E.o E.o' → D2 E (f true) (f false) ∧ D2 E (f false) (f true)) :
    DA E (isSqlite >>= f) := ⟨.isSqlite (fun b => (h b).h) h'⟩

/-- An Error in one of the two dialects. -/
theorem D2.when {c c' : Bool} {p : Prog Unit} (hd : Differ E.o E.o') (hp : Says p) (hq : DA E p) : D2 E (Prog.when c p) (Prog.when c' p) := by
  cases c <;> cases c'
  · exact .ret
  · exact hp.right hd
  · exact hp.left hd
  · exact hq.h
theorem D2.whenBind {c c' : Bool} {p : Prog Unit} {f : Unit → Prog β} (hd : Differ E.o E.o') (hp : Says p) (hq : DA E p) (hf : ∀ a, DA E (f a)) :
    D2 E (Prog.when c p >>= f) (Prog.when c' p >>= f) := .bind (.when hd hp hq) fun a => (hf a).h

theorem D2.cur {f g : Token × Span → Prog β} (h : ∀ x, AlikeOpt E.o E.o' x.1 → D2 E (f x) (g x)) : D2 E (.bind (.op .cur) f) (.bind (.op .cur) g) := by
  rintro R R' n s _ hR ⟨hs, is, hi, rfl⟩
  exact h (s.token, s.span) hs.tok R R' n s _ hR ⟨hs, is, hi, rfl⟩
theorem D2.curT {f g : Token → Prog β} (h : ∀ x, AlikeOpt E.o E.o' x → D2 E (f x) (g x)) : D2 E (SqlParse.curT >>= f) (SqlParse.curT >>= g) := by
  rintro R R' n s _ hR ⟨hs, is, hi, rfl⟩
  exact h s.token hs.tok R R' n s _ hR ⟨hs, is, hi, rfl⟩

theorem DA.pgErr {c : Bool → Bool} {p : Prog Unit} {f : Unit → Prog β} (hp : Says p) (hq : DA E p) (hf : ∀ a, DA E (f a)) :
    DA E (isPg >>= fun b => Prog.when (c b) p >>= f) :=
  .onPg (fun b => ⟨.bind (by unfold Prog.when; split; exact hq.h; exact .ret) fun a => (hf a).h⟩) fun hd => ⟨.whenBind hd hp hq hf, .whenBind hd hp hq hf⟩
theorem DA.mariaErr {c : Bool → Bool} {p : Prog Unit} {f : Unit → Prog β} (hp : Says p) (hq : DA E p) (hf : ∀ a, DA E (f a)) :
    DA E (isMaria >>= fun b => Prog.when (c b) p >>= f) :=
  .onMaria (fun b => ⟨.bind (by unfold Prog.when; split; exact hq.h; exact .ret) fun a => (hf a).h⟩) fun hd => ⟨.whenBind hd hp hq hf, .whenBind hd hp hq hf⟩
theorem DA.pgErr' {c : Bool → Bool} {p : Prog Unit} (hp : Says p) (hq : DA E p) :
    DA E (isPg >>= fun b => Prog.when (c b) p) :=
  .onPg (fun b => ⟨by unfold Prog.when; split; exact hq.h; exact .ret⟩) fun hd => ⟨.when hd hp hq, .when hd hp hq⟩
theorem DA.mariaErr' {c : Bool → Bool} {p : Prog Unit} (hp : Says p) (hq : DA E p) :
    DA E (isMaria >>= fun b => Prog.when (c b) p) :=
  .onMaria (fun b => ⟨by unfold Prog.when; split; exact hq.h; exact .ret⟩) fun hd => ⟨.when hd hp hq, .when hd hp hq⟩

theorem D2.ite {c : Prop} [Decidable c] {p p' q q' : Prog α} (h : D2 E p q) (h' : D2 E p' q') : D2 E (if c then p else p') (if c then q else q') := by split <;> assumption
theorem D2.ite' {c : Prop} [Decidable c] {p p' q q' : Prog α} (h : c → D2 E p q) (h' : ¬ c → D2 E p' q') : D2 E (if c then p else p') (if c then q else q') := by
  split
  · next hc => exact h hc
  · next hc => exact h' hc

theorem run_bind_ret {R : ∀ α, Fn α → St → Out α} {n : Nat} {p : Prog α} {s : St} : runWith R n (.bind p .ret) s = runWith R n p s := by
  conv => lhs; unfold runWith
  generalize runWith R n p s = o
  cases o <;> rfl
theorem D2.bindR {p q : Prog α} {f : α → Prog α} (h : D2 E p q) (hf : ∀ a, D2 E (f a) (.ret a)) : D2 E (p >>= f) q := by
  intro R R' n s t hR hs
  rw [← run_bind_ret (p := q)]
  exact D2.bind h hf R R' n s t hR hs
theorem D2.bindL {p q : Prog α} {f : α → Prog α} (h : D2 E p q) (hf : ∀ a, D2 E (.ret a) (f a)) : D2 E p (q >>= f) := by
  intro R R' n s t hR hs
  rw [← run_bind_ret (p := p)]
  exact D2.bind h hf R R' n s t hR hs

theorem Errs.bindRet {p : Prog α} {g : α → β} (h : Errs E p) : Errs E (.bind p fun a => .ret (g a)) := by
  intro R n s hs
  have h1 := h R n s hs
  unfold runWith
  generalize runWith R n p s = o at h1
  cases o <;> exact h1

theorem next_tk {s : St} (h : TokD E s) : OutG (TokD E) s.next := by
  obtain ⟨h1, h3, h4, h5⟩ := h
  unfold St.next
  split
  · next q hq => exact ⟨h1, h4 _ hq, fun _ h => (by cases h), h5⟩
  · next hq =>
    split
    · next t sp lx he =>
      rw [h1] at he
      exact ⟨h1, h5.now he, fun _ h => (by rw [hq] at h; cases h), h5.step he⟩
    · trivial
theorem issue_tk {s : St} {l : Level} {m : Msg} {sp : Span} {fr : List (String × Span)} (h : TokD E s) : OutG (TokD E) (s.issue l m sp fr) := by
  unfold St.issue
  split
  · exact ⟨h.checked, h.tok, h.peek, h.ahead⟩
  · trivial

/-- A result in a state as before, or an Error. -/
def OutT (E : Dsrc) : Out α → Prop
  | .ok _ s => TokD E s
  | .err s => Bad s
  | _ => True

theorem Errs.after {p : Prog α} {f : α → Prog β} (h : ∀ R n s, TokD E s → OutT E (runWith R n p s)) (hf : ∀ a, Errs E (f a)) : Errs E (.bind p f) := by
  intro R n s hs
  have h1 := h R n s hs
  unfold runWith
  generalize runWith R n p s = o at h1
  cases o with
  | ok a s' => exact hf a R n s' h1
  | err s' => exact h1
  | panic m => trivial
  | oof => trivial

theorem capsWarn_tk {R : ∀ α, Fn α → St → Out α} {n : Nat} {v : List Char} {sp : Span} {s : St} (h : TokD E s) : OutG (TokD E) (runWith R n (capsWarn v sp) s) ∧ ∀ s', runWith R n (capsWarn v sp) s ≠ .err s' := by
  unfold capsWarn Prog.when
  split
  · show OutG (TokD E) (if s.opts.flag .caps then s.issue _ _ _ _ else .ok () s) ∧ ∀ s', (if s.opts.flag .caps then s.issue _ _ _ _ else .ok () s) ≠ .err s'
    split
    · refine ⟨issue_tk h, ?_⟩
      unfold St.issue
      split
      · intro _ h; cases h
      · intro _ h; cases h
    · exact ⟨h, fun _ h => by cases h⟩
  · exact ⟨h, fun _ h => by cases h⟩

theorem consume_tk {R : ∀ α, Fn α → St → Out α} {n : Nat} {s : St} (h : TokD E s) : OutT E (runWith R n consume s) := by
  have h1 := next_tk h
  have h2 : ∀ s', s.next ≠ .err s' := by
    unfold St.next
    intro s' h
    split at h
    · cases h
    · split at h <;> cases h
  show OutT E (runWith R n (.bind next fun _ => .ret s.span) s)
  have e : runWith R n next s = s.next := rfl
  unfold runWith
  rw [e]
  generalize s.next = o at h1 h2
  cases o with
  | ok a s' => exact h1
  | err s' => exact absurd rfl (h2 s')
  | panic m => trivial
  | oof => trivial

theorem ckw_tk {k : Keyword} {R : ∀ α, Fn α → St → Out α} {n : Nat} {s : St} (h : TokD E s) : OutT E (runWith R n (ckw k) s) := by
  have bad : OutT E (runWith R n (expectedFailure (α := Span) (.kw k)) s) := by
    have h1 := errs_expectedFailure (α := Span) (w := .kw k) R n s h
    have h2 : ∀ a s', runWith R n (expectedFailure (α := Span) (.kw k)) s ≠ .ok a s' := by
      intro a s'
      show runWith R n (.bind (expectedError (.kw k)) fun _ => .throw) s ≠ _
      unfold runWith
      generalize runWith R n (expectedError (.kw k)) s = o
      cases o <;> exact fun h => by cases h
    generalize runWith R n (expectedFailure (α := Span) (.kw k)) s = o at h1 h2
    cases o with
    | ok a s' => exact absurd rfl (h2 a s')
    | err s' => exact h1
    | panic m => trivial
    | oof => trivial
  show OutT E (runWith R n ((fun (x : Token × Span) => match x.1 with
  | .ident v k' =>
    if k' = k then (Prog.bind (capsWarn v x.2) fun _ => consume)
    else expectedFailure (.kw k)
  | _ => expectedFailure (.kw k)) (s.token, s.span)) s)
  dsimp only
  split
  · split
    · next v k' hv _ =>
      obtain ⟨h1, h2⟩ := capsWarn_tk (R := R) (n := n) (v := v) (sp := s.span) h
      unfold runWith
      generalize runWith R n (capsWarn v s.span) s = o at h1 h2
      cases o with
      | ok a s' => exact consume_tk h1
      | err s' => exact absurd rfl (h2 s')
      | panic m => trivial
      | oof => trivial
    · exact bad
  · exact bad

theorem skw_no {k : Keyword} (hk : ∀ t, AlikeOpt E.o E.o' t → t.isKw k = false) : D2 E (skw k) (.ret none) ∧ D2 E (.ret none) (skw k) := by
  have h : ∀ R n s, TokD E s → runWith R n (skw k) s = .ok none s := by
    intro R n s h
    have h1 := hk _ h.tok
    show runWith R n ((fun (x : Token × Span) => match x.1 with
    | .ident v k' =>
      if k' = k then (capsWarn v x.2 >>= fun _ => consume >>= fun s => pure (some s))
      else pure none
    | _ => pure none) (s.token, s.span)) s = _
    dsimp only
    split
    · next v k' hv =>
      rw [hv] at h1
      rw [if_neg (by intro hk; subst hk; simp [Token.isKw] at h1)]
      rfl
    · rfl
  constructor
  · rintro R R' n s t hR ⟨hs, hi⟩
    rw [h R n s ⟨hs.checked, hs.tok, hs.peek, hs.ahead⟩]
    exact .inl ⟨rfl, hs, hi⟩
  · rintro R R' n s t hR ⟨hs, is, hi, rfl⟩
    rw [h R' n (s.twin E is) ⟨hs.checked, hs.tok, hs.peek, hs.ahead⟩]
    exact .inl ⟨rfl, hs, is, hi, rfl⟩

theorem D2.flag2 {d : Dialect} {f g : Bool → Prog β} (h : ∀ b b', (Differ E.o E.o' ∨ b = b') → D2 E (f b) (g b')) :
    D2 E (.bind (.bind (.op .dialect) fun x => .ret (decide (x = d))) f) (.bind (.bind (.op .dialect) fun x => .ret (decide (x = d))) g) := by
  intro R R' n s t hR hs
  have : OutD E (runWith R n (f (decide (s.opts.dialect = d))) s) (runWith R' n (g (decide (E.o'.dialect = d))) t) := by
    rw [hs.1.opts]
    refine h _ _ ?_ R R' n s t hR hs
    by_cases hd : E.o.dialect = E.o'.dialect
    · exact .inr (by rw [hd])
    · exact .inl hd
  obtain ⟨h1, is, h2, rfl⟩ := hs
  exact this
theorem D2.isPg2 {f g : Bool → Prog β} (h : ∀ b b', (Differ E.o E.o' ∨ b = b') → D2 E (f b) (g b')) : D2 E (SqlParse.isPg >>= f) (SqlParse.isPg >>= g) := D2.flag2 h
theorem D2.isMaria2 {f g : Bool → Prog β} (h : ∀ b b', (Differ E.o E.o' ∨ b = b') → D2 E (f b) (g b')) : D2 E (SqlParse.isMaria >>= f) (SqlParse.isMaria >>= g) := D2.flag2 h
theorem D2.when2 {c c' : Bool} {p : Prog Unit} (hc : Differ E.o E.o' ∨ c = c') (hp : Says p) (hq : DA E p) : D2 E (Prog.when c p) (Prog.when c' p) := by
  rcases hc with hd | rfl
  · exact .when hd hp hq
  · unfold Prog.when
    exact D2.ite hq.h .ret

theorem Errs.leftBind {p : Prog α} {f : α → Prog β} {q : Prog β} (hd : Differ E.o E.o') (h : Errs E p) : D2 E (.bind p f) q := by
  rintro R R' n s t hR ⟨hs, -⟩
  have h1 := h R n s ⟨hs.checked, hs.tok, hs.peek, hs.ahead⟩
  refine .inr (.inl ?_)
  unfold runWith
  generalize runWith R n p s = o at h1
  cases o with
  | ok a s' => exact hR.pastL (.inr ⟨hd, h1⟩)
  | err s' => exact .inr ⟨hd, h1⟩
  | panic m => trivial
  | oof => trivial

/-- Go through a program. -/
macro "da" : tactic => `(tactic| repeat' first
  | infer_instance
  | intro _
  | refine DA.pgErr (says_err (by decide)) ?_ ?_
  | refine DA.pgErr (says_spanErr (by decide)) ?_ ?_
  | refine DA.pgErr' (says_err (by decide)) ?_
  | refine DA.pgErr' (says_spanErr (by decide)) ?_
  | refine DA.mariaErr (says_err (by decide)) ?_ ?_
  | refine DA.mariaErr (says_spanErr (by decide)) ?_ ?_
  | refine DA.mariaErr' (says_err (by decide)) ?_
  | refine DA.mariaErr' (says_spanErr (by decide)) ?_
  | refine @DA.bind _ _ _ _ _ ?_ ?_
  | refine @da_tryP _ _ _ ?_
  | refine @da_loop _ _ _ _ _ ?_
  | refine da_if ?_ ?_
  | split
  | dsimp only)

end SqlParse
