import Verif.Proofs.Cut
import Verif.Api
/-! The first keyword of a statement is checked for capitals. -/
namespace SqlParse

/-- A warning that the word `v` at `sp` should be in capitals. -/
def CapsWarned (v : List Char) (sp : Span) (s : St) : Prop := ∃ i ∈ s.issues, i.level = .warning ∧ i.message = .caps v ∧ i.span = sp

theorem issue_warned {v : List Char} {x : Span} {s : St} (h : CapsWarned v x s) (l : Level) (m : Msg) (sp : Span) (fr) :
    OutG (CapsWarned v x) (s.issue l m sp fr) := by
  unfold St.issue
  split
  · obtain ⟨i, h1, h2⟩ := h
    exact ⟨i, List.mem_append.2 (.inl h1), h2⟩
  · trivial

theorem next_warned {v : List Char} {x : Span} {s : St} (h : CapsWarned v x s) : OutG (CapsWarned v x) s.next := by
  unfold St.next
  split
  · exact h
  · split
    · exact h
    · trivial

theorem op_warned {v : List Char} {x : Span} {α : Type} (o : Op α) (s : St) (h : CapsWarned v x s) : OutG (CapsWarned v x) (o.run s) := by
  cases o with
  | next => exact next_warned h
  | cur => exact h
  | leftParenAhead =>
    simp only [Op.run]
    split
    · split
      · exact h
      · split
        · exact h
        · trivial
    · exact h
  | issue l m sp fr => exact issue_warned h _ _ _ _
  | issueIf f l v sp =>
    simp only [Op.run]
    split
    · exact issue_warned h _ _ _ _
    · exact h
  | takeArg =>
    have := next_warned (s := { s with arg := s.arg + 1, argLog := s.argLog ++ [s.span] }) h
    simp only [Op.run]
    revert this
    generalize St.next { s with arg := s.arg + 1, argLog := s.argLog ++ [s.span] } = o
    cases o <;> exact id
  | delim => exact h
  | setDelim t => exact h
  | permit => exact h
  | setPermit x => exact h
  | dialect => exact h
  | arguments => exact h
  | listHack => exact h
  | stdin =>
    simp only [Op.run]
    split
    · trivial
    · next d sp lx _ =>
      have := next_warned (s := { s with lx := lx, dataLog := s.dataLog ++ [(s.span, d, sp)] }) h
      revert this
      generalize St.next { s with lx := lx, dataLog := s.dataLog ++ [(s.span, d, sp)] } = o
      cases o <;> exact id

/-- Run where the current token is a word `v` with keyword `k`, not in capitals, the program warns about it. -/
def FirstW (k : Keyword) {α : Type} (p : Prog α) : Prop :=
  ∀ n s v, s.token = .ident v k → s.opts.warnCaps = true → allUpper v = false → s.permit = false → OutG (CapsWarned v s.span) (p.run n s)

theorem run_warned {v : List Char} {x : Span} {α : Type} (n : Nat) (p : Prog α) {s : St} (h : CapsWarned v x s) : OutG (CapsWarned v x) (p.run n s) :=
  runWith_keeps (G := CapsWarned v x) op_warned (runFn_keeps op_warned n) n p s h

theorem FirstW.bind {k : Keyword} {α β : Type} {p : Prog α} {f : α → Prog β} (h : FirstW k p) : FirstW k (p >>= f) := by
  intro n s v h1 h2 h3 hp
  have := h n s v h1 h2 h3 hp
  show OutG _ (runWith (runFn n) n (.bind p f) s)
  unfold runWith
  unfold Prog.run at this
  revert this
  generalize runWith (runFn n) n p s = o
  cases o with
  | ok a s' => exact fun h => run_warned n (f a) h
  | err s' => exact id
  | panic m => exact id
  | oof => exact id

/-- Look at the current token first. -/
theorem FirstW.cur {k : Keyword} {β : Type} {f : Token → Prog β} (h : ∀ v, FirstW k (f (.ident v k))) : FirstW k (curT >>= f) := by
  intro n s v h1 h2 h3 hp
  have := h v n s v h1 h2 h3 hp
  rw [← h1] at this
  exact this

theorem FirstW.read {k : Keyword} {α β : Type} {o : Op α} {f : α → Prog β} {g : St → α} (ho : ∀ s, o.run s = .ok (g s) s) (h : ∀ a, FirstW k (f a)) :
    FirstW k (Prog.op o >>= f) := by
  intro n s v h1 h2 h3 hp
  show OutG _ (runWith (runFn n) n (.bind (.op o) f) s)
  unfold runWith
  rw [show runWith (runFn n) n (.op o) s = .ok (g s) s from ho s]
  exact h (g s) n s v h1 h2 h3 hp

theorem FirstW.ckw (k : Keyword) : FirstW k (ckw k) := by
  intro n s v h1 h2 h3 hp
  have e : SqlParse.ckw k = (SqlParse.cur >>= fun (x : Token × Span) => match x.1 with
    | .ident v k' => if k' = k then (capsWarn v x.2 >>= fun _ => consume) else expectedFailure (.kw k)
    | _ => expectedFailure (.kw k)) := rfl
  have h4 : (SqlParse.ckw k).run n s = (capsWarn v s.span >>= fun _ => consume).run n s := by
    rw [e]
    show runWith (runFn n) n (match s.token with
      | .ident v k' => if k' = k then (capsWarn v s.span >>= fun _ => consume) else expectedFailure (.kw k)
      | _ => expectedFailure (.kw k)) s = _
    rw [h1]
    simp only [if_true]
    rfl
  rw [h4]
  show OutG _ (runWith (runFn n) n (.bind (capsWarn v s.span) fun _ => consume) s)
  unfold runWith
  have h5 : OutG (CapsWarned v s.span) (runWith (runFn n) n (capsWarn v s.span) s) := by
    unfold capsWarn
    rw [h3]
    show OutG _ (if s.opts.flag .caps then s.issue .warning (WarnFlag.caps.msg v) s.span [] else .ok () s)
    rw [show s.opts.flag .caps = true from h2, if_pos rfl]
    unfold St.issue
    split
    · exact ⟨_, List.mem_append.2 (.inr (List.mem_singleton.2 rfl)), rfl, rfl, rfl⟩
    · trivial
  revert h5
  generalize runWith (runFn n) n (capsWarn v s.span) s = o
  cases o with
  | ok a s' => exact fun h => run_warned n consume h
  | err s' => exact id
  | panic m => exact id
  | oof => exact id

/-- The keywords that begin a statement and are checked. -/
def firstKeywords : List Keyword := [.CREATE, .DROP, .SELECT, .DELETE, .UPDATE, .SET, .SIGNAL, .BEGIN, .END, .START, .COMMIT, .IF, .RETURN, .ALTER, .CASE, .COPY, .DO, .TRUNCATE,
  .RENAME, .WITH]

theorem FirstW.tryP {k : Keyword} {α : Type} {p : Prog α} (h : FirstW k p) : FirstW k (.tryP p) := by
  intro n s v h1 h2 h3 hp
  have := h n s v h1 h2 h3 hp
  show OutG _ (runWith (runFn n) n (.tryP p) s)
  unfold runWith
  unfold Prog.run at this
  revert this
  generalize runWith (runFn n) n p s = o
  cases o <;> exact id

theorem firstW_call {k : Keyword} {α : Type} {f : Fn α} (h : FirstW k (body f)) : FirstW k (.call f) := by
  intro n s v h1 h2 h3 hp
  show OutG _ (runFn n α f s)
  cases n with
  | zero => trivial
  | succ n => exact h n s v h1 h2 h3 hp

theorem compound_first : FirstW .SELECT compoundQuery := by
  unfold compoundQuery
  refine FirstW.bind ?_
  unfold compoundBottom
  refine FirstW.cur fun v => ?_
  simp only [reduceCtorEq, if_false, show (Token.ident v .SELECT).isKw .SELECT = true by simp [Token.isKw], if_true]
  unfold parseSelect
  exact FirstW.bind (.ckw _)

theorem dispatch_first {k : Keyword} (hk : k ∈ firstKeywords) : FirstW k (.call .statement) := by
  refine firstW_call ?_
  show FirstW k statementBody
  unfold statementBody
  refine FirstW.cur fun v => ?_
  intro n s v' h1 h2 h3 hp
  show OutG _ (runWith (runFn n) n (stmtDispatch (.ident v k) s.permit) s)
  rw [hp]
  suffices h : FirstW k (stmtDispatch (.ident v k) false) from h n s v' h1 h2 h3 hp
  clear h1 h2 h3 hp
  simp only [firstKeywords, List.mem_cons, List.not_mem_nil, or_false] at hk
  have hs : ∀ {p : Prog Ast}, FirstW k p → FirstW k (stmt p) := fun h => .bind h
  have ho : ∀ {p : Prog SAst}, FirstW k p → FirstW k (ostmt p) := fun h => .bind h
  have e : ∀ p, stmtDispatch (.ident v k) false = p → FirstW k p → FirstW k (stmtDispatch (.ident v k) false) := fun p h h' => h ▸ h'
  rcases hk with rfl | rfl | rfl | rfl | rfl | rfl | rfl | rfl | rfl | rfl | rfl | rfl | rfl | rfl | rfl | rfl | rfl | rfl | rfl | rfl
  · exact e (ostmt parseCreate) rfl (ho (.bind (.ckw _)))
  · exact e (stmt parseDrop) rfl (hs (.bind (.ckw _)))
  · exact e (stmt (.call .compoundQuery)) rfl (hs (firstW_call compound_first))
  · exact e (stmt parseDelete) rfl (hs (.bind (.ckw _)))
  · exact e (stmt parseUpdate) rfl (hs (.bind (.ckw _)))
  · exact e (stmt parseSet) rfl (hs (.bind (.ckw _)))
  · exact e (stmt parseSignal) rfl (hs (.bind (.ckw _)))
  · refine e beginStmt rfl (.read (g := fun s => s.permit) (fun s => rfl) fun p => ?_)
    cases p
    · exact .bind (.ckw _)
    · exact .bind (.bind (.ckw _))
  · exact e (ckw .END >>= fun s => return some (snd% Statement_End [s])) rfl (.bind (.ckw _))
  · exact e (ckws .START [.TRANSACTION] >>= fun s => return some (snd% Statement_StartTransaction [s])) rfl (.bind (.bind (.ckw _)))
  · exact e (ckw .COMMIT >>= fun s => return some (snd% Statement_Commit [s])) rfl (.bind (.ckw _))
  · exact e (ostmt parseIf) rfl (ho (.bind (.ckw _)))
  · exact e (stmt parseReturn) rfl (hs (.bind (.ckw _)))
  · exact e (stmt parseAlter) rfl (hs (.bind (.ckw _)))
  · exact e (ostmt parseCase) rfl (ho (.bind (.ckw _)))
  · exact e (stmt parseCopy) rfl (hs (.bind (.ckw _)))
  · exact e (ostmt parseDo) rfl (ho (.bind (.ckw _)))
  · exact e (stmt parseTruncate) rfl (hs (.bind (.ckw _)))
  · exact e (stmt parseRename) rfl (hs (.bind (.ckw _)))
  · exact e (ostmt parseWith) rfl (ho (.bind (.ckw _)))

theorem single_first {k : Keyword} (hk : k ∈ firstKeywords) : FirstW k singleStatement := by
  unfold singleStatement
  exact .bind (.tryP (dispatch_first hk))

end SqlParse
