import Verif.Proofs.SafeCreate
import Verif.Model.Statement
/-! `SafeT` for statement.rs and with_query.rs. -/
namespace SqlParse
variable {C : Ctx} {P : Token → Prop} {α β σ : Type}

theorem stdin_post {s : St} (hs : Inv C s) (hk : s.token.isKw .LEFT = false ∨ blen C.src ≤ C.hi) :
    Post C s (fun r => good C r.2 ∧ slice C.src r.2.start r.2.stop = some r.1) (Op.run .stdin s) := by
  obtain ⟨d, sp, lx', g1, g2, g3, g4, g5, g6, g7⟩ := readStdin_spec hs.base.lex
  have hpos := hs.base.pos
  have hlo := hs.lo
  have hb := hs.base.tok.bounds
  have hnext : (∃ s', St.next { s with lx := lx', dataLog := s.dataLog ++ [(s.span, d, sp)] } = .ok () s' ∧ Inv C s' ∧ s'.delim = s.delim ∧ s'.permit = s.permit) ∨
      (∃ m, St.next { s with lx := lx', dataLog := s.dataLog ++ [(s.span, d, sp)] } = .panic m ∧ Allowed C m) := by
    cases hp : s.peeked with
    | none =>
      have h0 : BInv { s with lx := lx', dataLog := s.dataLog ++ [(s.span, d, sp)] } :=
        ⟨g2, by simpa [g3] using hs.base.tok, by show s.span.stop ≤ lx'.pos; omega, by simp [hp]⟩
      have hi0 : Inv C { s with lx := lx', dataLog := s.dataLog ++ [(s.span, d, sp)] } :=
        ⟨h0, g3.trans hs.src, hs.isrc, hs.opts, hs.chk, hs.lo, hs.n0, hs.arg, hs.pw, hs.mark, hs.says⟩
      have := next_inv hi0
      simp only [hp] at this ⊢
      rcases this with ⟨s', h1, h2, h3, h4, h5, -⟩ | h
      · exact .inl ⟨s', h1, h2, h4, h5⟩
      · exact .inr h
    | some q =>
      obtain ⟨t, sp'⟩ := q
      have hk := hs.base.peek t sp' hp
      rcases next_inv hs with ⟨s', h1, h2, h3, h4, h5, h6, -⟩ | ⟨m, h1, h2⟩
      · refine .inl ⟨{ s' with lx := lx', dataLog := s.dataLog ++ [(s.span, d, sp)] }, ?_, ?_, h4, h5⟩
        · simp only [St.next, hp] at h1 ⊢
          cases h1
          rfl
        · have e1 : s'.lx = s.lx := by simp only [St.next, hp] at h1; cases h1; rfl
          refine ⟨⟨?_, ?_, ?_, by simp [h6]⟩, g3.trans hs.src, h2.isrc, h2.opts, h2.chk, h2.lo, h2.n0, h2.arg, h2.pw, h2.mark, h2.says⟩
          · have := h2.chk.trans hs.chk.symm
            show LexInv s'.checked lx'
            rw [this]; exact g2
          · show TokOK s'.checked lx'.src s'.token s'.span
            rw [g3, ← e1]
            exact h2.base.tok
          · show s'.span.stop ≤ lx'.pos
            have := h2.base.pos
            rw [e1] at this
            omega
      · simp only [St.next, hp] at h1
        cases h1
  simp only [Op.run, g1]
  rw [hs.src] at g7
  obtain ⟨b1, b2, b3⟩ := slice_isSome_iff.1 ⟨d, g7⟩
  rcases hnext with ⟨s', h1, h2, h4, h5⟩ | ⟨m, h1, h2⟩
  · rw [h1]
    intro hf
    refine ⟨h2, ⟨⟨b1, b2, b3, ?_, .inr (show C.lo ≤ sp.start by omega)⟩, g7⟩, h4, .inl h5⟩
    rcases hk with hk | hk
    · have hp : s.peeked = none := by
        cases hp : s.peeked with
        | none => rfl
        | some p =>
          have := (hs.base.peek p.1 p.2 hp).2.2.2
          rw [hk] at this; cases this
      have hstart : lx'.pos ≤ s'.span.start := by
        unfold St.next at h1
        simp only [hp] at h1
        split at h1
        · next t sp lx hn =>
          have := nextToken_inv g2 hn
          cases h1
          exact this.2.2.1
        · cases h1
      have := hf.hi
      have := h2.base.tok.bounds.2.2.1
      show sp.stop ≤ C.hi
      omega
    · have := b2.le
      show sp.stop ≤ C.hi
      omega
  · rw [h1]; exact fun _ => h2

theorem stdin_safe (h : ∀ t, P t → t.isKw .LEFT = false) :
    SafeT P C (.op .stdin) (fun r => good C r.2 ∧ slice C.src r.2.start r.2.stop = some r.1) := by
  intro R n h1 h2 s hs hP
  rw [runWith_op]
  exact stdin_post hs (.inl (h _ hP))

/-- The program never fails (it may panic or not terminate). -/
def NoErr {α : Type} (p : Prog α) : Prop :=
  ∀ (R : ∀ α, Fn α → St → Out α) n s s', runWith R n p s ≠ .err s'

theorem next_noerr (s s' : St) : s.next ≠ .err s' := by
  unfold St.next
  split
  · simp
  · split <;> simp

theorem NoErr.bind {p : Prog α} {f : α → Prog β} (h1 : NoErr p) (h2 : ∀ a, NoErr (f a)) : NoErr (p >>= f) := by
  intro R n s s'
  show runWith R n (.bind p f) s ≠ _
  unfold runWith
  split
  · exact h2 _ R n _ s'
  · next s1 h => exact absurd h (h1 R n s s1)
  · simp
  · simp

theorem NoErr.ret (a : α) : NoErr (.ret a) := by intro R n s s'; simp [runWith]
theorem NoErr.pure (a : α) : NoErr (pure a : Prog α) := NoErr.ret a
theorem NoErr.tryP (p : Prog α) : NoErr (.tryP p) := by
  intro R n s s'; unfold runWith; split <;> simp
theorem NoErr.loop {body : σ → Prog (Step σ β)} {x : σ} (h : ∀ x, NoErr (body x)) : NoErr (.loop body x) := by
  intro R n s s'
  unfold runWith
  have key : ∀ m x s, loopN (fun x s => runWith R n (body x) s) m x s ≠ .err s' := by
    intro m
    induction m with
    | zero => intro x s; simp [loopN]
    | succ m ih =>
      intro x s
      unfold loopN
      split
      · exact ih _ _
      · simp
      · next s1 hh => exact absurd hh (h x R n s s1)
      · simp
      · simp
  exact key n x s
theorem NoErr.next : NoErr next := by intro R n s s'; exact next_noerr s s'
theorem NoErr.cur : NoErr cur := by intro R n s s'; show Out.ok _ _ ≠ _; simp
theorem NoErr.curT : NoErr curT := NoErr.cur.bind (fun _ => .pure _)
theorem NoErr.curS : NoErr curS := NoErr.cur.bind (fun _ => .pure _)
theorem NoErr.consume : NoErr consume := NoErr.curS.bind (fun _ => NoErr.next.bind (fun _ => .pure _))
theorem NoErr.ite {c : Prop} [Decidable c] {p q : Prog α} (h1 : NoErr p) (h2 : NoErr q) : NoErr (if c then p else q) := by
  split
  · exact h1
  · exact h2
theorem NoErr.stdin : NoErr (.op .stdin) := by
  intro R n s s'
  rw [runWith_op]
  simp only [Op.run]
  split
  · simp
  · split
    · simp
    · next h => exact absurd h (next_noerr _ _)
    · simp
    · simp
theorem NoErr.stk {t : Token} : NoErr (stk t) :=
  NoErr.curT.bind (fun _ => .ite (NoErr.consume.bind (fun _ => .pure _)) (.pure _))
theorem NoErr.skipSemis : NoErr skipSemis :=
  .loop (fun _ => NoErr.bind (NoErr.stk.bind (fun _ => .pure _)) (fun _ => .pure _))
theorem NoErr.stmtListInner : NoErr stmtListInner := by
  refine .loop (fun acc => NoErr.skipSemis.bind (fun _ => (NoErr.tryP _).bind (fun r => ?_)))
  split
  · exact .pure _
  · exact .pure _
  · refine NoErr.curT.bind (fun t => .ite (.pure _) (.ite ?_ ?_))
    · exact NoErr.stdin.bind (fun _ => .pure _)
    · exact NoErr.consume.bind (fun _ => .pure _)

theorem BInv.setDelim {s : St} (h : BInv s) (d : Token) : BInv { s with delim := d } := ⟨h.lex, h.tok, h.pos, h.peek⟩
theorem Inv.setDelim {s : St} (h : Inv C s) (d : Token) : Inv C { s with delim := d } :=
  ⟨h.base.setDelim d, h.src, h.isrc, h.opts, h.chk, h.lo, h.n0, h.arg, h.pw, h.mark, h.says⟩

/-- A block that sets the delimiter and puts it back. -/
theorem delimBlock_safe {t : Token} {p : Prog α} {Q : α → Prop} (hp : Safe C p Q) (hn : NoErr p) :
    SafeT P C (Prog.op .delim >>= fun old => Prog.op (.setDelim t) >>= fun _ => p >>= fun a =>
      Prog.op (.setDelim old) >>= fun _ => pure a) Q := by
  intro R n h1 h2 s hs _
  have h := hp R n h1 h2 _ (hs.setDelim t) trivial
  have hg := runWith_good h1 n p _ (hs.setDelim t).base
  have hne := hn R n { s with delim := t }
  show Post C s Q (runWith R n (.bind p fun a => Prog.op (.setDelim s.delim) >>= fun _ => pure a) { s with delim := t })
  unfold runWith
  revert h hg hne
  cases runWith R n p { s with delim := t } with
  | ok a s1 =>
    intro h hg _
    show Post C s Q (.ok a { s1 with delim := s.delim })
    intro hfut
    obtain ⟨a1, a2, a3, a4⟩ := h ⟨hfut.err, hfut.hi, hfut.arg, hfut.say⟩
    exact ⟨a1.setDelim _, a2, rfl, a4⟩
  | err s1 => intro _ _ h; exact absurd rfl (h s1)
  | panic m => intro h _ _; exact h
  | oof => intro _ _ _; trivial

theorem parseSet_safe : SafeT P C parseSet (good C) := by unfold parseSet; walk
theorem skipSemis_safe : SafeT P C skipSemis (good C) := by unfold skipSemis; walk
theorem stmtListInner_safe : SafeT P C stmtListInner (AccPost C) := by
  refine loop_inv (I := good C) (fun acc hacc => ?_) nil_good
  refine bind_good skipSemis_safe (fun _ _ => tryP_bind callStatement_safe (fun r hr hE => ?_))
  match r with
  | none => exact pure_safe ⟨hacc, fun _ => hE rfl⟩
  | some none => exact pure_safe ⟨hacc, by simp⟩
  | some (some v) =>
    have hv : good C v := hr
    refine curT_bind (fun t _ => ite_safe (fun _ => pure_safe ⟨by gd, by simp⟩) (fun ht => ite_safe (fun _ => ?_) (fun _ => ?_)))
    · refine bind_safe (stdin_safe ?_) (fun r hr => pure_safe ?_)
      · rintro t' rfl
        have : t' = .semiColon := Classical.not_not.1 ht
        subst this; rfl
      · have h1 := hr.1
        have h2 := hr.2
        show good C (acc ++ [v, snd% Statement_Stdin [r.1, r.2]])
        refine app_good hacc (cons_good hv (cons_good ?_ nil_good))
        have h3 : good C r.1 := trivial
        gd
        exact h2
    · exact bind_good consume_safe (fun _ _ => pure_safe (show good C (acc ++ [v]) by gd))
theorem stmtList_safe : SafeT P C stmtList (AccPost C) := delimBlock_safe stmtListInner_safe NoErr.stmtListInner
theorem stmtListReq_safe : SafeT P C stmtListReq (good C) := by
  unfold stmtListReq
  exact bind_safe stmtList_safe (fun r hr => ite_safe (fun _ => pure_safe hr.1) (fun h => throw_safe (hr.2 (by simpa using h))))
theorem exceptionWhens_safe : SafeT P C exceptionWhens (good C) := by unfold exceptionWhens; walk
theorem parseBlock_safe : SafeT P C parseBlock (good C) := by
  unfold parseBlock
  exact bind_good ckw_safe (fun _ _ => bind_good (recoveredAcc_safe stmtList_safe) (fun l hl => bind_good skw_safe (fun _ _ =>
    when_bind' (fun _ => exceptionWhens_safe) (bind_good ckw_safe (fun _ _ => pure_safe hl)))))
theorem parseDo_safe : SafeT P C parseDo (good C) := by unfold parseDo; walk
theorem ifCondition_safe {e : Option Span} (he : good C e) : SafeT P C (ifCondition e) (good C) := by unfold ifCondition; walk
theorem elseStmts_safe : SafeT P C elseStmts (good C) := by unfold elseStmts; walk
theorem ifBody_safe : SafeT P C ifBody (AccPost C) := by
  unfold ifBody
  refine bind_safe (accLoop_safe (fun acc hacc => ?_) (by gd)) (fun r hr => ?_)
  · obtain ⟨a, e⟩ := acc
    obtain ⟨h1, h2⟩ := hacc
    walk
  · have h1 := hr.1.1
    refine ite_safe (fun _ => ?_) (fun hf => pure_safe ⟨⟨h1, trivial⟩, fun _ => hr.2 (by simpa using hf)⟩)
    refine bind_safe (tryP_safe elseStmts_safe) (fun o ho => pure_safe ?_)
    cases o with
      | none => exact ⟨⟨h1, trivial⟩, fun _ => ho.2 rfl⟩
      | some o => exact ⟨⟨h1, ho.1⟩, by simp⟩
theorem parseIf_safe : SafeT P C parseIf (good C) := by unfold parseIf; walk
theorem parseReturn_safe : SafeT P C parseReturn (good C) := by unfold parseReturn; walk
theorem signalSet_safe : SafeT P C signalSet (good C) := by unfold signalSet; walk
theorem parseSignal_safe : SafeT P C parseSignal (good C) := by unfold parseSignal; walk
theorem whenStatement_safe : SafeT P C whenStatement (good C) := by unfold whenStatement; walk
theorem caseStatementBody_safe : SafeT P C caseStatementBody (AccPost C) := by
  unfold caseStatementBody
  refine bind_safe (accLoop_safe (fun acc hacc => ?_) nil_good) (fun r hr => ?_)
  · walk
  · have h1 := hr.1
    refine ite_safe (fun _ => ?_) (fun hf => pure_safe ⟨⟨h1, trivial⟩, fun _ => hr.2 (by simpa using hf)⟩)
    refine bind_safe (tryP_safe elseStmts_safe) (fun o ho => pure_safe ?_)
    cases o with
      | none => exact ⟨⟨h1, trivial⟩, fun _ => ho.2 rfl⟩
      | some o => exact ⟨⟨h1, ho.1⟩, by simp⟩
theorem parseCase_safe : SafeT P C parseCase (good C) := by unfold parseCase; walk
theorem copyColumns_safe : SafeT P C copyColumns (good C) := by unfold copyColumns; walk
theorem parseCopy_safe : SafeT P C parseCopy (good C) := by unfold parseCopy; walk
theorem compoundBottom_safe : SafeT P C compoundBottom (good C) := by unfold compoundBottom; walk
theorem unionType_safe : SafeT P C unionType (good C) := by unfold unionType; walk
theorem unionPart_safe : SafeT P C unionPart (good C) := by unfold unionPart; walk
theorem compoundQuery_safe : SafeT P C compoundQuery (good C) := by unfold compoundQuery; walk
theorem withCheck_bind {m : String} {v : SAst} {f : Unit → Prog β} {Q : β → Prop} (hW : WithTok C) (hv : good C v)
    (hf : (C.E ∨ withAllowed v = true) → Safe C (f ()) Q) (hm : PlainTrue C.opts m := by plain) : SafeT P C (withCheck m v >>= f) Q := by
  unfold withCheck
  refine when_bind (fun h => bind_good (spanOfStmt_safe hv rfl hW) (fun sp hsp => err_safe hsp frags_nil)) (fun h => hf ?_)
  cases hw : withAllowed v with
  | true => exact .inr rfl
  | false => exact .inl (h (by simp [hw]))
theorem withBlock_safe (hW : WithTok C) : SafeT P C withBlock (good C) := by
  unfold withBlock
  refine bind_good ident_safe (fun i hi => bind_good ckw_safe (fun a ha => bind_good ctk_safe (fun lp hlp =>
    bind_safe (recovered_safe (Q := fun o : Option SAst => good C o ∧ (o = none → C.E)) ?_) (fun st hst =>
    bind_good ctk_safe (fun rp hrp => ?_)))))
  · refine bind_good callStatement_safe (fun o ho => ?_)
    cases o with
    | some v => exact pure_safe ⟨ho, by simp⟩
    | none => exact bind_safe expectedError_safe (fun _ h => pure_safe ⟨trivial, fun _ => h⟩)
  · match st with
    | some (some v) =>
      have hv : good C v := hst.1
      refine withCheck_bind hW hv (fun h => pure_safe ?_)
      gd
      exact h
    | some none =>
      have hE : C.E := hst.2 rfl
      refine pure_safe ?_
      gd
    | none =>
      have hE : C.E := hst
      refine pure_safe ?_
      gd
theorem parseWith_safe : SafeT P C parseWith (good C) := by
  unfold parseWith
  refine bind_safe ckw_safe' (fun w hw => ?_)
  obtain ⟨hw, v', sp', ht⟩ := hw
  have hW : WithTok C := ⟨v', sp', ht.isToken⟩
  refine (bind_good (commaList_safe (withBlock_safe hW)) (fun bs hbs =>
    bind_good callStatement_safe (fun o ho => ?_)))
  cases o with
  | none => exact expectedFailure_safe
  | some v =>
    have hv : good C v := ho
    refine withCheck_bind hW hv (fun _ => isPg_bind (fun pg hpg => when_bind (fun _ => ?_) (fun h => pure_safe ?_)))
    · exact bind_good (spanOfSNode_safe (.cons hw (.cons hbs (.cons hv (.nil _ _ _)))) rfl hW) (fun sp hsp => err_safe hsp frags_nil)
    · gd
theorem stmt_safe {p : Prog Ast} (hp : SafeT P C p (good C)) : SafeT P C (stmt p) (good C) := by unfold stmt; walk
theorem ostmt_safe {p : Prog SAst} (hp : SafeT P C p (good C)) : SafeT P C (ostmt p) (good C) := by unfold ostmt; walk
theorem beginStmt_safe : SafeT P C beginStmt (good C) := by unfold beginStmt; walk
theorem statementBody_safe : SafeT P C statementBody (good C) := by unfold statementBody stmtDispatch; walk

/-- The recursive functions are safe. -/
theorem runFn_safe (n : Nat) : CallsOK C (runFn n) := by
  induction n with
  | zero => intro _ _ _ _; trivial
  | succ n ih =>
    intro _ f s hs
    have h1 := runFn_good n
    unfold runFn
    cases f with
    | expression b => exact parseExpression_safe (P := fun _ => True) parseSelect_safe parseDataType_safe _ n h1 ih s hs trivial
    | compoundQuery => exact compoundQuery_safe (P := fun _ => True) _ n h1 ih s hs trivial
    | statement => exact statementBody_safe (P := fun _ => True) _ n h1 ih s hs trivial

theorem run_safe {p : Prog α} {Q : α → Prop} (h : Safe C p Q) (n : Nat) {s : St} (hs : Inv C s) : Post C s Q (p.run n s) :=
  h _ n (runFn_good n) (runFn_safe n) s hs trivial

end SqlParse
