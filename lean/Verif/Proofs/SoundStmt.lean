import Verif.Proofs.SoundCreate
import Verif.Proofs.SoundExpr
/-! The converse direction of the grammar: statements. -/
namespace SqlParse
set_option linter.unusedSectionVars false

section
variable {α β σ : Type} {n : Nat} [CallsS n] {c : Env} {ts r tl : List Tk} {Q : β → List Tk → Prop} {t : Token} {sp : Span}

theorem parseSet_d : D n c parseSet ts (SetS c ts) := by
  unfold parseSet
  dw
  all_goals leaf

theorem signalSet_d : D n c signalSet ts (SignalItem c ts) := by
  unfold signalSet
  dw
  all_goals dcase [KwN]
  all_goals leaf

theorem parseSignal_d : D n c parseSignal ts (Signal c ts) := by
  unfold parseSignal
  dw
  · exact .mk (l := none) (by assumption) (by assumption) (by assumption) (by assumption) (.none (by assumption))
  · exact .mk (l := some (_, _)) (by assumption) (by assumption) (by assumption) (by assumption) (.some (by assumption) ⟨_, rfl, by assumption⟩)

theorem parseReturn_d : D n c parseReturn ts (Ret c ts) := by
  unfold parseReturn
  dw
  all_goals leaf

theorem copyColumns_d : D n c copyColumns ts (fun l r => (l = [] ∧ r = ts ∧ ∃ sp tl, ts = (.rParen, sp) :: tl) ∨ CommaL (Idn c) ts l r) := by
  unfold copyColumns
  refine d_curT fun t sp tl he => ?_
  subst he
  refine d_ite (fun h => d_pure (.inl ⟨rfl, rfl, sp, tl, by rw [h]⟩)) fun _ => hintIndexList_d.mono fun _ _ h => .inr h

theorem parseCopy_d : D n c parseCopy ts (CopyS c ts) := by
  unfold parseCopy
  refine ckw_db fun _ _ _ he hk => d_bind ident_d fun _ _ hn => ctk_db rfl fun _ _ hl => d_bind copyColumns_d fun _ _ hc => ctk_db rfl fun _ _ hr =>
    ckw_db fun _ _ _ hf hk' => ckw_db fun t _ _ hs hk'' => d_pure ?_
  subst he hl hf hs
  refine .mk hk hn ?_ hk' hk''
  rcases hc with ⟨rfl, rfl, sp, tl, rfl⟩ | hc
  · cases hr
    exact .nil
  · subst hr
    exact .some (.mk hc)

theorem skipSemis_d : D n c skipSemis ts (fun _ r => Next (· ≠ .semiColon) r ∧ ∀ e l r', e.data = c.data → Stms e r l r' → Stms e ts l r') := by
  refine d_loop (I := fun _ r => ∀ e l r', e.data = c.data → Stms e r l r' → Stms e ts l r') (fun _ _ _ _ h => h) ?_
  rintro - ts' hI
  refine d_bind (skips_dD rfl) fun b r hb => d_pure ?_
  rcases hb with ⟨rfl, h, rfl⟩ | ⟨rfl, sp, rfl, hd⟩
  · exact ⟨h, hI⟩
  · exact fun e l r' he h => hI _ _ _ he (.semi (by rw [he]; exact hd) h)

theorem stmtListInner_d : D n c.inList stmtListInner ts (fun x r => x.1 = true ∧ Stms c ts x.2 r) := by
  refine d_loop (I := fun acc r => ∀ l r', Stms c r l r' → Stms c ts (acc ++ l) r') (fun _ _ h => h) ?_
  intro acc ts' hI
  refine d_bind skipSemis_d fun _ r hr => ?_
  obtain ⟨h1, h2⟩ := hr
  have hI : ∀ l r', Stms c r l r' → Stms c ts (acc ++ l) r' := fun l r' h => hI l r' (h2 c _ _ rfl h)
  refine d_tryP_bind callStatement_d fun o r' ho => ?_
  cases o with
  | none =>
    obtain ⟨rfl, ho⟩ := ho
    refine d_pure ⟨rfl, ?_⟩
    have := hI [] _ (.nil ?_)
    · simpa using this
    · obtain ⟨t, sp, tl, rfl, h3⟩ := h1.elim
      exact ⟨ho, h3⟩
  | some v =>
    refine d_curT fun t sp tl he => ?_
    subst he
    refine d_ite (fun ht => d_pure ⟨rfl, hI _ _ (.last ho ht)⟩) fun ht => ?_
    have ht : t = .semiColon := by simpa using ht
    subst ht
    refine d_ite (fun hc => ?_) fun hc => ?_
    · refine d_stdin (.inl rfl) fun d dsp hd => d_pure ?_
      intro l r' hl
      have := hI (v :: _ :: l) _ (.copy ho (by rw [takesData_eq]; exact hc) hd hl)
      rw [List.append_assoc]
      exact this
    · refine consume_dbD rfl fun hd => d_pure ?_
      intro l r' hl
      have := hI (v :: l) _ (.cons ho (by rw [takesData_eq]; simpa using hc) hd hl)
      simpa using this

theorem stmtList_d : D n c stmtList ts (fun x r => x.1 = true ∧ Stms c ts x.2 r) := by
  unfold stmtList
  refine d_delim ?_
  exact d_withDelim (c := c) stmtListInner_d fun a r h => d_pure h

theorem stmtListReq_d : D n c stmtListReq ts (Stms c ts) := by
  unfold stmtListReq
  refine d_bind stmtList_d fun x r h => ?_
  rw [h.1]
  exact d_pure h.2

theorem exceptionWhens_d : D n c exceptionWhens ts (fun _ r => Handlers c ts r) := by
  refine d_loop (I := fun _ r => ∀ r', Handlers c r r' → Handlers c ts r') (fun _ h => h) ?_
  rintro - ts' hI
  refine d_bind skw_d fun o r ho => ?_
  cases ho with
  | none h => exact d_pure (hI _ (.nil h))
  | some h =>
    refine d_bind ident_d fun i r hi => ckw_db fun t sp tl he hk => ?_
    subst he
    refine d_bind (CallsS.call (.expression true) _ _) fun a r ha => ctk_dbD rfl fun m tl he hd => ?_
    subst he
    exact d_pure fun r' hr => hI _ (.cons h hi hk ha hd hr)

theorem parseBlock_d : D n c parseBlock ts (Block c ts) := by
  unfold parseBlock
  refine ckw_db fun t sp tl he hk => ?_
  subst he
  refine d_bind (recoveredAcc_d stmtList_d) fun l r hl => ?_
  obtain ⟨hl, -⟩ := hl
  refine d_bind skw_d fun o r' ho => ?_
  cases ho with
  | none h =>
    refine d_seq (d_ret (ckw_db fun t sp tl he h' => d_pure ?_))
    subst he
    exact .mk hk hl (.none h) h'
  | some h =>
    refine d_bind exceptionWhens_d fun _ r hh => ckw_db fun t sp tl he h' => d_pure ?_
    subst he
    exact .mk hk hl (.some h hh) h'

theorem parseDo_d : D n c parseDo ts (Stm c ts) := by
  unfold parseDo
  refine ckw_db fun t sp tl he hk => ?_
  subst he
  refine ctk_dbD rfl fun d tl he hd => ?_
  subst he
  refine d_bind parseBlock_d fun l r hl => ctk_dbD rfl fun d' tl he hd' => ?_
  subst he
  exact d_pure (.doBlock hk hd hl hd')

theorem elseStmts_d : D n c elseStmts ts (ElseS c ts) := by
  unfold elseStmts
  dw
  all_goals leaf


/-- One branch of IF. -/
inductive IfC (e : Env) (o : Option Span) : List Tk → SAst → List Tk → Prop where
  | mk {ts r1 r : List Tk} {c : Ast} {t : Token} {s : Span} {l : List SAst} (hc : Ex e false ts c ((t, s) :: r1)) (h : t.isKw .THEN = true)
      (hl : Stms e r1 l r) : IfC e o ts (snd% IfCondition [o, c, s, l]) r

theorem ifCondition_d {o : Option Span} : D n c (ifCondition o) ts (IfC c o ts) := by
  unfold ifCondition
  dw
  all_goals leaf

theorem ifBody_d : D n c ifBody ts (fun x r => x.1 = true ∧ ∃ r1, Branches c none ts x.2.1 r1 ∧ ElseS c r1 x.2.2 r) := by
  unfold ifBody
  refine d_bind (accLoop_d (σ := List SAst × Option Span) (R := fun x r => Branches c none ts x.1 r)
    (I := fun x r => ∀ l r', Branches c x.2 r l r' → Branches c none ts (x.1 ++ l) r') (fun _ _ h => h) ?_) fun x r hx => ?_
  · rintro ⟨acc, o⟩ ts' hI
    refine d_bind ifCondition_d fun v r hv => d_bind skw_d fun e r' he => d_pure ?_
    cases hv with
    | mk hc h hl =>
    cases he with
    | none hn => exact hI _ _ (.one hc h hl hn)
    | some hs =>
      intro l r' hr
      have := hI _ _ (.cons hc h hl hs hr)
      simpa using this
  · obtain ⟨b, l, o⟩ := x
    obtain ⟨rfl, hx⟩ := hx
    exact d_tryP_bind elseStmts_d fun a r' ha => d_pure ⟨rfl, _, hx, ha⟩

theorem parseIf_d : D n c parseIf ts (Stm c ts) := by
  unfold parseIf
  refine ckw_db fun t sp tl he hk => ?_
  subst he
  refine d_bind (recoveredAcc_d (R := fun (x : List SAst × Option (Span × List SAst)) r => ∃ r1, Branches c none tl x.1 r1 ∧ ElseS c r1 x.2 r) ifBody_d) fun x r hx => ?_
  obtain ⟨⟨r1, h1, h2⟩, -⟩ := hx
  exact d_bind ckws_d fun e r' he => d_pure (.ifThen hk h1 h2 he)

/-- One branch of CASE. -/
inductive CaseB (e : Env) : List Tk → SAst → List Tk → Prop where
  | mk {ts r1 r : List Tk} {c : Ast} {t t' : Token} {s s' : Span} {l : List SAst} (h : t.isKw .WHEN = true)
      (hc : Ex e false ts c ((t', s') :: r1)) (h' : t'.isKw .THEN = true) (hl : Stms e r1 l r) :
      CaseB e ((t, s) :: ts) (snd% WhenStatement [s, c, s', l]) r

theorem whenStatement_d : D n c whenStatement ts (CaseB c ts) := by
  unfold whenStatement
  dw
  all_goals leaf

theorem caseStatementBody_d : D n c caseStatementBody ts (fun x r => x.1 = true ∧ ∃ r1, CaseBranches c ts x.2.1 r1 ∧ ElseS c r1 x.2.2 r) := by
  unfold caseStatementBody
  refine d_bind (accLoop_d (σ := List SAst) (R := fun x r => CaseBranches c ts x r)
    (I := fun x r => ∀ l r', CaseBranches c r l r' → CaseBranches c ts (x ++ l) r') (fun _ _ h => h) ?_) fun x r hx => ?_
  · intro acc ts' hI
    refine d_bind whenStatement_d fun v r hv => d_curT fun t sp tl he => d_pure ?_
    subst he
    cases hv with
    | mk h hc h' hl =>
    cases ht : t.isKw .WHEN with
    | false => exact hI _ _ (.one h hc h' hl ht)
    | true =>
      intro l r' hr
      have := hI _ _ (.cons h hc h' hl hr)
      simpa using this
  · obtain ⟨b, l⟩ := x
    obtain ⟨rfl, hx⟩ := hx
    exact d_tryP_bind elseStmts_d fun a r' ha => d_pure ⟨rfl, _, hx, ha⟩

theorem parseCase_d : D n c parseCase ts (Stm c ts) := by
  have hb : ∀ ts, D n c (recoveredAcc "'END'" (fun t => t.isKw .END) caseStatementBody) ts (fun x r => ∃ r1, CaseBranches c ts x.1 r1 ∧ ElseS c r1 x.2 r) :=
    fun ts => (recoveredAcc_d (R := fun (x : List SAst × Option (Span × List SAst)) r => ∃ r1, CaseBranches c ts x.1 r1 ∧ ElseS c r1 x.2 r)
      caseStatementBody_d).mono fun _ _ h => h.1
  unfold parseCase
  dw
  · next hk _ _ _ hw _ _ hv =>
    refine d_bind (hb _) fun x r hx => ?_
    obtain ⟨r1, h1, h2⟩ := hx
    refine ckw_db fun _ _ _ he h' => d_pure ?_
    subst he
    exact .caseOf hk (by simpa [NotKw, Next] using hw) hv h1 h2 h'
  · next hk _ _ _ hw =>
    refine d_bind (hb _) fun x r hx => ?_
    obtain ⟨r1, h1, h2⟩ := hx
    refine ckw_db fun _ _ _ he h' => d_pure ?_
    subst he
    exact .caseWhen hk h1 h2 h'

theorem withCheck_db {m : String} {v : SAst} {f : Unit → Prog β} (h : WithKind v → D n c (f ()) ts Q) : D n c (withCheck m v >>= f) ts Q := by
  unfold withCheck
  refine d_whenNo (fun f => ?_) fun hv => h ?_
  · refine d_assoc (spanOf_db fun s _ => d_err)
  · obtain ⟨a⟩ := v
    unfold WithKind
    cases a with
    | node k l =>
      refine ⟨k, ?_, l, rfl⟩
      simp only [withAllowed, Ast.kind?, Bool.not_eq_false', Bool.or_eq_true, decide_eq_true_eq, Option.some.injEq] at hv
      rcases hv with ((rfl | rfl) | rfl) | rfl <;> simp
    | _ => simp [withAllowed, Ast.kind?] at hv

/-- One block of WITH. -/
inductive WBlock (e : Env) : List Tk → SAst → List Tk → Prop where
  | mk {ts r1 r : List Tk} {i : Ast} {t : Token} {s lp rp : Span} {v : SAst} (hi : Idn e ts i ((t, s) :: (.lParen, lp) :: r1))
      (h : t.isKw .AS = true) (hv : Stm e r1 v ((.rParen, rp) :: r)) (hk : WithKind v) : WBlock e ts (snd% WithBlock [i, s, lp, v, rp]) r

theorem withBlock_d : D n c withBlock ts (WBlock c ts) := by
  unfold withBlock
  dw
  next ha _ tl hi =>
    refine d_bind (recovered_d (R := fun (o : Option SAst) r => ∃ v, o = some v ∧ Stm c tl v r) ?_) fun o r ho => ?_
    · refine d_bind callStatement_d fun o r ho => ?_
      cases o with
      | none => exact d_expectedError
      | some v => exact d_pure ⟨v, rfl, ho⟩
    · obtain ⟨_, rfl, ⟨v, rfl, hv⟩, -⟩ := ho
      refine ctk_db rfl fun sp tl he => ?_
      subst he
      exact withCheck_db fun hk => d_pure (.mk hi ha hv hk)

theorem withBlocks_of {l : List SAst} (h : CommaL (WBlock c) ts l r) : WithBlocks c ts l r := by
  induction h with
  | one h hr => cases h; exact .one (by assumption) (by assumption) (by assumption) (by assumption) hr
  | cons h _ ih => cases h; exact .cons (by assumption) (by assumption) (by assumption) (by assumption) ih

theorem parseWith_d : D n c parseWith ts (Stm c ts) := by
  unfold parseWith
  refine ckw_db fun t sp tl he hk => ?_
  subst he
  refine d_bind (commaList_d fun _ => withBlock_d) fun l r hl => d_bind callStatement_d fun o r' ho => ?_
  cases o with
  | none => exact d_expectedFailure
  | some v =>
    refine withCheck_db fun hv => d_isPg ?_
    refine d_whenNo (fun f => ?_) fun hd => d_pure ?_
    · exact d_assoc (spanOf_db fun s _ => d_err)
    · exact .withQuery (by simpa using hd) hk (withBlocks_of hl) ho hv

theorem stmt_d {p : Prog Ast} {R : Ast → List Tk → Prop} (h : D n c p ((t, sp) :: tl) R)
    (hs : ∀ a r, R a r → Stm c ((t, sp) :: tl) ⟨a⟩ r) : D n c (stmt p) ((t, sp) :: tl) (SpecFn c .statement ((t, sp) :: tl)) :=
  d_bind h fun a r ha => d_pure (show Stm _ _ _ _ from hs a r ha)

theorem ostmt_d {p : Prog SAst} (h : D n c p ((t, sp) :: tl) (Stm c ((t, sp) :: tl))) :
    D n c (ostmt p) ((t, sp) :: tl) (SpecFn c .statement ((t, sp) :: tl)) :=
  d_bind h fun _ _ ha => d_pure (show Stm _ _ _ _ from ha)

theorem some_d {p : Prog Span} {R : Span → List Tk → Prop} {f : Span → SAst} (h : D n c p ((t, sp) :: tl) R)
    (hs : ∀ a r, R a r → Stm c ((t, sp) :: tl) (f a) r) :
    D n c (do let s ← p; return some (f s)) ((t, sp) :: tl) (SpecFn c .statement ((t, sp) :: tl)) :=
  d_bind h fun a r ha => d_pure (show Stm _ _ _ _ from hs a r ha)

theorem beginStmt_d (hk : t.isKw .BEGIN = true) : D n c beginStmt ((t, sp) :: tl) (SpecFn c .statement ((t, sp) :: tl)) := by
  unfold beginStmt
  refine d_permit ?_
  refine d_ite (fun hp => ?_) fun hp => ?_
  · exact d_bind parseBlock_d fun l r hl => d_pure (show Stm _ _ _ _ from .block hp hl)
  · exact some_d ckw_d fun a r h => .begin (by simpa using hp) h

theorem stmtDispatch_d : D n c (stmtDispatch t c.permit) ((t, sp) :: tl) (SpecFn c .statement ((t, sp) :: tl)) := by
  unfold stmtDispatch
  refine d_ite (fun hk => ostmt_d parseCreate_d) fun h1 => ?_
  refine d_ite (fun hk => stmt_d parseDrop_d fun _ _ => .drop) fun h2 => ?_
  refine d_ite (fun hk => stmt_d (CallsS.call .compoundQuery _ _) fun _ _ => .query) fun h3 => ?_
  refine d_ite (fun hk => stmt_d parseDelete_d fun _ _ => .delete) fun h4 => ?_
  refine d_ite (fun hk => stmt_d parseInsertReplace_d fun _ _ => .insert) fun h5 => ?_
  refine d_ite (fun hk => stmt_d parseUpdate_d fun _ _ => .update) fun h6 => ?_
  refine d_ite (fun hk => stmt_d parseSet_d fun _ _ => .set) fun h7 => ?_
  refine d_ite (fun hk => stmt_d parseSignal_d fun _ _ => .signal) fun h8 => ?_
  refine d_ite (fun hk => beginStmt_d hk) fun h9 => ?_
  refine d_ite (fun hk => ?_) fun h10 => ?_
  · have hk : t.isKw .END = true ∧ c.permit = false := by simpa using hk
    exact some_d ckw_d fun a r h => .end hk.2 h
  refine d_ite (fun hk => some_d ckws_d fun a r h => .start h) fun h11 => ?_
  refine d_ite (fun hk => some_d ckw_d fun a r h => .commit h) fun h12 => ?_
  refine d_ite (fun hk => ostmt_d parseIf_d) fun h13 => ?_
  refine d_ite (fun hk => stmt_d parseReturn_d fun _ _ => .ret) fun h14 => ?_
  refine d_ite (fun hk => stmt_d parseAlter_d fun _ _ => .alter) fun h15 => ?_
  refine d_ite (fun hk => ostmt_d parseCase_d) fun h16 => ?_
  refine d_ite (fun hk => stmt_d parseCopy_d fun _ _ => .copy) fun h17 => ?_
  refine d_ite (fun hk => ostmt_d parseDo_d) fun h18 => ?_
  refine d_ite (fun hk => stmt_d parseTruncate_d fun _ _ => .truncate) fun h19 => ?_
  refine d_ite (fun hk => stmt_d parseRename_d fun _ _ => .rename) fun h20 => ?_
  refine d_ite (fun hk => ostmt_d parseWith_d) fun h21 => ?_
  refine d_pure (show _ ∧ _ from ⟨rfl, ?_⟩)
  show NoStmt c t
  refine ⟨?_, ?_, ?_⟩
  · simp_all [stmtWords]
  · simp_all
  · intro he
    simpa [he] using h10

theorem statementBody_d : D n c statementBody ts (SpecFn c .statement ts) := by
  unfold statementBody
  refine d_curT fun t sp tl he => ?_
  subst he
  exact d_permit stmtDispatch_d

end

theorem calls_sound (n : Nat) : CallsS n := by
  induction n with
  | zero => exact ⟨fun f c ts k s hs => trivial⟩
  | succ n ih =>
    refine ⟨fun f c ts k s hs => ?_⟩
    show DOut c k s ts _ ((body f).run n s)
    cases f with
    | expression inner => exact parseExpression_d k s hs
    | compoundQuery => exact compoundQuery_d k s hs
    | statement => exact statementBody_d k s hs

end SqlParse
