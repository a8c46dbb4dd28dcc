import Verif.Proofs.Walk
import Verif.Model.Expression
import Verif.Proofs.Sim
/-! `SafeT` for expression.rs. -/
namespace SqlParse
variable {C : Ctx} {P : Token → Prop}

def rmGood (C : Ctx) : RM → Prop
  | .expr e => good C e
  | .bin _ sp => good C sp
  | .un _ sp => good C sp
instance : HasGood RM := ⟨rmGood⟩

theorem mkUnary_good {op : UnOp} {sp : Span} {e : Ast} (h : good C sp) (he : good C e) : good C (mkUnary op sp e) := by
  unfold mkUnary; gd
theorem mkBinary_good {op : BinOp} {sp : Span} {l r : Ast} (h : good C sp) (hl : good C l) (hr : good C r) :
    good C (mkBinary op sp l r) := by
  unfold mkBinary; gd

/-- Expressions and operators alternate in the stack (the top is the head). -/
def Alternates : List RM → Prop
  | [] => True
  | .expr _ :: r => topExpr r = false ∧ Alternates r
  | .un _ _ :: r => topExpr r = false ∧ Alternates r
  | .bin _ _ :: r => topExpr r = true ∧ Alternates r

/-- A stack is good if its members are, and they alternate. -/
instance stackGood : HasGood (List RM) := ⟨fun C st => (∀ m ∈ st, rmGood C m) ∧ Alternates st⟩

theorem stack_cons {m : RM} {st : List RM} (hm : rmGood C m) (h : good C st) (ha : Alternates (m :: st)) : good C (m :: st) := by
  refine ⟨?_, ha⟩
  intro b hb
  rcases List.mem_cons.1 hb with rfl | hb
  · exact hm
  · exact h.1 b hb

theorem stack_tail {m : RM} {st : List RM} (h : good C (m :: st)) : good C st := by
  refine ⟨fun b hb => h.1 b (by simp [hb]), ?_⟩
  have := h.2
  cases m <;> exact this.2

theorem stack_nil : good C ([] : List RM) := ⟨by simp, trivial⟩

/-- Goodness of the outcome of an operation on the stack. -/
def exGood (C : Ctx) : Except String (List RM) → Prop
  | .ok st => good C st
  | .error m => PlainTrue C.opts m

theorem reduceLoop_good {p : Nat} {e : Ast} {st : List RM} (he : good C e) (h : good C (RM.expr e :: st)) :
    ∃ st', reduceLoop p e st = .ok st' ∧ good C st' ∧ (topExpr st' = true) ∧
      ((∀ o : BinOp, o.priority ≤ p) → (∀ o : UnOp, o.priority ≤ p) → ∃ e', st' = [.expr e']) := by
  induction hn : st.length using Nat.strongRecOn generalizing st e with
  | _ n ih =>
  cases st with
  | nil => exact ⟨_, rfl, h, rfl, fun _ _ => ⟨e, rfl⟩⟩
  | cons m r =>
    have h0 := stack_tail h
    have hr := stack_tail h0
    have hm : rmGood C m := h.1 m (by simp)
    cases m with
    | expr _ => cases h.2.1
    | un op sp =>
      unfold reduceLoop
      split
      · next hlt => exact ⟨_, rfl, h, rfl, fun _ hu => absurd (hu op) (by omega)⟩
      · have hg := mkUnary_good (op := op) hm he
        exact ih r.length (by simp at hn; omega) hg (stack_cons hg hr ⟨h0.2.1, hr.2⟩) rfl
    | bin op sp =>
      unfold reduceLoop
      split
      · next hlt => exact ⟨_, rfl, h, rfl, fun hb _ => absurd (hb op) (by omega)⟩
      · have ht := h0.2.1
        cases r with
        | nil => cases ht
        | cons m' r' =>
          cases m' with
          | bin _ _ => cases ht
          | un _ _ => cases ht
          | expr l =>
            have hg := mkBinary_good (op := op) hm (hr.1 (.expr l) (by simp)) he
            have hr' := stack_tail hr
            exact ih r'.length (by simp at hn; omega) hg (stack_cons hg hr' ⟨hr.2.1, hr'.2⟩) rfl

theorem reduce_good {p : Nat} {st : List RM} (h : good C st) : exGood C (reduce p st) := by
  unfold reduce
  split
  · next e r =>
    obtain ⟨st', h1, h2, -⟩ := reduceLoop_good (p := p) (h.1 (.expr e) (by simp)) h
    rw [h1]; exact h2
  · show PlainTrue _ _
    plain

theorem reduce_topExpr {p : Nat} {st st' : List RM} (h : good C st) (hr : reduce p st = .ok st') : topExpr st' = true := by
  unfold reduce at hr
  split at hr
  · next e r =>
    obtain ⟨st', h1, -, h2, -⟩ := reduceLoop_good (p := p) (h.1 (.expr e) (by simp)) h
    rw [h1] at hr; cases hr; exact h2
  · cases hr

theorem reduce_all {st st' : List RM} (h : good C st) (hr : reduce 99999 st = .ok st') : ∃ e, st' = [.expr e] := by
  unfold reduce at hr
  split at hr
  · next e r =>
    obtain ⟨st', h1, -, -, h2⟩ := reduceLoop_good (p := 99999) (h.1 (.expr e) (by simp)) h
    rw [h1] at hr; cases hr
    exact h2 (fun o => by cases o <;> decide) (fun o => by cases o <;> decide)
  · cases hr

theorem shiftBinop_good {sp : Span} {op : BinOp} {st : List RM} (hs : good C sp) (h : good C st) :
    exGood C (shiftBinop sp op st) := by
  have h1 := reduce_good (p := op.priority) h
  have h2 := fun st' => reduce_topExpr (p := op.priority) (st' := st') h
  unfold shiftBinop
  revert h1 h2
  cases reduce op.priority st with
  | ok st' => intro h1 h2; exact stack_cons (m := RM.bin op sp) hs h1 ⟨h2 _ rfl, h1.2⟩
  | error m => intro h1 _; exact h1

theorem shiftUnary_good {sp : Span} {op : UnOp} {st : List RM} (hs : good C sp) (h : good C st) :
    exGood C (shiftUnary sp op st) := by
  unfold shiftUnary
  split
  · show PlainTrue _ _
    plain
  · next ht => exact stack_cons (m := RM.un op sp) hs h ⟨by simpa using ht, h.2⟩

theorem shiftExpr_good {e : Ast} {st : List RM} (hs : good C e) (h : good C st) : exGood C (shiftExpr e st) := by
  unfold shiftExpr
  split
  · show PlainTrue _ _
    plain
  · next ht => exact stack_cons (m := RM.expr e) hs h ⟨by simpa using ht, h.2⟩

theorem shifted_safe' {r : Except String (List RM)} (h : exGood C r) : SafeT P C (shifted r) (good C) := by
  unfold shifted
  cases r with
  | ok st => exact pure_safe h
  | error m => exact errHere_safe h

theorem doBin_safe {op : BinOp} {st : List RM} (h : good C st) : SafeT P C (doBin op st) (good C) :=
  bind_good consume_safe (fun _ hs => shifted_safe' (shiftBinop_good hs h))
theorem doUn_safe {op : UnOp} {st : List RM} (h : good C st) : SafeT P C (doUn op st) (good C) :=
  bind_good consume_safe (fun _ hs => shifted_safe' (shiftUnary_good hs h))
theorem doExpr_safe {p : Prog Ast} {st : List RM} (h : good C st) (hp : SafeT P C p (good C)) :
    SafeT P C (doExpr st p) (good C) :=
  bind_good hp (fun _ hs => shifted_safe' (shiftExpr_good hs h))

theorem expr_safe : SafeT P C expr (good C) := callExpression_safe _

variable {sel dataType : Prog Ast}

theorem exprOuterWith_safe (h : Safe C sel (good C)) : SafeT P C (exprOuterWith sel) (good C) := by
  unfold exprOuterWith; walk

theorem exprParen_safe : SafeT P C exprParen (good C) := by unfold exprParen; walk
theorem orderFlag_safe : SafeT P C orderFlag (good C) := by unfold orderFlag; walk
theorem orderItem_safe : SafeT P C orderItem (good C) := by unfold orderItem; walk

theorem functionTable_plain : plainTable functionTable = true := by decide +kernel
theorem timeUnitTable_plain : plainTable timeUnitTable = true := by decide +kernel
theorem nullaryTable_plain : plainTable nullaryTable = true := by decide +kernel

theorem functionOf_safe {t : Token} {sp : Span} (h : good C sp) : SafeT P C (functionOf t sp) (good C) := by
  unfold functionOf
  split
  · split
    · next hf => exact pure_safe (nullNode_good (tableFind_plain functionTable_plain hf).1)
    · walk
  · walk

theorem parseFunction_safe {t : Token} {sp : Span} (hs : Safe C sel (good C)) (h : good C sp) :
    SafeT P C (parseFunction sel t sp) (good C) := by
  unfold parseFunction; walk

theorem timeUnit_safe : SafeT P C timeUnit (good C) := by
  unfold timeUnit
  refine curT_bind (fun t _ => ?_)
  split
  · next hf => exact bind_good consume_safe (fun s hs => pure_safe
      (pair_good (nullNode_good (tableFind_plain timeUnitTable_plain hf).1) hs))
  · exact errHere_safe

theorem inList_safe : SafeT P C inList (good C) := by unfold inList; walk

theorem popLhs_safe {m : String} {st : List RM} (h : good C st) (hm : PlainTrue C.opts m := by plain) :
    SafeT P C (popLhs m st) (fun x => good C x ∧ topExpr x.2 = false) := by
  have := reduce_good (p := inPriority) h
  unfold popLhs
  revert this
  split
  · next e r heq => intro h; rw [heq] at h; exact pure_safe ⟨⟨h.1 (.expr e) (by simp), stack_tail h⟩, h.2.1⟩
  · intro _; exact errHere_safe
  · next m heq => intro h; rw [heq] at h; exact errHere_safe h

theorem exprIn_safe {st : List RM} (h : good C st) : SafeT P C (exprIn st) (good C) := by
  refine bind_safe (popLhs_safe h) (fun x hx => ?_)
  obtain ⟨hx, htop⟩ := hx
  refine bind_good ckw_safe (fun op hop => bind_good inList_safe (fun rhs hrhs => shifted_safe' (shiftExpr_good ?_ hx.2)))
  have := hx.1
  gd

theorem isWord'_safe {op : Span} (h : good C op) : SafeT P C (isWord' op) (good C) := by unfold isWord'; walk

theorem exprIs_safe {st : List RM} (h : good C st) : SafeT P C (exprIs st) (good C) := by
  refine bind_safe (popLhs_safe h) (fun x hx => ?_)
  obtain ⟨hx, htop⟩ := hx
  refine bind_good ckw_safe (fun op hop => bind_good (isWord'_safe hop) (fun y hy =>
    shifted_safe' (shiftExpr_good ?_ hx.2)))
  have := hx.1; have := hy.1; have := hy.2
  gd

theorem exprNotIn_safe {st : List RM} (h : good C st) : SafeT P C (exprNotIn st) (good C) := by
  refine bind_safe (popLhs_safe h) (fun x hx => ?_)
  obtain ⟨hx, htop⟩ := hx
  have h1 := hx.1
  refine bind_good ckw_safe (fun op hop => curT_bind (fun t _ => ite_safe (fun _ => ?_) (fun _ => ite_safe (fun _ => ?_)
    (fun _ => expectedFailure_safe))))
  · exact bind_good ckw_safe (fun s hs => bind_good inList_safe (fun rhs hrhs => shifted_safe' (shiftExpr_good (by gd) hx.2)))
  · exact bind_good consume_safe (fun s hs => shifted_safe' (shiftBinop_good (by gd) (stack_cons (m := RM.expr x.1) hx.1 hx.2 ⟨htop, hx.2.2⟩)))

theorem intervalParts_safe {sp : Span} {acc : List Nat} {ws : List (List Char)} (h : good C sp) :
    SafeT P C (intervalParts sp acc ws) (good C) := by
  induction ws generalizing P acc with
  | nil => exact ret_safe (fun _ _ => trivial)
  | cons w ws ih =>
    unfold intervalParts
    split
    · exact ih
    · exact err_bind h (fun _ => ih)

theorem intervalValue_safe : SafeT P C intervalValue (good C) := by
  unfold intervalValue
  refine curT_bind (fun t _ => ite_safe (fun _ => ?_) (fun _ => ?_))
  · exact bind_safe strPair_safe (fun v hv => bind_good (intervalParts_safe hv) (fun r hr => pure_safe ⟨hr, hv⟩))
  · split
    · exact bind_good int_safe (fun v hv => pure_safe ⟨fun _ _ => trivial, hv.1⟩)
    · exact errHere_safe

theorem exprInterval_safe : SafeT P C exprInterval (good C) := by unfold exprInterval; walk
theorem timestampArgs_safe (hs : Safe C sel (good C)) : SafeT P C (timestampArgs sel) (good C) := by unfold timestampArgs; walk
theorem exprTimestampAdd_safe (hs : Safe C sel (good C)) : SafeT P C (exprTimestampAdd sel) (good C) := by
  unfold exprTimestampAdd; walk
theorem exprTimestampDiff_safe (hs : Safe C sel (good C)) : SafeT P C (exprTimestampDiff sel) (good C) := by
  unfold exprTimestampDiff; walk
theorem castArgs_safe (hs : Safe C sel (good C)) (hd : Safe C dataType (good C)) : SafeT P C (castArgs sel dataType) (good C) := by
  unfold castArgs; walk
theorem exprCast_safe (hs : Safe C sel (good C)) (hd : Safe C dataType (good C)) : SafeT P C (exprCast sel dataType) (good C) := by
  unfold exprCast; walk
theorem exprCount_safe (hs : Safe C sel (good C)) : SafeT P C (exprCount sel) (good C) := by unfold exprCount; walk
theorem exprGroupConcat_safe (hs : Safe C sel (good C)) : SafeT P C (exprGroupConcat sel) (good C) := by unfold exprGroupConcat; walk
theorem extractArgs_safe (hs : Safe C sel (good C)) : SafeT P C (extractArgs sel) (good C) := by unfold extractArgs; walk
theorem exprExtract_safe (hs : Safe C sel (good C)) : SafeT P C (exprExtract sel) (good C) := by unfold exprExtract; walk
theorem exprLeft_safe (hs : Safe C sel (good C)) : SafeT P C (exprLeft sel) (good C) := by unfold exprLeft; walk

theorem identParts_safe' {a : Ast} (h : good C a) : SafeT P C (identParts a) (fun l => good C l ∧ l ≠ []) := by
  refine loop_inv (I := fun l => good C l ∧ l ≠ []) ?_ ⟨by gd, by simp⟩
  intro l hl
  have h1 := hl.1
  refine bind_good skips_safe (fun dot _ => ite_safe (fun _ => ?_) (fun _ => pure_safe hl))
  refine curT_bind (fun t hP => ?_)
  clear hP
  split
  · exact bind_good ctk_safe (fun s hs => pure_safe ⟨by gd, by simp⟩)
  · exact bind_good ident_safe (fun s hs => pure_safe ⟨by gd, by simp⟩)
  · exact expectedFailure_safe

/-- A nonempty list of values with spans has a span. -/
theorem list_must {l : List Ast} (h : good C l) (hl : l ≠ []) : ∃ sp, (toF l).spanRes = .some sp := by
  cases l with
  | nil => exact absurd rfl hl
  | cons a l =>
    obtain ⟨sp, hsp⟩ := (h a (by simp)).2
    have h3 := list_law (C := C) l (fun b hb => h b (by simp [hb])) 1
    have h3 : (spanResList [] 1 (l.map toF)) ≠ .panic := h3
    show ∃ sp, (Ast.list ((a :: l).map toF)).spanRes = .some sp
    simp only [Ast.spanRes, List.map_cons, spanResList]
    have : (toF a).spanRes = .some sp := hsp
    simp only [List.contains_nil, Bool.false_eq_true, if_false, this]
    revert h3
    cases spanResList [] 1 (l.map toF) <;> simp [SpanRes.join]

theorem identifier_good {l : List Ast} (h : good C l) (hl : l ≠ []) : good C (nd% Identifier [l]) := by
  refine ⟨.node trivial ?_, ?_⟩
  · intro a ha
    simp at ha
    subst ha
    exact Val.allOK h
  · obtain ⟨sp, hsp⟩ := list_must h hl
    have h1 : kindOmit .Identifier = [] := rfl
    have h2 : kindIsBlock .Identifier = false := rfl
    refine ⟨sp, ?_⟩
    simp only [Ast.spanRes, h1, h2, spanResList, hsp]
    simp [SpanRes.join]

theorem exprWord_safe (hs : Safe C sel (good C)) (hid : ∀ t, P t → ∃ v k, t = .ident v k) : SafeT P C (exprWord sel) (good C) := by
  unfold exprWord
  refine cur_bind (fun i s hi ht h => bind_good next_safe (fun _ _ => curT_bind (fun t _ => ite_safe (fun _ => ?_) (fun _ => ?_))))
  · exact parseFunction_safe hs h
  · split
    · next f hf =>
      have := nullNode_good (C := C) (tableFind_plain nullaryTable_plain hf).1
      walk
    · exact bind_good (tokenToIdent_safe ht h (hid _ hi)) (fun a ha => bind_safe (identParts_safe' ha) (fun l hl =>
        pure_safe (identifier_good hl.1 hl.2)))

theorem exprParens_safe : SafeT P C exprParens (good C) := by unfold exprParens; walk
theorem exprExists_safe : SafeT P C exprExists (good C) := by unfold exprExists; walk
theorem caseWhen_safe : SafeT P C caseWhen (good C) := by unfold caseWhen; walk

/-! ### Arguments -/

theorem next_arg (s : St) (i : Nat) (l : List Span) : St.next { s with arg := i, argLog := l } =
    (s.next).andThen (fun u s' => .ok u { s' with arg := i, argLog := l }) := by
  unfold St.next
  simp only []
  split
  · rfl
  · split <;> rfl

theorem takeArg_post {s : St} (hs : Inv C s) (hm : isMarker C.opts s.token) :
    Post C s (fun r => good C r.2 ∧ C.argOK r.1 r.2) (Op.run .takeArg s) := by
  have hg := op_good .takeArg hs.base
  rw [takeArg_run, next_arg] at hg ⊢
  rcases next_inv hs with ⟨s', h1, h2, h3, h4, h5, h6, h7, h8, h9⟩ | ⟨m, h1, h2⟩
  · rw [h1] at hg ⊢
    intro hf
    have hfs : Fut C s := hf.back hg.2
    refine ⟨⟨hg.1, h2.src, h2.isrc, h2.opts, h2.chk, h2.lo, h2.n0, ?_, ?_, ?_, h2.says⟩, ⟨spanGood hs hfs, ?_⟩, h4, .inl h5⟩
    · have := hs.arg; simp; omega
    · show (s.argLog ++ [s.span]).Pairwise _
      rw [List.pairwise_append]
      refine ⟨hs.pw, by simp, ?_⟩
      intro a ha b hb
      simp at hb; subst hb
      exact (hs.mark a ha).1
    · show ∀ a ∈ s.argLog ++ [s.span], a.stop ≤ s'.span.start ∧ _
      intro a ha
      rcases List.mem_append.1 ha with ha | ha
      · have := hs.mark a ha
        have hb := hs.base.tok.bounds
        refine ⟨by omega, this.2⟩
      · simp at ha; subst ha
        have ht := hs.base.tok
        rw [hs.src, hs.chk] at ht
        exact ⟨h3, _, hm, ht⟩
    · apply hf.arg
      show (s.argLog ++ [s.span])[s.arg]? = _
      rw [hs.arg]; simp
  · rw [h1]; exact fun _ => h2

theorem takeArg_safe (hm : ∀ t, P t → isMarker C.opts t) :
    SafeT P C (.op .takeArg) (fun r => good C r.2 ∧ C.argOK r.1 r.2) := by
  intro R n h1 h2 s hs hP
  rw [runWith_op]
  exact takeArg_post hs (hm _ hP)

theorem capsWarn_bindP {v : List Char} {k : Keyword} {sp : Span} {β : Type} {f : Unit → Prog β} {Q : β → Prop} (h : good C sp)
    (ht : TokOK C.chk C.src (.ident v k) sp) (hk : k.isWord = true)
    (hf : SafeT P C (f ()) Q) : SafeT P C (capsWarn v sp >>= f) Q := by
  intro R n h1 h2 s hs hP
  have h3 := (capsWarn_safe (P := P) (v := v) h ht hk) R n h1 h2 s hs hP
  have hg := runWith_good h1 n (capsWarn v sp) s hs.base
  have hr : (∃ s', runWith R n (capsWarn v sp) s = .ok () s' ∧ s'.token = s.token) ∨
      (∃ m, runWith R n (capsWarn v sp) s = .panic m) := by
    unfold capsWarn Prog.when
    split
    · unfold issueIf
      rw [runWith_op]
      simp only [Op.run]
      split
      · unfold St.issue
        split
        · exact .inl ⟨_, rfl, rfl⟩
        · exact .inr ⟨_, rfl⟩
      · exact .inl ⟨_, rfl, rfl⟩
    · exact .inl ⟨_, by unfold runWith; rfl, rfl⟩
  rcases hr with ⟨s', hr, ht⟩ | ⟨m, hr⟩
  · rw [runWith_bind hr]
    rw [hr] at h3 hg
    refine Post.cond (runWith_good h1 n (f ()) s' hg.1) hg.1 (hg.2.src.trans hs.src) ?_
    intro hfut
    obtain ⟨a1, a2, a3, a4⟩ := h3 hfut
    exact (hf R n h1 h2 s' a1 (by rw [ht]; exact hP)).andThen a3 a4
  · rw [runWith_bind_panic hr]
    rw [hr] at h3
    exact h3

theorem exprArg_safe (hm : ∀ t, P t → isMarker C.opts t) (hd : C.opts.arguments ≠ .dollar) :
    SafeT P C exprArg (good C) := by
  refine bind_safe (takeArg_safe hm) (fun r hr => pure_safe ?_)
  have h1 := hr.1
  refine nd_good _ (FL.cons (a := r.1) trivial (FL.cons h1 (FL.nil C _ _))) rfl ?_
  exact .inr ⟨hd, hr.2⟩

theorem exprListHack_safe (hm : ∀ t, P t → isMarker C.opts t) (hd : C.opts.listHack = true) :
    SafeT P C exprListHack (good C) := by
  refine cur_bind (fun t sp hP ht h => ?_)
  dsimp only
  have key : SafeT (fun t' => t' = t) C (do
      let (i, s) ← Prog.op .takeArg
      return nd% ListHack [i, s]) (good C) := by
    refine bind_safe (takeArg_safe (by rintro t' rfl; exact hm _ hP)) (fun r hr => pure_safe ?_)
    have h1 := hr.1
    refine nd_good _ (FL.cons (a := r.1) trivial (FL.cons h1 (FL.nil C _ _))) rfl ?_
    exact ⟨hr.2, hd⟩
  split
  · unfold Prog.when
    split
    · next hk =>
      have hk := of_decide_eq_true hk
      exact capsWarn_bindP h ht (hk ▸ rfl) key
    · exact key
  · exact key

theorem dollarArg_good {n : Nat} {s : Span} (h : good C s) (ht : TokOK C.chk C.src (.dollarArg n) s)
    (hd : C.opts.arguments = .dollar) : good C (nd% Arg [dollarIndex n, s]) := by
  refine nd_good _ (FL.cons (a := dollarIndex n) trivial (FL.cons h (FL.nil C _ _))) rfl ?_
  exact .inl ⟨hd, n, ht, rfl⟩

theorem exprDollar_safe {n : Nat} (hP : ∀ t, P t → t = .dollarArg n) (hd : C.opts.arguments = .dollar) :
    SafeT P C (exprDollar n) (good C) := by
  refine bind_safe consume_safe' (fun s hs => pure_safe ?_)
  obtain ⟨h, t, hPt, ht⟩ := hs
  have := hP t hPt
  subst this
  exact dollarArg_good h ht hd

/-! ### CASE and variables -/

theorem caseBody_safe : SafeT P C caseBody (AccPost C) := by
  unfold caseBody
  refine bind_safe (accLoop_safe (fun acc hacc => ?_) (by gd)) (fun r hr => ?_)
  · walk
  · have h1 := hr.1
    refine ite_safe (fun _ => ?_) (fun hf => pure_safe ⟨by gd, fun _ => hr.2 (by simpa using hf)⟩)
    refine bind_safe (tryP_safe (α := Option (Span × Ast)) ?_) (fun o ho => pure_safe ?_)
    · walk
    · cases o with
      | none => exact ⟨by gd, fun _ => ho.2 rfl⟩
      | some o => exact ⟨⟨h1, ho.1⟩, by simp⟩

theorem exprCase_safe : SafeT P C exprCase (good C) := by unfold exprCase; walk

theorem exprVariable_safe : SafeT P C exprVariable (good C) := by
  unfold exprVariable
  walk

/-! ### The loop -/

theorem exprStep_safe {inner : Bool} {st : List RM} (hs : Safe C sel (good C)) (hd : Safe C dataType (good C))
    (h : good C st) : SafeT P C (exprStep sel dataType inner st) (good C) := by
  unfold exprStep
  refine curT_bind (fun t hP => ?_)
  have hstar : ∀ s : Span, good C s → good C (nd% Identifier [[nd% IdentifierPart_Star [s]]]) :=
    fun s hs => identifier_good (by gd) (by simp)
  walk <;> simp_all [isMarker]

theorem parseExpression_safe {inner : Bool} (hs : Safe C sel (good C)) (hd : Safe C dataType (good C)) :
    SafeT P C (parseExpression sel dataType inner) (good C) := by
  unfold parseExpression
  refine bind_good (loop_safe (fun st h => exprStep_safe hs hd h) stack_nil) (fun st hst => ?_)
  have h1 := reduce_good (p := 99999) hst
  have h2 := fun st' => reduce_all (st' := st') hst
  revert h1 h2
  split
  · next e heq => intro h _; rw [heq] at h; exact pure_safe (h.1 (.expr e) (by simp))
  · next l hne heq => intro _ h; obtain ⟨e, rfl⟩ := h _ heq; exact absurd rfl (hne e)
  · intro _ _; exact errHere_safe

end SqlParse
