import Verif.Proofs.ParParser
/-! Corresponding runs of expression.rs. -/
namespace SqlParse
variable {E : Par}

theorem mkUnary_rel {o : UnOp} {s t : Span} {a b : Ast} (h : E.sp s t) (ha : ARel E a b) : ARel E (mkUnary o s a) (mkUnary o t b) :=
  .node rfl (.cons (.unop o) (.cons (.span h) (.cons ha .nil)))
theorem mkBinary_rel {o : BinOp} {s t : Span} {a b a' b' : Ast} (h : E.sp s t) (ha : ARel E a b) (ha' : ARel E a' b') :
    ARel E (mkBinary o s a a') (mkBinary o t b b') :=
  .node rfl (.cons (.binop o) (.cons (.span h) (.cons ha (.cons ha' .nil))))

theorem reduceLoop_vr {p : Nat} : ∀ (n : Nat) {st st' : List RM} {e e' : Ast}, st.length ≤ n → vr E st st' → ARel E e e' →
    exceptR E (reduceLoop p e st) (reduceLoop p e' st') := by
  intro n
  induction n using Nat.strongRecOn with
  | _ n ih =>
  intro st st' e e' hn h he
  cases st with
  | nil =>
    cases st' with
    | nil => exact ⟨he, trivial⟩
    | cons => cases h
  | cons m r =>
    cases st' with
    | nil => cases h
    | cons m' r' =>
      have hr : vr E r r' := h.2
      have hl : r.length < n := by simp at hn; omega
      cases m <;> cases m'
      case expr.expr => rfl
      case un.un o s o' s' =>
        obtain ⟨rfl, hs⟩ := h.1
        unfold reduceLoop
        split
        · exact ⟨he, ⟨rfl, hs⟩, hr⟩
        · exact ih r.length hl (Nat.le_refl _) hr (mkUnary_rel hs he)
      case bin.bin o s o' s' =>
        obtain ⟨rfl, hs⟩ := h.1
        unfold reduceLoop
        split
        · exact ⟨he, ⟨rfl, hs⟩, hr⟩
        · cases r with
          | nil =>
            cases r' with
            | nil => rfl
            | cons => cases hr
          | cons x l =>
            cases r' with
            | nil => cases hr
            | cons y l' =>
              cases x <;> cases y
              case expr.expr => exact ih l.length (by simp at hl; omega) (Nat.le_refl _) hr.2 (mkBinary_rel hs hr.1 he)
              all_goals first | exact False.elim hr.1 | rfl
      all_goals exact False.elim h.1

theorem reduce_vr {p : Nat} {st st' : List RM} (h : vr E st st') : vr E (reduce p st) (reduce p st') := by
  unfold reduce
  cases st with
  | nil =>
    cases st' with
    | nil => rfl
    | cons => cases h
  | cons m r =>
    cases st' with
    | nil => cases h
    | cons m' r' =>
      cases m <;> cases m'
      case expr.expr => exact reduceLoop_vr r.length (Nat.le_refl _) h.2 h.1
      all_goals first | exact False.elim h.1 | rfl

theorem shiftBinop_vr {sp sp' : Span} {op : BinOp} {st st' : List RM} (hs : vr E sp sp') (h : vr E st st') :
    vr E (shiftBinop sp op st) (shiftBinop sp' op st') := by
  have := reduce_vr (p := op.priority) h
  unfold shiftBinop
  revert this
  cases reduce op.priority st <;> cases reduce op.priority st' <;> intro h
  · exact h
  · cases h
  · cases h
  · exact ⟨⟨rfl, hs⟩, h⟩

theorem shiftUnary_vr {sp sp' : Span} {op : UnOp} {st st' : List RM} (hs : vr E sp sp') (h : vr E st st') :
    vr E (shiftUnary sp op st) (shiftUnary sp' op st') := by
  unfold shiftUnary
  rw [topExpr_vr h]
  split
  · rfl
  · exact ⟨⟨rfl, hs⟩, h⟩

theorem shiftExpr_vr {e e' : Ast} {st st' : List RM} (hs : vr E e e') (h : vr E st st') :
    vr E (shiftExpr e st) (shiftExpr e' st') := by
  unfold shiftExpr
  rw [topExpr_vr h]
  split
  · rfl
  · exact ⟨hs, h⟩

theorem shifted_par {r r' : Except String (List RM)} (h : vr E r r') : PR E (vr E) (shifted r) (shifted r') := by
  unfold shifted
  cases r <;> cases r'
  · cases h; exact errHere_par
  · cases h
  · cases h
  · exact pure_par h

theorem doBin_par {op : BinOp} {st st' : List RM} (h : vr E st st') : PR E (vr E) (doBin op st) (doBin op st') :=
  bind_par consume_par (fun _ _ hs => shifted_par (shiftBinop_vr hs h))
theorem doUn_par {op : UnOp} {st st' : List RM} (h : vr E st st') : PR E (vr E) (doUn op st) (doUn op st') :=
  bind_par consume_par (fun _ _ hs => shifted_par (shiftUnary_vr hs h))
theorem doExpr_par {st st' : List RM} {p q : Prog Ast} (h : vr E st st') (hp : PR E (vr E) p q) :
    PR E (vr E) (doExpr st p) (doExpr st' q) :=
  bind_par hp (fun _ _ hs => shifted_par (shiftExpr_vr hs h))

theorem expr_par : PR E (vr E) expr expr := callExpression_par

theorem functionTable_alike : alikeTable functionTable = true := by decide +kernel
theorem timeUnitTable_alike : alikeTable timeUnitTable = true := by decide +kernel
theorem nullaryTable_alike : alikeTable nullaryTable = true := by decide +kernel

theorem functionOf_par {t t' : Token} {sp sp' : Span} (ht : vr E t t') (h : vr E sp sp') :
    PR E (vr E) (functionOf t sp) (functionOf t' sp') := by
  unfold functionOf
  cases ht with
  | same hn =>
    split
    · cases hn
    · pw
  | ident hv hk =>
    dsimp only
    split
    · next hf => exact pure_par (ARel.node (tableFind_alike functionTable_alike hf).2 .nil)
    · have := E.stxt hv
      pw
  | single _ => dsimp only; pw
  | double _ => dsimp only; pw

theorem timeUnit_par : PR E (vr E) timeUnit timeUnit := by
  unfold timeUnit
  refine bind_par curT_par (fun t t' ht => ?_)
  rw [tok_kw ht]
  split
  · next hf => exact bind_par consume_par (fun _ _ hs => pure_par ⟨ARel.node (tableFind_alike timeUnitTable_alike hf).2 .nil, hs⟩)
  · exact errHere_par

theorem exprParen_par : PR E (vr E) exprParen exprParen := by unfold exprParen; pw
theorem orderFlag_par : PR E (vr E) orderFlag orderFlag := by unfold orderFlag; pw
theorem orderItem_par : PR E (vr E) orderItem orderItem := by unfold orderItem; pw

variable {sel dataType : Prog Ast}

theorem exprOuterWith_par (h : PR E (vr E) sel sel) : PR E (vr E) (exprOuterWith sel) (exprOuterWith sel) := by
  unfold exprOuterWith; pw

theorem parseFunction_par (hs : PR E (vr E) sel sel) {t t' : Token} {sp sp' : Span} (ht : vr E t t') (h : vr E sp sp') :
    PR E (vr E) (parseFunction sel t sp) (parseFunction sel t' sp') := by
  unfold parseFunction
  have := @isRParenComma_end E
  pw

theorem inList_par : PR E (vr E) inList inList := by
  unfold inList
  have := @isRParenComma_end E
  pw

theorem popLhs_par {m : String} {st st' : List RM} (h : vr E st st') : PR E (vr E) (popLhs m st) (popLhs m st') := by
  have := reduce_vr (p := inPriority) h
  unfold popLhs
  revert this
  cases reduce inPriority st <;> cases reduce inPriority st' <;> intro h
  · cases h; exact errHere_par
  · cases h
  · cases h
  · next l m =>
    cases l with
    | nil =>
      cases m with
      | nil => exact errHere_par
      | cons => cases h
    | cons x l =>
      cases m with
      | nil => cases h
      | cons y m =>
        cases x <;> cases y
        case expr.expr => exact pure_par h
        all_goals first | exact False.elim h.1 | (cases l <;> cases m <;> first | exact errHere_par | exact False.elim h.2 | cases h.2)

theorem exprIn_par {st st' : List RM} (h : vr E st st') : PR E (vr E) (exprIn st) (exprIn st') := by
  unfold exprIn; pw
theorem isWord'_par {op op' : Span} (h : vr E op op') : PR E (vr E) (isWord' op) (isWord' op') := by
  unfold isWord'; pw
theorem exprIs_par {st st' : List RM} (h : vr E st st') : PR E (vr E) (exprIs st) (exprIs st') := by
  unfold exprIs; pw
theorem exprNotIn_par {st st' : List RM} (h : vr E st st') : PR E (vr E) (exprNotIn st) (exprNotIn st') := by
  unfold exprNotIn; pw

theorem intervalParts_par {sp sp' : Span} (h : vr E sp sp') : ∀ (ws : List (List Char)) (acc : List Nat),
    PR E (fun a b => a = b) (intervalParts sp acc ws) (intervalParts sp' acc ws)
  | [], acc => ret_par rfl
  | w :: ws, acc => by
    unfold intervalParts
    split
    · exact intervalParts_par h ws _
    · exact bind_par (err_par h frags_nil_par) (fun _ _ _ => intervalParts_par h ws _)

theorem natList_vr : ∀ l : List Nat, vr E l l
  | [] => trivial
  | _ :: l => ⟨rfl, natList_vr l⟩

theorem intervalValue_par (hi : E.ok .INTERVAL) : PR E (vr E) intervalValue intervalValue := by
  unfold intervalValue
  refine bind_par curT_par (fun t t' ht => ?_)
  refine ite_par (by rw [tok_isStr ht]) (fun _ _ => ?_) (fun _ _ => ?_)
  · refine bind_par strPair_par ?_
    rintro ⟨v, s⟩ ⟨v', s'⟩ ⟨hv, hs⟩
    obtain rfl : v = v' := hv.2 hi
    refine bind_par (intervalParts_par hs _ _) ?_
    rintro r _ rfl
    exact pure_par ⟨natList_vr r, hs⟩
  · cases ht with
    | same hn =>
      split
      · refine bind_par int_par ?_
        rintro ⟨v, s⟩ ⟨v', s'⟩ ⟨hv, hs⟩
        cases hv
        exact pure_par ⟨natList_vr _, hs⟩
      · exact errHere_par
    | ident _ _ => exact errHere_par
    | single _ => exact errHere_par
    | double _ => exact errHere_par

theorem exprInterval_par (hi : E.ok .INTERVAL) : PR E (vr E) exprInterval exprInterval := by
  unfold exprInterval
  have := intervalValue_par hi
  pw

section
variable (hs : PR E (vr E) sel sel)
include hs
theorem timestampArgs_par : PR E (vr E) (timestampArgs sel) (timestampArgs sel) := by unfold timestampArgs; pw
theorem exprTimestampAdd_par : PR E (vr E) (exprTimestampAdd sel) (exprTimestampAdd sel) := by
  unfold exprTimestampAdd
  have := @isRParen_end E
  pw
theorem exprTimestampDiff_par : PR E (vr E) (exprTimestampDiff sel) (exprTimestampDiff sel) := by
  unfold exprTimestampDiff
  have := @isRParen_end E
  pw
theorem castArgs_par (hd : PR E (vr E) dataType dataType) : PR E (vr E) (castArgs sel dataType) (castArgs sel dataType) := by
  unfold castArgs; pw
theorem exprCast_par (hd : PR E (vr E) dataType dataType) : PR E (vr E) (exprCast sel dataType) (exprCast sel dataType) := by
  unfold exprCast
  have := @isRParen_end E
  pw
theorem exprCount_par : PR E (vr E) (exprCount sel) (exprCount sel) := by
  unfold exprCount
  have := @isRParen_end E
  pw
theorem exprGroupConcat_par : PR E (vr E) (exprGroupConcat sel) (exprGroupConcat sel) := by
  unfold exprGroupConcat
  have := @isRParen_end E
  pw
theorem extractArgs_par : PR E (vr E) (extractArgs sel) (extractArgs sel) := by unfold extractArgs; pw
theorem exprExtract_par : PR E (vr E) (exprExtract sel) (exprExtract sel) := by
  unfold exprExtract
  have := @isRParen_end E
  pw
theorem exprLeft_par : PR E (vr E) (exprLeft sel) (exprLeft sel) := by unfold exprLeft; pw
end

theorem identParts_par {a b : Ast} (h : vr E a b) : PR E (vr E) (identParts a) (identParts b) := by
  unfold identParts; pw

theorem exprWord_par (hs : PR E (vr E) sel sel) : PR E (vr E) (exprWord sel) (exprWord sel) := by
  unfold exprWord
  refine bind_par cur_par ?_
  rintro ⟨i, s⟩ ⟨i', s'⟩ ⟨hi, h⟩
  have hi : vr E i i' := hi
  have h : vr E s s' := h
  refine bind_par next_par (fun _ _ _ => bind_par curT_par (fun t t' ht => ?_))
  refine ite_par (by rw [tok_eq ht rfl]) (fun _ _ => parseFunction_par hs hi h) (fun _ _ => ?_)
  try dsimp only
  rw [tok_kw hi]
  split
  · next hf =>
    refine pure_par (ARel.node rfl (.cons (.node (tableFind_alike nullaryTable_alike hf).2 .nil) ?_))
    pv
  · refine bind_par (tokenToIdent_par hi h) (fun _ _ hf => ?_)
    pw

theorem exprArg_par (h : E.opts.arguments ≠ .dollar) : PR E (vr E) exprArg exprArg := by
  unfold exprArg
  refine bind_par takeArg_par ?_
  rintro ⟨i, s⟩ ⟨i', s'⟩ ⟨hi, hs⟩
  cases hi
  have := @ARel.arg E i s s' hs
  rw [Par.argShift, if_neg h] at this
  exact pure_par this

theorem exprListHack_par : PR E (vr E) exprListHack exprListHack := by
  unfold exprListHack
  refine bind_par cur_par ?_
  rintro ⟨t, sp⟩ ⟨t', sp'⟩ ⟨ht, hsp⟩
  refine bind_par (Q1 := vr E) ?_ (fun _ _ _ => bind_par takeArg_par ?_)
  · cases ht with
    | same hn =>
      try dsimp only
      split
      · cases hn
      · exact ret_par rfl
    | ident hv _ => exact when_par Iff.rfl (fun hk _ => capsWarn_par (by rw [of_decide_eq_true hk]; rfl) hv hsp)
    | single _ => exact ret_par rfl
    | double _ => exact ret_par rfl
  · rintro ⟨i, s⟩ ⟨i', s'⟩ ⟨hi, hs⟩
    cases hi
    exact pure_par (ARel.listHack hs)

theorem exprDollar_par {n : Nat} (h : E.opts.arguments = .dollar) : PR E (vr E) (exprDollar n) (exprDollar n) := by
  unfold exprDollar
  refine bind_par consume_par (fun s s' hs => ?_)
  have := @ARel.arg E (dollarIndex n) s s' hs
  rw [Par.argShift, if_pos h] at this
  exact pure_par this

theorem exprParens_par : PR E (vr E) exprParens exprParens := by unfold exprParens; pw
theorem exprExists_par : PR E (vr E) exprExists exprExists := by unfold exprExists; pw
theorem caseWhen_par : PR E (vr E) caseWhen caseWhen := by unfold caseWhen; pw
theorem caseBody_par : PR E (vr E) caseBody caseBody := by unfold caseBody; pw
theorem exprCase_par : PR E (vr E) exprCase exprCase := by
  unfold exprCase
  have := @isKw_end E .END
  pw
theorem exprVariable_par : PR E (vr E) exprVariable exprVariable := by unfold exprVariable; pw

macro "pstep" : tactic => `(tactic| refine ite_par (by pc) (fun _ _ => by first | exact doBin_par (by assumption) | exact doUn_par (by assumption) | exact exprIn_par (by assumption) | exact exprIs_par (by assumption) | exact exprNotIn_par (by assumption) | (pw; done)) (fun _ _ => ?_))

theorem exprStep_par (hs : PR E (vr E) sel sel) (hd : PR E (vr E) dataType dataType) {inner : Bool} {st st' : List RM} (h : vr E st st') :
    PR E (vr E) (exprStep sel dataType inner st) (exprStep sel dataType inner st') := by
  unfold exprStep
  refine bind_par curT_par (fun t t' ht => ?_)
  have htop := topExpr_vr h
  iterate 24 pstep
  refine ite_par (by pc) (fun hk _ => doExpr_par h (exprInterval_par (tok_ok ht hk))) (fun _ _ => ?_)
  iterate 9 pstep
  refine bind_par listHack_par ?_
  rintro lh _ rfl
  pstep
  pstep
  cases ht with
  | same hn =>
    split
    · pw
    · pw
    · refine bind_par arguments_par ?_
      rintro m m' ⟨rfl, rfl⟩
      refine ite_par Iff.rfl (fun ha _ => doExpr_par h (exprDollar_par ha)) (fun _ _ => ?_)
      pw
    · refine bind_par arguments_par ?_
      rintro m m' ⟨rfl, rfl⟩
      refine ite_par Iff.rfl (fun ha _ => doExpr_par h (exprArg_par (by rw [ha]; decide))) (fun _ _ => ?_)
      pw
    · refine bind_par arguments_par ?_
      rintro m m' ⟨rfl, rfl⟩
      refine ite_par Iff.rfl (fun ha _ => doExpr_par h (exprArg_par (by rw [ha]; decide))) (fun _ _ => ?_)
      pw
    · pw
    · pw
    · pw
    · cases hn
    · pw
  | ident hv hk =>
    dsimp only
    pw
  | single _ => dsimp only; pw
  | double _ => dsimp only; pw

theorem parseExpression_par (hs : PR E (vr E) sel sel) (hd : PR E (vr E) dataType dataType) {inner : Bool} :
    PR E (vr E) (parseExpression sel dataType inner) (parseExpression sel dataType inner) := by
  unfold parseExpression
  refine bindV_par (loop_par (fun x y hxy => exprStep_par hs hd hxy) trivial) (fun st st' h => ?_)
  have := reduce_vr (p := 99999) h
  revert this
  cases reduce 99999 st <;> cases reduce 99999 st' <;> intro h
  · exact errHere_par
  · cases h
  · cases h
  · next l m =>
    cases l with
    | nil =>
      cases m with
      | nil => exact errHere_par
      | cons => cases h
    | cons x l =>
      cases m with
      | nil => cases h
      | cons y m =>
        cases x <;> cases y
        case expr.expr =>
          cases l <;> cases m
          · exact pure_par h.1
          · cases h.2
          · cases h.2
          · exact errHere_par
        all_goals first | exact False.elim h.1 | (cases l <;> cases m <;> first | exact errHere_par | exact False.elim h.2 | cases h.2)

end SqlParse
