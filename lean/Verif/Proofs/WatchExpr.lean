import Verif.Proofs.WatchWalk
import Verif.Proofs.SemiExpr
/-! `Cw` for expression.rs, data_type.rs and select.rs. -/
namespace SqlParse
variable {E : Wsrc} {P : Token → Prop} {α β σ : Type} {sel dt : Prog Ast}

theorem orderFlag_cw : Cw E P orderFlag := by unfold orderFlag; watch
theorem orderItem_cw : Cw E P orderItem := by unfold orderItem; watch
theorem exprOuterWith_cw (hs : Cw E Top sel) : Cw E P (exprOuterWith sel) := by unfold exprOuterWith; watch
theorem exprParen_cw : Cw E P exprParen := by unfold exprParen; watch
theorem parseFunction_cw {t : Token} {sp : Span} (hs : Cw E Top sel) : Cw E P (parseFunction sel t sp) := by unfold parseFunction; watch
theorem timeUnit_cw : Cw E P timeUnit := by unfold timeUnit; watch
theorem inList_cw : Cw E P inList := by unfold inList; watch
theorem shifted_cw {r : Except String (List RM)} : Cw E P (shifted r) := by unfold shifted; watch
theorem doBin_cw {op : BinOp} {st : List RM} (h : ∀ t, P t → Unwatched t) : Cw E P (doBin op st) := by unfold doBin; watch
theorem doUn_cw {op : UnOp} {st : List RM} (h : ∀ t, P t → Unwatched t) : Cw E P (doUn op st) := by unfold doUn; watch
theorem doExpr_cw {st : List RM} {p : Prog Ast} (h : Cw E P p) : Cw E P (doExpr st p) := by unfold doExpr; watch
theorem exprIn_cw {st : List RM} : Cw E P (exprIn st) := by unfold exprIn; watch
theorem isWord'_cw {sp : Span} : Cw E P (isWord' sp) := by unfold isWord'; watch
theorem exprIs_cw {st : List RM} : Cw E P (exprIs st) := by unfold exprIs; watch
theorem exprNotIn_cw {st : List RM} : Cw E P (exprNotIn st) := by unfold exprNotIn; watch
theorem intervalValue_cw : Cw E P intervalValue := by unfold intervalValue; watch
theorem exprInterval_cw (h : ∀ t, P t → Unwatched t) : Cw E P exprInterval := by unfold exprInterval; watch
theorem timestampArgs_cw (hs : Cw E Top sel) : Cw E P (timestampArgs sel) := by unfold timestampArgs; watch
theorem exprTimestampAdd_cw (hs : Cw E Top sel) (h : ∀ t, P t → Unwatched t) : Cw E P (exprTimestampAdd sel) := by unfold exprTimestampAdd; watch
theorem exprTimestampDiff_cw (hs : Cw E Top sel) (h : ∀ t, P t → Unwatched t) : Cw E P (exprTimestampDiff sel) := by unfold exprTimestampDiff; watch
theorem castArgs_cw (hs : Cw E Top sel) (hd : Cw E Top dt) : Cw E P (castArgs sel dt) := by unfold castArgs; watch
theorem exprCast_cw (hs : Cw E Top sel) (hd : Cw E Top dt) : Cw E P (exprCast sel dt) := by unfold exprCast; watch
theorem exprCount_cw (hs : Cw E Top sel) : Cw E P (exprCount sel) := by unfold exprCount; watch
theorem exprGroupConcat_cw (hs : Cw E Top sel) : Cw E P (exprGroupConcat sel) := by unfold exprGroupConcat; watch
theorem extractArgs_cw (hs : Cw E Top sel) : Cw E P (extractArgs sel) := by unfold extractArgs; watch
theorem exprExtract_cw (hs : Cw E Top sel) : Cw E P (exprExtract sel) := by unfold exprExtract; watch
theorem exprLeft_cw (hs : Cw E Top sel) (h : ∀ t, P t → Unwatched t) : Cw E P (exprLeft sel) := by unfold exprLeft; watch
theorem identParts_cw {a : Ast} : Cw E P (identParts a) := by unfold identParts; watch
theorem exprWord_cw (hs : Cw E Top sel) (h : ∀ t, P t → Unwatched t) : Cw E P (exprWord sel) := by unfold exprWord; watch
theorem exprArg_cw (h : ∀ t, P t → Unwatched t) : Cw E P exprArg := by unfold exprArg; watch
theorem exprListHack_cw (h : ∀ t, P t → Unwatched t) : Cw E P exprListHack := by unfold exprListHack; watch
theorem exprDollar_cw {n : Nat} (h : ∀ t, P t → Unwatched t) : Cw E P (exprDollar n) := by unfold exprDollar; watch
theorem exprParens_cw : Cw E P exprParens := by unfold exprParens; watch
theorem exprExists_cw : Cw E P exprExists := by unfold exprExists; watch
theorem caseWhen_cw : Cw E P caseWhen := by unfold caseWhen; watch
theorem caseBody_cwQ : CwQ E P caseBody Succ := by
  unfold caseBody
  refine bindQ_cw (accLoop_cwQ fun acc => ?_) fun r (hr : r.1 = true) => ?_
  · watch
  · rw [if_pos hr]
    refine bindQ_cw (tryP_cwQ (Q := fun _ => True) ?_) ?_
    · show Cw E Top _
      watch
    · rintro _ ⟨a, rfl, -⟩
      exact ret_cwQ rfl
theorem exprCase_cw : Cw E P exprCase := by unfold exprCase; watch
/-- There is no such token. -/
theorem exprVariable_cw : Cw E P exprVariable := by
  have h1 : CwQ E P (stk .atAtGlobal) (· = none) := by
    unfold stk
    intro R n s hR hs hp
    exact curT_cbindQ (P := fun t => Tame t) (fun t ht => by rw [if_neg ht.global]; exact ret_cwQ rfl) R n s hR hs hs.tame
  have h2 : CwQ E Top (ctk .atAtSession) (fun _ => False) := by
    unfold ctk
    intro R n s hR hs hp
    refine curT_cbindQ (P := fun t => Tame t) (fun t ht => ?_) R n s hR hs hs.tame
    rw [if_neg ht.session]
    exact expectedError_cbindQ
  unfold exprVariable
  refine bindQ_cw h1 ?_
  rintro _ rfl
  refine bindQ_cw (Q := fun _ => False) ?_ fun _ h => h.elim
  show CwQ E Top (ctk .atAtSession >>= _) _
  exact bindQ_cw h2 fun _ h => h.elim
theorem exprStep_cw (hs : Cw E Top sel) (hd : Cw E Top dt) {inner : Bool} {st : List RM} : Cw E Top (exprStep sel dt inner st) := by unfold exprStep; watch
theorem parseExpression_cw (hs : Cw E Top sel) (hd : Cw E Top dt) {inner : Bool} : Cw E P (parseExpression sel dt inner) := by unfold parseExpression; watch
theorem parseWidth_cw : Cw E P parseWidth := by unfold parseWidth; watch
theorem parseWidthReq_cw : Cw E P parseWidthReq := by unfold parseWidthReq; watch
theorem enumSetLoop_cwQ : CwQ E P enumSetLoop Succ := by
  unfold enumSetLoop
  refine loop_cwQ fun acc => bindQ_cw (tryP_cwQ (Q := fun _ => True) string_cw) ?_
  rintro _ ⟨s, rfl, -⟩
  refine bindQ_cw (tryP_cwQ (Q := fun _ => True) ?_) ?_
  · show Cw E Top _
    watch
  · rintro _ ⟨b, rfl, -⟩
    refine ret_cwQ ?_
    cases b <;> intro c hc <;> cases hc
    rfl
theorem enumSetValues_cw : Cw E P enumSetValues := by unfold enumSetValues; watch
theorem typeOf_cw : Cw E P typeOf := by unfold typeOf; watch
theorem notNull_cw : Cw E P notNull := by unfold notNull; watch
theorem parenExprOrInvalid_cw : Cw E P parenExprOrInvalid := by unfold parenExprOrInvalid; watch
theorem typeProperty_cw {b : Bool} : Cw E P (typeProperty b) := by unfold typeProperty; watch
theorem parseDataType_cw {b : Bool} : Cw E P (parseDataType b) := by unfold parseDataType; watch
theorem selectExpr_cw : Cw E P selectExpr := by unfold selectExpr; watch
theorem aliasOpt_cw : Cw E P aliasOpt := by unfold aliasOpt; watch
theorem hintFor_cw : Cw E P hintFor := by unfold hintFor; watch
theorem hintIndexList_cw : Cw E P hintIndexList := by unfold hintIndexList; watch
theorem indexHint_cw : Cw E P indexHint := by unfold indexHint; watch
theorem tableReferenceInner_cw : Cw E P tableReferenceInner := by unfold tableReferenceInner; watch
theorem sideJoin_cw {k : Keyword} : Cw E P (sideJoin k) := by unfold sideJoin; watch
theorem joinType_cw : Cw E P joinType := by unfold joinType; watch
theorem joinSpecification_cw : Cw E P joinSpecification := by unfold joinSpecification; watch
theorem tableReference_cw : Cw E P tableReference := by unfold tableReference; watch
theorem kwExpr_cw {k : Keyword} : Cw E P (kwExpr k) := by unfold kwExpr; watch
theorem groupBy_cw : Cw E P groupBy := by unfold groupBy; watch
theorem orderBy_cw : Cw E P orderBy := by unfold orderBy; watch
theorem limitClause_cw : Cw E P limitClause := by unfold limitClause; watch
theorem lockStrength_cw : Cw E P lockStrength := by unfold lockStrength; watch
theorem lockWait_cw : Cw E P lockWait := by unfold lockWait; watch
theorem lockOf_cw : Cw E P lockOf := by unfold lockOf; watch
theorem locking_cw : Cw E P locking := by unfold locking; watch
theorem parseSelect_cw : Cw E P parseSelect := by unfold parseSelect; watch
theorem exprOuter_cw : Cw E P exprOuter := by unfold exprOuter; watch

end SqlParse
