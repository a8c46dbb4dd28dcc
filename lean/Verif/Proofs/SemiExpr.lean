import Verif.Proofs.SemiWalk
import Verif.Model.Select
/-! `Sm` for expression.rs, data_type.rs and select.rs. -/
namespace SqlParse
variable {md chk : Bool} {P : Token → Prop} {α β σ : Type} {sel dt : Prog Ast}

theorem orderFlag_sm : Sm md chk P orderFlag := by unfold orderFlag; semi
theorem orderItem_sm : Sm md chk P orderItem := by unfold orderItem; semi
theorem exprOuterWith_sm (hs : Sm md chk Top sel) : Sm md chk P (exprOuterWith sel) := by unfold exprOuterWith; semi
theorem exprParen_sm : Sm md chk P exprParen := by unfold exprParen; semi
theorem functionOf_still {t : Token} {sp : Span} : Still (functionOf t sp) := by unfold functionOf; still
theorem parseFunction_sm {t : Token} {sp : Span} (hs : Sm md chk Top sel) : Sm md chk P (parseFunction sel t sp) := by unfold parseFunction; semi
theorem timeUnit_sm : Sm md chk P timeUnit := by unfold timeUnit; semi
theorem inList_sm : Sm md chk P inList := by unfold inList; semi
theorem popLhs_still {m : String} {st : List RM} : Still (popLhs m st) := by unfold popLhs; still
theorem shifted_sm {r : Except String (List RM)} : Sm md chk P (shifted r) := by unfold shifted; semi
theorem doBin_sm {op : BinOp} {st : List RM} (h : ∀ t, P t → t ≠ .semiColon) : Sm md chk P (doBin op st) := by unfold doBin; semi
theorem doUn_sm {op : UnOp} {st : List RM} (h : ∀ t, P t → t ≠ .semiColon) : Sm md chk P (doUn op st) := by unfold doUn; semi
theorem doExpr_sm {st : List RM} {p : Prog Ast} (h : Sm md chk P p) : Sm md chk P (doExpr st p) := by unfold doExpr; semi
theorem exprIn_sm {st : List RM} : Sm md chk P (exprIn st) := by unfold exprIn; semi
theorem isWord'_sm {sp : Span} : Sm md chk P (isWord' sp) := by unfold isWord'; semi
theorem exprIs_sm {st : List RM} : Sm md chk P (exprIs st) := by unfold exprIs; semi
theorem exprNotIn_sm {st : List RM} : Sm md chk P (exprNotIn st) := by unfold exprNotIn; semi
theorem intervalParts_still {sp : Span} {acc : List Nat} {l : List (List Char)} : Still (intervalParts sp acc l) := by
  induction l generalizing acc with
  | nil => exact Still.ret
  | cons w ws ih =>
    unfold intervalParts
    split
    · exact ih
    · exact err_still.seq fun _ => ih
theorem intervalValue_sm : Sm md chk P intervalValue := by unfold intervalValue; semi
theorem exprInterval_sm (h : ∀ t, P t → t ≠ .semiColon) : Sm md chk P exprInterval := by unfold exprInterval; semi
theorem timestampArgs_sm (hs : Sm md chk Top sel) : Sm md chk P (timestampArgs sel) := by unfold timestampArgs; semi
theorem exprTimestampAdd_sm (hs : Sm md chk Top sel) (h : ∀ t, P t → t ≠ .semiColon) : Sm md chk P (exprTimestampAdd sel) := by unfold exprTimestampAdd; semi
theorem exprTimestampDiff_sm (hs : Sm md chk Top sel) (h : ∀ t, P t → t ≠ .semiColon) : Sm md chk P (exprTimestampDiff sel) := by unfold exprTimestampDiff; semi
theorem castArgs_sm (hs : Sm md chk Top sel) (hd : Sm md chk Top dt) : Sm md chk P (castArgs sel dt) := by unfold castArgs; semi
theorem exprCast_sm (hs : Sm md chk Top sel) (hd : Sm md chk Top dt) : Sm md chk P (exprCast sel dt) := by unfold exprCast; semi
theorem exprCount_sm (hs : Sm md chk Top sel) : Sm md chk P (exprCount sel) := by unfold exprCount; semi
theorem exprGroupConcat_sm (hs : Sm md chk Top sel) : Sm md chk P (exprGroupConcat sel) := by unfold exprGroupConcat; semi
theorem extractArgs_sm (hs : Sm md chk Top sel) : Sm md chk P (extractArgs sel) := by unfold extractArgs; semi
theorem exprExtract_sm (hs : Sm md chk Top sel) : Sm md chk P (exprExtract sel) := by unfold exprExtract; semi
theorem exprLeft_sm (hs : Sm md chk Top sel) (h : ∀ t, P t → t ≠ .semiColon) : Sm md chk P (exprLeft sel) := by unfold exprLeft; semi
theorem identParts_sm {a : Ast} : Sm md chk P (identParts a) := by unfold identParts; semi
theorem exprWord_sm (hs : Sm md chk Top sel) (h : ∀ t, P t → t ≠ .semiColon) : Sm md chk P (exprWord sel) := by unfold exprWord; semi
theorem exprArg_sm (h : ∀ t, P t → t ≠ .semiColon) : Sm md chk P exprArg := by unfold exprArg; semi
theorem exprListHack_sm (h : ∀ t, P t → t ≠ .semiColon) : Sm md chk P exprListHack := by unfold exprListHack; semi
theorem exprDollar_sm {n : Nat} (h : ∀ t, P t → t ≠ .semiColon) : Sm md chk P (exprDollar n) := by unfold exprDollar; semi
theorem exprParens_sm : Sm md chk P exprParens := by unfold exprParens; semi
theorem exprExists_sm : Sm md chk P exprExists := by unfold exprExists; semi
theorem caseWhen_sm : Sm md chk P caseWhen := by unfold caseWhen; semi
theorem caseBody_sm : Sm md chk P caseBody := by unfold caseBody; semi
theorem exprCase_sm : Sm md chk P exprCase := by unfold exprCase; semi
theorem exprVariable_sm : Sm md chk P exprVariable := by unfold exprVariable; semi
theorem exprStep_sm (hs : Sm md chk Top sel) (hd : Sm md chk Top dt) {inner : Bool} {st : List RM} : Sm md chk Top (exprStep sel dt inner st) := by unfold exprStep; semi
theorem parseExpression_sm (hs : Sm md chk Top sel) (hd : Sm md chk Top dt) {inner : Bool} : Sm md chk P (parseExpression sel dt inner) := by unfold parseExpression; semi
theorem parseWidth_sm : Sm md chk P parseWidth := by unfold parseWidth; semi
theorem parseWidthReq_sm : Sm md chk P parseWidthReq := by unfold parseWidthReq; semi
theorem enumSetLoop_sm : Sm md chk P enumSetLoop := by unfold enumSetLoop; semi
theorem enumSetValues_sm : Sm md chk P enumSetValues := by unfold enumSetValues; semi
theorem typeOf_sm : Sm md chk P typeOf := by unfold typeOf; semi
theorem notNull_sm : Sm md chk P notNull := by unfold notNull; semi
theorem parenExprOrInvalid_sm : Sm md chk P parenExprOrInvalid := by unfold parenExprOrInvalid; semi
theorem typeProperty_sm {b : Bool} : Sm md chk P (typeProperty b) := by unfold typeProperty; semi
theorem parseDataType_sm {b : Bool} : Sm md chk P (parseDataType b) := by unfold parseDataType; semi
theorem selectExpr_sm : Sm md chk P selectExpr := by unfold selectExpr; semi
theorem aliasOpt_sm : Sm md chk P aliasOpt := by unfold aliasOpt; semi
theorem hintFor_sm : Sm md chk P hintFor := by unfold hintFor; semi
theorem hintIndexList_sm : Sm md chk P hintIndexList := by unfold hintIndexList; semi
theorem indexHint_sm : Sm md chk P indexHint := by unfold indexHint; semi
theorem checkHints_still {l : List Ast} : Still (checkHints l) := by unfold checkHints; still
theorem tableReferenceInner_sm : Sm md chk P tableReferenceInner := by unfold tableReferenceInner; semi
theorem sideJoin_sm {k : Keyword} : Sm md chk P (sideJoin k) := by unfold sideJoin; semi
theorem joinType_sm : Sm md chk P joinType := by unfold joinType; semi
theorem joinSpecification_sm : Sm md chk P joinSpecification := by unfold joinSpecification; semi
theorem tableReference_sm : Sm md chk P tableReference := by unfold tableReference; semi
theorem kwExpr_sm {k : Keyword} : Sm md chk P (kwExpr k) := by unfold kwExpr; semi
theorem groupBy_sm : Sm md chk P groupBy := by unfold groupBy; semi
theorem orderBy_sm : Sm md chk P orderBy := by unfold orderBy; semi
theorem limitClause_sm : Sm md chk P limitClause := by unfold limitClause; semi
theorem lockStrength_sm : Sm md chk P lockStrength := by unfold lockStrength; semi
theorem lockWait_sm : Sm md chk P lockWait := by unfold lockWait; semi
theorem lockOf_sm : Sm md chk P lockOf := by unfold lockOf; semi
theorem locking_sm : Sm md chk P locking := by unfold locking; semi
theorem parseSelect_sm : Sm md chk P parseSelect := by unfold parseSelect; semi
theorem exprOuter_sm : Sm md chk P exprOuter := by unfold exprOuter; semi

end SqlParse
