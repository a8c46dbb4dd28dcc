import Verif.Proofs.TermWalk
import Verif.Model.Select
/-! Termination of expression.rs, data_type.rs and select.rs. -/
namespace SqlParse
variable {m : Bool} {P : Token → Prop} {α β σ : Type} {sel dt : Prog Ast}

theorem orderFlag_tm : Tm m P orderFlag Bot := by unfold orderFlag; term
theorem orderItem_tm : Tm true P orderItem Bot := by unfold orderItem; term
theorem exprOuterWith_tm (hs : Tm true Top sel Bot) : Tm true P (exprOuterWith sel) Bot := by unfold exprOuterWith; term
theorem exprParen_tm : Tm true P exprParen Bot := by unfold exprParen; term
theorem functionOf_stay {t : Token} {sp : Span} : Stay (functionOf t sp) := by
  unfold functionOf; stay
theorem parseFunction_tm {t : Token} {sp : Span} (hs : Tm true Top sel Bot) : Tm true P (parseFunction sel t sp) Bot := by
  unfold parseFunction; term
theorem timeUnit_tm : Tm m P timeUnit Bot := by unfold timeUnit; term
theorem inList_tm : Tm true P inList Bot := by unfold inList; term
theorem popLhs_stay {m : String} {st : List RM} : Stay (popLhs m st) := by unfold popLhs; stay
theorem shifted_tm {r : Except String (List RM)} : Tm m P (shifted r) Bot := by
  cases r
  · exact errHere_tm
  · exact pure_tm id
theorem doBin_pr {op : BinOp} {st : List RM} (h : ∀ t, P t → t ≠ .eof) : Tm m P (doBin op st) Top :=
  bind_pr (consume_pr h) fun _ => shifted_tm
theorem doUn_pr {op : UnOp} {st : List RM} (h : ∀ t, P t → t ≠ .eof) : Tm m P (doUn op st) Top :=
  bind_pr (consume_pr h) fun _ => shifted_tm
theorem doExpr_pr {st : List RM} {p : Prog Ast} (h : Tm m P p Top) : Tm m P (doExpr st p) Top :=
  bind_pr h fun _ => shifted_tm
theorem exprIn_pr {st : List RM} : Tm m P (exprIn st) Top := by unfold exprIn; term
theorem isWord'_tm {sp : Span} : Tm m P (isWord' sp) Bot := by unfold isWord'; term
theorem exprIs_pr {st : List RM} : Tm m P (exprIs st) Top := by unfold exprIs; term
theorem exprNotIn_pr {st : List RM} : Tm m P (exprNotIn st) Top := by unfold exprNotIn; term
theorem intervalParts_stay {sp : Span} {acc : List Nat} {l : List (List Char)} : Stay (intervalParts sp acc l) := by
  induction l generalizing acc with
  | nil => exact Stay.ret
  | cons w ws ih =>
    unfold intervalParts
    split
    · exact ih
    · exact err_stay.seq fun _ => ih
theorem intervalValue_tm : Tm m P intervalValue Bot := by unfold intervalValue; term
theorem exprInterval_pr (h : ∀ t, P t → t ≠ .eof) : Tm m P exprInterval Top := by unfold exprInterval; term
theorem timestampArgs_tm (hs : Tm true Top sel Bot) : Tm true P (timestampArgs sel) Bot := by unfold timestampArgs; term
theorem exprTimestampAdd_pr (hs : Tm true Top sel Bot) (h : ∀ t, P t → t ≠ .eof) : Tm m P (exprTimestampAdd sel) Top := by
  unfold exprTimestampAdd; term
theorem exprTimestampDiff_pr (hs : Tm true Top sel Bot) (h : ∀ t, P t → t ≠ .eof) : Tm m P (exprTimestampDiff sel) Top := by
  unfold exprTimestampDiff; term
theorem castArgs_tm (hs : Tm true Top sel Bot) (hd : Tm true Top dt Bot) : Tm true P (castArgs sel dt) Bot := by
  unfold castArgs; term
theorem exprCast_pr (hs : Tm true Top sel Bot) (hd : Tm true Top dt Bot) : Tm m P (exprCast sel dt) Top := by
  unfold exprCast; term
theorem exprCount_pr (hs : Tm true Top sel Bot) : Tm m P (exprCount sel) Top := by unfold exprCount; term
theorem exprGroupConcat_pr (hs : Tm true Top sel Bot) : Tm m P (exprGroupConcat sel) Top := by unfold exprGroupConcat; term
theorem extractArgs_tm (hs : Tm true Top sel Bot) : Tm true P (extractArgs sel) Bot := by unfold extractArgs; term
theorem exprExtract_pr (hs : Tm true Top sel Bot) : Tm m P (exprExtract sel) Top := by unfold exprExtract; term
theorem exprLeft_pr (hs : Tm true Top sel Bot) (h : ∀ t, P t → t ≠ .eof) : Tm m P (exprLeft sel) Top := by
  unfold exprLeft; term
theorem identParts_tm {a : Ast} : Tm m P (identParts a) Bot := by
  unfold identParts
  refine loop_tm fun parts => ?_
  term
theorem exprWord_pr (hs : Tm true Top sel Bot) (h : ∀ t, P t → t ≠ .eof) : Tm m P (exprWord sel) Top := by
  unfold exprWord; term
theorem exprArg_pr (h : ∀ t, P t → t ≠ .eof) : Tm m P exprArg Top := by unfold exprArg; term
theorem exprListHack_pr (h : ∀ t, P t → t ≠ .eof) : Tm m P exprListHack Top := by unfold exprListHack; term
theorem exprDollar_pr {n : Nat} (h : ∀ t, P t → t ≠ .eof) : Tm m P (exprDollar n) Top := by unfold exprDollar; term
theorem exprParens_pr : Tm m P exprParens Top := by unfold exprParens; term
theorem exprExists_pr : Tm m P exprExists Top := by unfold exprExists; term
theorem caseWhen_pr : Tm m P caseWhen Top := by unfold caseWhen; term
theorem caseBody_tm : Tm true P caseBody Bot := by unfold caseBody; term
theorem exprCase_pr : Tm m P exprCase Top := by unfold exprCase; term
theorem exprVariable_pr : Tm m P exprVariable Top := by unfold exprVariable; term

theorem exprStep_tm (hs : Tm true Top sel Bot) (hd : Tm true Top dt Bot) {inner : Bool} {st : List RM} :
    Tm m Top (exprStep sel dt inner st) IsCont := by unfold exprStep; term
theorem parseExpression_tm (hs : Tm true Top sel Bot) (hd : Tm true Top dt Bot) {inner : Bool} :
    Tm m P (parseExpression sel dt inner) Bot := by
  unfold parseExpression
  refine bind_tm (loop_tm fun st => exprStep_tm hs hd) fun st => ?_
  split
  · exact pure_tm id
  · exact errHere_tm
  · exact errHere_tm

theorem parseWidth_tm : Tm m P parseWidth Bot := by unfold parseWidth; term
theorem parseWidthReq_tm : Tm m P parseWidthReq Bot := by unfold parseWidthReq; term
theorem enumSetLoop_tm : Tm m P enumSetLoop Bot := by
  unfold enumSetLoop
  refine loop_tm fun acc => bind_po (tryP_po string_pr) (fun s => ?_) (pure_tm id)
  simp only
  refine bind_tm (tryP_tm ?_) fun r => pure_tm ?_
  · term
  · exact id
theorem enumSetValues_tm : Tm m P enumSetValues Bot := by unfold enumSetValues; term
theorem typeOf_tm : Tm m P typeOf Bot := by unfold typeOf; term
theorem notNull_pr : Tm m P notNull Top := by unfold notNull; term
theorem parenExprOrInvalid_tm : Tm true P parenExprOrInvalid Bot := by unfold parenExprOrInvalid; term
theorem typeProperty_po {b : Bool} : Tm m P (typeProperty b) IsSome := by unfold typeProperty; term
theorem parseDataType_tm {b : Bool} : Tm true P (parseDataType b) Bot := by unfold parseDataType; term

theorem selectExpr_tm : Tm true P selectExpr Bot := by unfold selectExpr; term
theorem aliasOpt_tm : Tm m P aliasOpt Bot := by unfold aliasOpt; term
theorem hintFor_tm : Tm m P hintFor Bot := by unfold hintFor; term
theorem hintIndexList_tm : Tm m P hintIndexList Bot := by
  unfold hintIndexList
  refine loop_tm fun acc => ?_
  term
theorem indexHint_po : Tm m P indexHint IsSome := by unfold indexHint; term
theorem checkHints_stay {l : List Ast} : Stay (checkHints l) := by unfold checkHints; stay
theorem tableReferenceInner_tm : Tm true P tableReferenceInner Bot := by unfold tableReferenceInner; term
theorem sideJoin_pr {k : Keyword} : Tm m P (sideJoin k) Top := by unfold sideJoin; term
theorem joinType_po : Tm m P joinType IsSome := by unfold joinType; term
theorem joinSpecification_tm : Tm true P joinSpecification Bot := by unfold joinSpecification; term
theorem tableReference_tm : Tm true P tableReference Bot := by
  unfold tableReference
  refine bind_tm tableReferenceInner_tm fun a => loop_tm fun ans => ?_
  term
theorem kwExpr_tm {k : Keyword} : Tm true P (kwExpr k) Bot := by unfold kwExpr; term
theorem groupBy_tm : Tm true P groupBy Bot := by unfold groupBy; term
theorem orderBy_tm : Tm true P orderBy Bot := by unfold orderBy; term
theorem limitClause_tm : Tm true P limitClause Bot := by unfold limitClause; term
theorem lockStrength_tm : Tm m P lockStrength Bot := by unfold lockStrength; term
theorem lockWait_tm : Tm m P lockWait Bot := by unfold lockWait; term
theorem lockOf_tm : Tm m P lockOf Bot := by unfold lockOf; term
theorem locking_tm : Tm m P locking Bot := by unfold locking; term
theorem parseSelect_pr : Tm m P parseSelect Top := by unfold parseSelect; term
theorem exprOuter_tm : Tm true P exprOuter Bot := exprOuterWith_tm (Tm.bot parseSelect_pr)

end SqlParse
