import Verif.Proofs.ParDataType
/-! Corresponding runs of select.rs. -/
namespace SqlParse
variable {E : Par}

theorem selectExpr_par : PR E (vr E) selectExpr selectExpr := by unfold selectExpr; pw
theorem isPlainWord_par {t t' : Token} (h : E.tok t t') : t'.isPlainWord = t.isPlainWord := by cases h <;> rfl
theorem aliasOpt_par : PR E (vr E) aliasOpt aliasOpt := by
  unfold aliasOpt
  refine bind_par skw_par (fun a a' ha => bind_par curT_par (fun t t' ht => ?_))
  rw [isPlainWord_par ht]
  pw
theorem hintFor_par : PR E (vr E) hintFor hintFor := by unfold hintFor; pw
theorem hintIndexList_par : PR E (vr E) hintIndexList hintIndexList := by
  unfold hintIndexList
  have := @isRParenComma_end E
  pw
theorem indexHint_par : PR E (vr E) indexHint indexHint := by unfold indexHint; pw
theorem checkHints_par {h h' : List Ast} (hh : vr E h h') : PR E (vr E) (checkHints h) (checkHints h') := by unfold checkHints; pw
theorem tableReferenceInner_par : PR E (vr E) tableReferenceInner tableReferenceInner := by unfold tableReferenceInner; pw
theorem sideJoin_par {k : Keyword} (hw : k.isWord = true := by first | rfl | assumption) : PR E (vr E) (sideJoin k) (sideJoin k) := by unfold sideJoin; pw
theorem joinType_par : PR E (vr E) joinType joinType := by unfold joinType; pw
theorem joinSpecification_par : PR E (vr E) joinSpecification joinSpecification := by unfold joinSpecification; pw
theorem tableReference_par : PR E (vr E) tableReference tableReference := by unfold tableReference; pw
theorem kwExpr_par {k : Keyword} (hw : k.isWord = true := by first | rfl | assumption) : PR E (vr E) (kwExpr k) (kwExpr k) := by unfold kwExpr; pw
theorem groupBy_par : PR E (vr E) groupBy groupBy := by unfold groupBy; pw
theorem orderBy_par : PR E (vr E) orderBy orderBy := by unfold orderBy; pw
theorem limitClause_par : PR E (vr E) limitClause limitClause := by unfold limitClause; pw
theorem lockStrength_par : PR E (vr E) lockStrength lockStrength := by unfold lockStrength; pw
theorem lockWait_par : PR E (vr E) lockWait lockWait := by unfold lockWait; pw
theorem lockOf_par : PR E (vr E) lockOf lockOf := by unfold lockOf; pw
theorem locking_par : PR E (vr E) locking locking := by unfold locking; pw
theorem parseSelect_par : PR E (vr E) parseSelect parseSelect := by unfold parseSelect; pw
theorem exprOuter_par : PR E (vr E) exprOuter exprOuter := by unfold exprOuter; exact exprOuterWith_par parseSelect_par

end SqlParse
