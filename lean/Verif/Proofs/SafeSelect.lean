import Verif.Proofs.SafeDataType
import Verif.Model.Select
/-! `SafeT` for select.rs. -/
namespace SqlParse
variable {C : Ctx} {P : Token → Prop}

theorem selectExpr_safe : SafeT P C selectExpr (good C) := by unfold selectExpr; walk
theorem aliasOpt_safe : SafeT P C aliasOpt (good C) := by unfold aliasOpt; walk
theorem hintFor_safe : SafeT P C hintFor (good C) := by unfold hintFor; walk
theorem hintIndexList_safe : SafeT P C hintIndexList (good C) := by unfold hintIndexList; walk
theorem indexHint_safe : SafeT P C indexHint (good C) := by unfold indexHint; walk
theorem checkHints_bind {hints : List Ast} {β : Type} {f : Unit → Prog β} {Q : β → Prop} (h : good C hints)
    (hf : (hints ≠ [] → C.E ∨ C.opts.dialect = .mariaDB) → Safe C (f ()) Q) : SafeT P C (checkHints hints >>= f) Q := by
  unfold checkHints
  refine bind_safe (Q1 := fun _ => hints ≠ [] → C.E ∨ C.opts.dialect = .mariaDB) ?_ (fun _ h => hf h)
  refine isMaria_bind (fun b hb => ?_)
  unfold Prog.when
  refine ite_safe (fun h1 => ?_) (fun h1 => pure_safe ?_)
  · have hl : hints ≠ [] := by intro e; subst e; simp at h1
    exact bind_safe (spanOf_list h hl rfl) (fun sp hsp => (err_safe hsp (by gd)).imp (fun _ hE _ => .inl hE))
  · intro hl
    refine .inr (hb.1 ?_)
    cases hints <;> simp_all
theorem tableReferenceInner_safe : SafeT P C tableReferenceInner (good C) := by 
  unfold tableReferenceInner; walk
  next h => intro hl; exact h (by intro e; subst e; exact hl rfl)
theorem sideJoin_safe {k : Keyword} (hw : k.isWord = true := by first | rfl | assumption) : SafeT P C (sideJoin k) (good C) := by unfold sideJoin; walk
theorem joinType_safe : SafeT P C joinType (good C) := by unfold joinType; walk
theorem joinSpecification_safe : SafeT P C joinSpecification (good C) := by unfold joinSpecification; walk
theorem tableReference_safe : SafeT P C tableReference (good C) := by unfold tableReference; walk
theorem kwExpr_safe {k : Keyword} (hw : k.isWord = true := by first | rfl | assumption) : SafeT P C (kwExpr k) (good C) := by unfold kwExpr; walk
theorem groupBy_safe : SafeT P C groupBy (good C) := by unfold groupBy; walk
theorem orderBy_safe : SafeT P C orderBy (good C) := by unfold orderBy; walk
theorem limitClause_safe : SafeT P C limitClause (good C) := by unfold limitClause; walk
theorem lockStrength_safe : SafeT P C lockStrength (good C) := by unfold lockStrength; walk
theorem lockWait_safe : SafeT P C lockWait (good C) := by unfold lockWait; walk
theorem lockOf_safe : SafeT P C lockOf (good C) := by unfold lockOf; walk
theorem locking_safe : SafeT P C locking (good C) := by unfold locking; walk
theorem parseSelect_safe : SafeT P C parseSelect (good C) := by unfold parseSelect; walk
theorem exprOuter_safe : SafeT P C exprOuter (good C) := by unfold exprOuter; walk

end SqlParse
