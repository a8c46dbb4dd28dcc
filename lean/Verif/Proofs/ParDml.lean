import Verif.Proofs.ParSelect
/-! Corresponding runs of delete.rs, update.rs, insert_replace.rs, rename.rs, truncate.rs and drop.rs. -/
namespace SqlParse
variable {E : Par}

theorem returningClause_par : PR E (vr E) returningClause returningClause := by unfold returningClause; pw
theorem deleteTables_par : PR E (vr E) deleteTables deleteTables := by unfold deleteTables; pw
theorem deleteUsing_par {u u' : List Ast} (h : vr E u u') : PR E (vr E) (deleteUsing u) (deleteUsing u') := by unfold deleteUsing; pw
theorem parseDelete_par : PR E (vr E) parseDelete parseDelete := by unfold parseDelete; pw
theorem updateSet_par : PR E (vr E) updateSet updateSet := by unfold updateSet; pw
theorem updateReturning_par : PR E (vr E) updateReturning updateReturning := by unfold updateReturning; pw
theorem parseUpdate_par : PR E (vr E) parseUpdate parseUpdate := by unfold parseUpdate; pw
theorem checkInsertFlags_par' {b : Bool} : ∀ {l m : List Ast}, vr E l m → PR E (vr E) (checkInsertFlags b l) (checkInsertFlags b m)
  | [], [], _ => ret_par rfl
  | a :: l, c :: m, h => by
    unfold checkInsertFlags
    have h1 : vr E a c := h.1
    rw [vr_kind h1]
    exact bind_par (when_par Iff.rfl (fun _ _ => bind_par (spanOf_par h1) (fun _ _ hs => err_par hs frags_nil_par)))
      (fun _ _ _ => checkInsertFlags_par' h.2)
theorem checkInsertFlags_par {b b' : Bool} {l m : List Ast} (hb : b = b') (h : vr E l m) :
    PR E (vr E) (checkInsertFlags b l) (checkInsertFlags b' m) := by subst hb; exact checkInsertFlags_par' h
theorem parenItems_par {α : Type} [VRel α] {m : String} {p q : Prog α} (h : PR E (vr E) p q) :
    PR E (listR (vr E)) (parenItems p m) (parenItems q m) := by
  unfold parenItems
  refine recoveredAcc_par isRParen_end (accLoop_par (fun x y hxy => ?_) (nil_vr (α := α)))
  refine bind_par h (fun a b hab => bind_par (skips_par (t := .comma)) (fun m m' hmm => pure_par ?_))
  cases hmm
  have := app_vr hxy (cons_vr hab nil_vr)
  split <;> exact this
theorem insertColumns_par : PR E (vr E) insertColumns insertColumns := by unfold insertColumns; pw
theorem valuesRow_par : PR E (vr E) valuesRow valuesRow := by unfold valuesRow; pw
theorem setPair_par : PR E (vr E) setPair setPair := by unfold setPair; pw
theorem insertBody_par {l m : List Ast} (h : vr E l m) : PR E (vr E) (insertBody l) (insertBody m) := by unfold insertBody; pw
theorem conflictTarget_par : PR E (vr E) conflictTarget conflictTarget := by unfold conflictTarget; pw
theorem assignment_par : PR E (vr E) assignment assignment := by unfold assignment; pw
theorem conflictAction_par : PR E (vr E) conflictAction conflictAction := by unfold conflictAction; pw
theorem insertOn_par : PR E (vr E) insertOn insertOn := by unfold insertOn; pw
theorem parseInsertReplace_par : PR E (vr E) parseInsertReplace parseInsertReplace := by unfold parseInsertReplace; pw
theorem tableToTable_par : PR E (vr E) tableToTable tableToTable := by unfold tableToTable; pw
theorem parseRename_par : PR E (vr E) parseRename parseRename := by unfold parseRename; pw
theorem parseTruncate_par : PR E (vr E) parseTruncate parseTruncate := by unfold parseTruncate; pw
theorem ifExists_par : PR E (vr E) ifExists ifExists := by unfold ifExists; pw
theorem dropTable_par {d d' : Span} {o o' : Option Span} (h : vr E d d') (h' : vr E o o') :
    PR E (vr E) (dropTable d o) (dropTable d' o') := by unfold dropTable; pw
theorem dropIndex_par {d d' : Span} (h : vr E d d') : PR E (vr E) (dropIndex d) (dropIndex d') := by unfold dropIndex; pw
theorem dropView_par {d d' : Span} {o o' : Option Span} (h : vr E d d') (h' : vr E o o') :
    PR E (vr E) (dropView d o) (dropView d' o') := by unfold dropView; pw
theorem dropNamed_par {k k' : Keyword} {p q : Prog Ast} (hk : k = k') (h : PR E (vr E) p q) (hw : k.isWord = true := by first | rfl | assumption) :
    PR E (vr E) (dropNamed k p) (dropNamed k' q) := by subst hk; unfold dropNamed; pw
theorem parseDrop_par : PR E (vr E) parseDrop parseDrop := by
  unfold parseDrop
  pw
  exact isWord_of (by assumption) rfl rfl

end SqlParse
