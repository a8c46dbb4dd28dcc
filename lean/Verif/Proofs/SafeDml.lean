import Verif.Proofs.SafeSelect
import Verif.Model.Dml
/-! `SafeT` for delete.rs, update.rs, insert_replace.rs, rename.rs, truncate.rs and drop.rs. -/
namespace SqlParse
variable {C : Ctx} {P : Token → Prop}

theorem returningClause_safe : SafeT P C returningClause (good C) := by unfold returningClause; walk
theorem deleteTables_safe : SafeT P C deleteTables (good C) := by unfold deleteTables; walk
theorem deleteUsing_safe {using_ : List Ast} (husing_ : good C using_) : SafeT P C (deleteUsing using_) (good C) := by unfold deleteUsing; walk
theorem parseDelete_safe : SafeT P C parseDelete (good C) := by unfold parseDelete; walk
theorem updateSet_safe : SafeT P C updateSet (good C) := by unfold updateSet; walk
theorem updateReturning_bind {β : Type} {f : Option (Span × List Ast) → Prog β} {Q : β → Prop}
    (hf : ∀ r, good C r → (r.isSome = true → C.E ∨ C.opts.dialect = .postgreSQL) → Safe C (f r) Q) :
    SafeT P C (updateReturning >>= f) Q := by
  refine bind_safe (Q1 := fun r => good C r ∧ (r.isSome = true → C.E ∨ C.opts.dialect = .postgreSQL)) ?_ (fun r h => hf r h.1 h.2)
  unfold updateReturning
  walk
  all_goals first
    | exact ⟨by gd, fun _ => gate_ok (by assumption) (by assumption)⟩
    | exact ⟨by gd, fun h => by cases h⟩
theorem parseUpdate_safe : SafeT P C parseUpdate (good C) := by unfold parseUpdate; walk
theorem parenItems_safe {α : Type} [HasGood α] {m : String} {item : Prog α} (hi : Safe C item (good C))
    (he : EndOK isRParen m := by lit) : SafeT P C (parenItems item m) (good C) := by unfold parenItems; walk
theorem insertColumns_safe : SafeT P C insertColumns (good C) := by unfold insertColumns; walk
theorem valuesRow_safe : SafeT P C valuesRow (good C) := by unfold valuesRow; walk
theorem setPair_safe : SafeT P C setPair (good C) := by unfold setPair; walk
def BodyOK (C : Ctx) (cols : List Ast) (r : Option (Span × List (List Ast)) × Option Ast × Option Ast) : Prop :=
  C.E ∨ (r.1.isSome, r.2.1.isSome, r.2.2.isSome) = (true, false, false) ∨
    (r.1.isSome, r.2.1.isSome, r.2.2.isSome) = (false, true, false) ∨
    ((r.1.isSome, r.2.1.isSome, r.2.2.isSome) = (false, false, true) ∧ cols = [])
theorem insertBody_bind {columns : List Ast} {β : Type}
    {f : Option (Span × List (List Ast)) × Option Ast × Option Ast → Prog β} {Q : β → Prop} (hcolumns : good C columns)
    (hf : ∀ a b c, good C a → good C b → good C c → BodyOK C columns (a, b, c) → Safe C (f (a, b, c)) Q) :
    SafeT P C (insertBody columns >>= f) Q := by
  refine bind_safe (Q1 := fun r => good C r.1 ∧ good C r.2.1 ∧ good C r.2.2 ∧ BodyOK C columns r) ?_
    (fun r h => hf r.1 r.2.1 r.2.2 h.1 h.2.1 h.2.2.1 h.2.2.2)
  unfold insertBody
  refine curT_bind (fun t _ => ite_safe (fun _ => ?_) (fun _ => ite_safe (fun _ => ?_) (fun _ => ite_safe (fun _ => ?_) (fun _ => ?_))))
  · exact bind_good parseSelect_safe (fun s hs => pure_safe ⟨by gd, by gd, by gd, .inr (.inr (.inl rfl))⟩)
  · exact bind_good consume_safe (fun s hs => bind_good (commaList_safe valuesRow_safe) (fun r hr =>
      pure_safe ⟨by gd, by gd, by gd, .inr (.inl rfl)⟩))
  · refine bind_good ckw_safe (fun s hs => bind_good (commaList_safe setPair_safe) (fun r hr => when_bind (fun hc => ?_)
      (fun hc => pure_safe ⟨by gd, by gd, by gd, ?_⟩)))
    · refine bind_safe (spanOf_list hcolumns ?_ rfl) (fun sp hsp => err_safe hsp (by gd))
      intro e; subst e; simp at hc
    · cases columns with
      | nil => exact .inr (.inr (.inr ⟨rfl, rfl⟩))
      | cons a l => exact .inl (hc rfl)
  · exact expectedError_bind (fun hE => pure_safe ⟨by gd, by gd, by gd, .inl hE⟩)

theorem checkInsertFlags_safe' {ins : Bool} {l : List Ast} (h : good C l) :
    SafeT P C (checkInsertFlags ins l) (fun _ => C.E ∨ ins = true ∨ ∀ f ∈ l, badReplaceFlag f = false) := by
  induction l generalizing P with
  | nil => exact ret_safe (.inr (.inr (by simp)))
  | cons a l ih =>
    unfold checkInsertFlags
    have ha : good C a := h a (by simp)
    refine when_bind (fun _ => ?_) (fun hc => (ih (fun b hb => h b (by simp [hb]))).imp ?_)
    · exact bind_good (spanOf_safe ha rfl) (fun sp hsp => err_safe hsp (by gd))
    · intro _ hl
      rcases hl with hl | hl | hl
      · exact .inl hl
      · exact .inr (.inl hl)
      · cases hb : badReplaceFlag a with
        | true =>
          cases ins with
          | true => exact .inr (.inl rfl)
          | false => exact .inl (hc (by simpa [badReplaceFlag] using hb))
        | false =>
          refine .inr (.inr ?_)
          intro f hf
          rcases List.mem_cons.1 hf with rfl | hf
          · exact hb
          · exact hl f hf
theorem checkInsertFlags_bind {ins : Bool} {l : List Ast} {β : Type} {f : Unit → Prog β} {Q : β → Prop} (h : good C l)
    (hf : (C.E ∨ ins = true ∨ ∀ f ∈ l, badReplaceFlag f = false) → Safe C (f ()) Q) :
    SafeT P C (checkInsertFlags ins l >>= f) Q := bind_safe (checkInsertFlags_safe' h) (fun _ h => hf h)
theorem conflictTarget_safe : SafeT P C conflictTarget (good C) := by unfold conflictTarget; walk
theorem assignment_safe : SafeT P C assignment (good C) := by unfold assignment; walk
theorem conflictAction_safe : SafeT P C conflictAction (good C) := by unfold conflictAction; walk
theorem insertOn_safe : SafeT P C insertOn (good C) := by unfold insertOn; walk
theorem parseInsertReplace_safe : SafeT P C parseInsertReplace (good C) := by 
  unfold parseInsertReplace; walk
  next hfl _ _ _ _ _ _ _ _ _ _ _ _ hb _ _ _ _ _ _ =>
  show C.E ∨ _
  rcases hfl with h | h
  · exact .inl h
  rcases hb with h' | h'
  · exact .inl h'
  refine .inr ⟨?_, ?_⟩
  · simpa [isSome'_toF] using h'
  · rcases h with h | h
    · exact .inl (of_decide_eq_true h)
    · refine .inr (fun f hf => ?_)
      obtain ⟨x, hx, rfl⟩ := List.mem_map.1 hf
      exact h x hx
theorem tableToTable_safe : SafeT P C tableToTable (good C) := by unfold tableToTable; walk
theorem parseRename_safe : SafeT P C parseRename (good C) := by unfold parseRename; walk
theorem parseTruncate_safe : SafeT P C parseTruncate (good C) := by unfold parseTruncate; walk
theorem ifExists_safe : SafeT P C ifExists (good C) := by unfold ifExists; walk
theorem dropTable_safe {d : Span} {tmp : Option Span} (hd : good C d) (htmp : good C tmp) : SafeT P C (dropTable d tmp) (good C) := by 
  unfold dropTable
  refine bind_good ckw_safe (fun t ht => bind_good ifExists_safe (fun ie hie => bind_good (commaList_safe qualifiedName_safe) (fun l hl =>
    isPg_bind (fun pg hpg => bind_safe (Q1 := fun c => good C c ∧ (c.isSome = true → C.opts.dialect = .postgreSQL)) ?_ (fun c hc => pure_safe ?_)))))
  · refine ite_safe (fun h => ?_) (fun _ => ret_safe ⟨trivial, by simp⟩)
    exact (skw_safe).imp (fun _ hc => ⟨hc, fun _ => hpg.1 h⟩)
  · obtain ⟨h1, h2⟩ := hc
    gd
theorem dropIndex_safe {d : Span} (hd : good C d) : SafeT P C (dropIndex d) (good C) := by 
  unfold dropIndex; walk
  next on _ m hm pg hpg h1 h2 =>
  rw [NodeOK_dropIndex, isSome'_toF]
  by_cases hE : C.E
  · exact .inl hE
  · refine .inr ⟨fun h e => hE (h1 ?_), fun h e => hE (h2 ?_)⟩
    · cases on <;> simp_all
    · simp_all
theorem dropView_safe {d : Span} {tmp : Option Span} (hd : good C d) (htmp : good C tmp) : SafeT P C (dropView d tmp) (good C) := by unfold dropView; walk
theorem dropNamed_safe {k : Keyword} (hw : k.isWord = true := by first | rfl | assumption) {name : Prog Ast} (hn : Safe C name (good C)) : SafeT P C (dropNamed k name) (good C) := by
  unfold dropNamed; walk
theorem parseDrop_safe : SafeT P C parseDrop (good C) := by
  unfold parseDrop; walk
  exact isWord_of (by assumption) rfl rfl

end SqlParse
