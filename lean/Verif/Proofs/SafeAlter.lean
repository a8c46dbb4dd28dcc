import Verif.Proofs.SafeDml
import Verif.Model.Alter
/-! `SafeT` for alter.rs. -/
namespace SqlParse
variable {C : Ctx} {P : Token → Prop}

theorem dataType_safe : SafeT P C dataType (good C) := by unfold dataType; walk
theorem indexType_safe : SafeT P C indexType (good C) := by unfold indexType; walk
theorem indexOption_safe : SafeT P C indexOption (good C) := by unfold indexOption; walk
theorem indexSize_safe : SafeT P C indexSize (good C) := by unfold indexSize; walk
theorem indexCol_safe : SafeT P C indexCol (good C) := by unfold indexCol; walk
theorem indexCols_safe : SafeT P C indexCols (good C) := by unfold indexCols; walk
theorem parseCols_safe : SafeT P C parseCols (good C) := by unfold parseCols; walk
theorem ifNotExists_safe : SafeT P C ifNotExists (good C) := by unfold ifNotExists; walk
theorem optName_safe : SafeT P C optName (good C) := by unfold optName; walk
theorem constraintOpt_safe : SafeT P C constraintOpt (good C) := by unfold constraintOpt; walk
theorem fkOnType_safe {on : Span} (hon : good C on) : SafeT P C (fkOnType on) (good C) := by unfold fkOnType; walk
theorem fkOnAction_safe : SafeT P C fkOnAction (good C) := by unfold fkOnAction; walk
theorem foreignKeyOn_safe : SafeT P C foreignKeyOn (good C) := by unfold foreignKeyOn; walk
theorem addForeignKey_safe {add : Span} {con : Option (Span × Option Ast)} (hadd : good C add) (hcon : good C con) : SafeT P C (addForeignKey add con) (good C) := by unfold addForeignKey; walk
theorem specialIndex_safe {k : Keyword} (hw : k.isWord = true := by first | rfl | assumption) : SafeT P C (specialIndex k) (good C) := by
  unfold specialIndex; walk
  exact isWord_of (by assumption) rfl rfl
/-- The words after which ADD adds an index. -/
def indexWord (t : Token) : Bool := t.isKw .PRIMARY || t.isKw .INDEX || t.isKw .KEY || t.isKw .FULLTEXT || t.isKw .UNIQUE
      || t.isKw .SPATIAL

theorem addIndexType_safe (hP : ∀ t, P t → indexWord t = true) : SafeT P C addIndexType (good C) := by
  unfold addIndexType
  refine curT_bind (fun t ht => ite_safe (fun _ => ?_) (fun h1 => ite_safe (fun _ => ?_) (fun h2 => ite_safe (fun _ => ?_)
    (fun h3 => ite_safe (fun _ => ?_) (fun h4 => ite_safe (fun _ => ?_) (fun h5 => ?_))))))
  · walk
  · walk
  · walk
  · walk
  · walk
  · exfalso
    have := hP t ht
    simp only [indexWord] at this
    simp_all

theorem addIndex_safe {add : Span} {con : Option (Span × Option Ast)} (hadd : good C add) (hcon : good C con)
    (hP : ∀ t, P t → indexWord t = true) : SafeT P C (addIndex add con) (good C) := by
  unfold addIndex
  walk
  all_goals exact hP _ (by assumption)
theorem addColumnIfNotExists_bind {β : Type} {f : Option Span → Prog β} {Q : β → Prop}
    (hf : ∀ r, good C r → (r.isSome = true → C.E ∨ C.opts.dialect ≠ .mariaDB) → Safe C (f r) Q) :
    SafeT P C (addColumnIfNotExists >>= f) Q := by
  refine bind_safe (Q1 := fun r => good C r ∧ (r.isSome = true → C.E ∨ C.opts.dialect ≠ .mariaDB)) ?_ (fun r h => hf r h.1 h.2)
  unfold addColumnIfNotExists
  walk
  · next m hm h => exact ⟨by gd, fun _ => by cases m <;> simp_all⟩
  · exact ⟨by gd, fun h => by cases h⟩
theorem addColumn_safe {add : Span} (hadd : good C add) : SafeT P C (addColumn add) (good C) := by unfold addColumn; walk
theorem addAlter_safe : SafeT P C addAlter (good C) := by unfold addAlter; walk; simp_all [indexWord]
theorem alterModify_safe : SafeT P C alterModify (good C) := by unfold alterModify; walk
theorem alterColumnSet_safe : SafeT P C alterColumnSet (good C) := by unfold alterColumnSet; walk
theorem alterColumnDrop_safe : SafeT P C alterColumnDrop (good C) := by unfold alterColumnDrop; walk
theorem alterColumn_safe : SafeT P C alterColumn (good C) := by unfold alterColumn; walk
theorem alterSpecification_safe : SafeT P C alterSpecification (good C) := by unfold alterSpecification; walk
theorem alterTable_safe {a : Span} {online : Option Span} {ignore : Option Span} (ha : good C a) (honline : good C online) (hignore : good C ignore) : SafeT P C (alterTable a online ignore) (good C) := by unfold alterTable; walk
theorem parseAlter_safe : SafeT P C parseAlter (good C) := by unfold parseAlter; walk

end SqlParse
