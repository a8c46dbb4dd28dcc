import Verif.Proofs.ParAlter
/-! Corresponding runs of create.rs. -/
namespace SqlParse
variable {E : Par}

theorem constraintOnDelete_par : PR E (vr E) constraintOnDelete constraintOnDelete := by unfold constraintOnDelete; pw
theorem constraintDefinition_par : PR E (vr E) constraintDefinition constraintDefinition := by unfold constraintDefinition; pw
theorem createDefinition_par : PR E (vr E) createDefinition createDefinition := by unfold createDefinition; pw
theorem paramDirection_par : PR E (vr E) paramDirection paramDirection := by unfold paramDirection; pw
theorem functionParam_par : PR E (vr E) functionParam functionParam := by unfold functionParam; pw
theorem functionBody_par : PR E (vr E) functionBody functionBody := by unfold functionBody; pw
theorem functionCharacteristic_par : PR E (vr E) functionCharacteristic functionCharacteristic := by unfold functionCharacteristic; pw
theorem statementReq_par : PR E (vr E) statementReq statementReq := by unfold statementReq; pw
theorem enumValues_par : PR E (vr E) enumValues enumValues := by
  unfold enumValues
  have := @isRParenComma_end E
  pw
theorem createIndexCol_par : PR E (vr E) createIndexCol createIndexCol := by unfold createIndexCol; pw
theorem usingGist_par : PR E (vr E) usingGist usingGist := by unfold usingGist; pw
theorem indexWhere_par : PR E (vr E) indexWhere indexWhere := by unfold indexWhere; pw
theorem noName_vr : vr E noName noName := by unfold noName; pv; exact E.vnil
theorem tableIfNotExists_par : PR E (vr E) tableIfNotExists tableIfNotExists := by unfold tableIfNotExists; pw
theorem tableName_par : PR E (vr E) tableName tableName := by unfold tableName; pw
theorem createDefinitions_par : PR E (vr E) createDefinitions createDefinitions := by
  unfold createDefinitions
  have := @isRParenComma_end E
  pw
theorem optionValue_par {k : Keyword} {p q : Prog Ast} (h : PR E (vr E) p q) (hw : k.isWord = true := by first | rfl | assumption) : PR E (vr E) (optionValue k p) (optionValue k q) := by
  unfold optionValue; pw
theorem tableOption_par : PR E (vr E) tableOption tableOption := by
  unfold tableOption
  refine bind_par cur_par ?_
  rintro ⟨t, sp⟩ ⟨t', sp'⟩ ⟨ht, hsp⟩
  have ht : vr E t t' := ht
  have hsp : vr E sp sp' := hsp
  iterate 7 refine ite_par (by pc) (fun _ _ => by pw) (fun _ _ => ?_)
  refine bind_par delim_par (fun d d' hd => ?_)
  refine ite_par (by rw [hd.1 t t' ht, tok_eq ht (c := .eof) rfl]) (fun _ _ => ?_) (fun _ _ => ?_) <;> pw
theorem accMany_par {p q : Prog (Option Ast)} (h : PR E (vr E) p q) : PR E (vr E) (accMany p) (accMany q) := by
  unfold accMany; pw
theorem createOption_par : PR E (vr E) createOption createOption := by unfold createOption; pw
theorem toStmt_par {p q : Prog Ast} (h : PR E (vr E) p q) : PR E (vr E) (toStmt p) (toStmt q) := by unfold toStmt; pw
section
variable {c c' : Span} (h : vr E c c') {o o' : List Ast} (ho : vr E o o')
include h ho
theorem createView_par : PR E (vr E) (createView c o) (createView c' o') := by unfold createView; pw
theorem createFunction_par : PR E (vr E) (createFunction c o) (createFunction c' o') := by unfold createFunction; pw
theorem createTrigger_par : PR E (vr E) (createTrigger c o) (createTrigger c' o') := by unfold createTrigger; pw
theorem createType_par : PR E (vr E) (createType c o) (createType c' o') := by unfold createType; pw
theorem createIndex_par : PR E (vr E) (createIndex c o) (createIndex c' o') := by unfold createIndex; pw
theorem createTable_par : PR E (vr E) (createTable c o) (createTable c' o') := by
  unfold createTable
  refine bind_par ckw_par (fun t t' ht => ?_)
  have hl : EndR E (fun t => decide (t = .lParen)) (fun t => decide (t = .lParen)) := by
    intro t t' ht
    simp only [decide_eq_true_eq, tok_eq ht (c := .lParen) rfl]
  refine bind_par (recoveredAcc_par hl tableName_par) ?_
  rintro ⟨ine, name⟩ ⟨ine', name'⟩ ⟨h1, h2⟩
  have h1 : vr E ine ine' := h1
  have h2 : vr E name name' := h2
  refine bind_par ctk_par (fun _ _ _ => bind_par createDefinitions_par (fun d d' hd => bind_par ctk_par (fun _ _ _ =>
    bind_par delim_par (fun d d' hd => ?_))))
  have := delimEnd' hd
  pw
end
theorem isCreatable_end : EndR E isCreatable isCreatable := by
  intro t t' ht; simp only [isCreatable, tok_isKw ht]
theorem parseCreate_par : PR E (vr E) parseCreate parseCreate := by
  unfold parseCreate
  have := @isCreatable_end E
  pw

end SqlParse
