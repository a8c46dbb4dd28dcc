import Verif.Proofs.ParDml
/-! Corresponding runs of alter.rs. -/
namespace SqlParse
variable {E : Par}

theorem dataType_par : PR E (vr E) dataType dataType := by unfold dataType; exact parseDataType_par
theorem indexType_par : PR E (vr E) indexType indexType := by unfold indexType; pw
theorem indexOption_par : PR E (vr E) indexOption indexOption := by unfold indexOption; pw
theorem indexSize_par : PR E (vr E) indexSize indexSize := by
  unfold indexSize
  have := @isRParen_end E
  pw
theorem indexCol_par : PR E (vr E) indexCol indexCol := by unfold indexCol; pw
theorem indexCols_par : PR E (vr E) indexCols indexCols := by unfold indexCols; pw
theorem parseCols_par : PR E (vr E) parseCols parseCols := by unfold parseCols; pw
theorem ifNotExists_par : PR E (vr E) ifNotExists ifNotExists := by unfold ifNotExists; pw
theorem optName_par : PR E (vr E) optName optName := by
  unfold optName
  refine bind_par curT_par (fun t t' ht => ?_)
  rw [isPlainWord_par ht]
  pw
theorem constraintOpt_par : PR E (vr E) constraintOpt constraintOpt := by unfold constraintOpt; pw
theorem fkOnType_par {s s' : Span} (h : vr E s s') : PR E (vr E) (fkOnType s) (fkOnType s') := by unfold fkOnType; pw
theorem fkOnAction_par : PR E (vr E) fkOnAction fkOnAction := by unfold fkOnAction; pw
theorem foreignKeyOn_par : PR E (vr E) foreignKeyOn foreignKeyOn := by unfold foreignKeyOn; pw
section
variable {s s' : Span} (h : vr E s s') {c c' : Option (Span × Option Ast)} (hc : vr E c c')
include h hc
theorem addForeignKey_par : PR E (vr E) (addForeignKey s c) (addForeignKey s' c') := by unfold addForeignKey; pw
end
theorem specialIndex_par {k : Keyword} (hw : k.isWord = true := by first | rfl | assumption) : PR E (vr E) (specialIndex k) (specialIndex k) := by
  unfold specialIndex
  refine bind_par ckw_par (fun a a' ha => bind_par curT_par (fun t t' ht => ?_))
  rw [tok_kw ht]
  pw
  exact isWord_of (t := t) (by assumption) rfl rfl
theorem addIndexType_par : PR E (vr E) addIndexType addIndexType := by unfold addIndexType; pw
section
variable {s s' : Span} (h : vr E s s') {c c' : Option (Span × Option Ast)} (hc : vr E c c')
include h hc
theorem addIndex_par : PR E (vr E) (addIndex s c) (addIndex s' c') := by unfold addIndex; pw
end
theorem addColumnIfNotExists_par : PR E (vr E) addColumnIfNotExists addColumnIfNotExists := by unfold addColumnIfNotExists; pw
theorem addColumn_par {s s' : Span} (h : vr E s s') : PR E (vr E) (addColumn s) (addColumn s') := by unfold addColumn; pw
theorem addAlter_par : PR E (vr E) addAlter addAlter := by unfold addAlter; pw
theorem alterModify_par : PR E (vr E) alterModify alterModify := by unfold alterModify; pw
theorem alterColumnSet_par : PR E (vr E) alterColumnSet alterColumnSet := by unfold alterColumnSet; pw
theorem alterColumnDrop_par : PR E (vr E) alterColumnDrop alterColumnDrop := by unfold alterColumnDrop; pw
theorem alterColumn_par : PR E (vr E) alterColumn alterColumn := by unfold alterColumn; pw
theorem alterSpecification_par : PR E (vr E) alterSpecification alterSpecification := by unfold alterSpecification; pw

theorem delimEnd {d d' : Token} (h : E.dl d d') :
    EndR E (fun t => decide (t = d) || decide (t = .eof)) (fun t => decide (t = d') || decide (t = .eof)) := by
  intro t t' ht
  simp only [Bool.or_eq_true, decide_eq_true_eq, tok_eq ht (c := .eof) rfl, h.1 t t' ht]
theorem delimEnd' {d d' : Token} (h : E.dl d d') :
    EndR E (fun t => decide (t = .eof) || decide (t = d)) (fun t => decide (t = .eof) || decide (t = d')) := by
  intro t t' ht
  simp only [Bool.or_eq_true, decide_eq_true_eq, tok_eq ht (c := .eof) rfl, h.1 t t' ht]

theorem alterTable_par {a a' : Span} {o o' i i' : Option Span} (h : vr E a a') (ho : vr E o o') (hi : vr E i i') :
    PR E (vr E) (alterTable a o i) (alterTable a' o' i') := by
  unfold alterTable
  refine bind_par ckw_par (fun t t' ht => bind_par ifExists_par (fun ie ie' hie =>
    bind_par qualifiedName_par (fun q q' hq => bind_par delim_par (fun d d' hd => ?_))))
  have := delimEnd hd
  pw

theorem parseAlter_par : PR E (vr E) parseAlter parseAlter := by unfold parseAlter; pw

end SqlParse
