import Verif.Proofs.WatchExpr
import Verif.Api
/-! `Cw` for the statements. -/
namespace SqlParse
variable {E : Wsrc} {P : Token → Prop} {α β σ : Type}

theorem returningClause_cw : Cw E P returningClause := by unfold returningClause; watch
theorem deleteTables_cw : Cw E P deleteTables := by unfold deleteTables; watch
theorem deleteUsing_cw {l : List Ast} : Cw E P (deleteUsing l) := by unfold deleteUsing; watch
theorem parseDelete_cw : Cw E P parseDelete := by unfold parseDelete; watch
theorem updateSet_cw : Cw E P updateSet := by unfold updateSet; watch
theorem updateReturning_cw : Cw E P updateReturning := by unfold updateReturning; watch
theorem parseUpdate_cw : Cw E P parseUpdate := by unfold parseUpdate; watch
theorem parenItems_cw {m : String} {item : Prog α} (h : Cw E Top item) : Cw E P (parenItems item m) := by unfold parenItems; watch
theorem insertColumns_cw : Cw E P insertColumns := by unfold insertColumns; watch
theorem valuesRow_cw : Cw E P valuesRow := by unfold valuesRow; watch
theorem setPair_cw : Cw E P setPair := by unfold setPair; watch
theorem insertBody_cw {l : List Ast} : Cw E P (insertBody l) := by unfold insertBody; watch
theorem conflictTarget_cw : Cw E P conflictTarget := by unfold conflictTarget; watch
theorem assignment_cw : Cw E P assignment := by unfold assignment; watch
theorem conflictAction_cw : Cw E P conflictAction := by unfold conflictAction; watch
theorem insertOn_cw : Cw E P insertOn := by unfold insertOn; watch
theorem checkInsertFlags_cw {b : Bool} {l : List Ast} : Cw E P (checkInsertFlags b l) := by
  induction l generalizing P with
  | nil => exact ret_cw
  | cons f r ih => exact bind_cw (when_cw fun _ => spanOf_still.cbind fun _ => err_still.cw) fun _ => ih
theorem parseInsertReplace_cw : Cw E P parseInsertReplace := by unfold parseInsertReplace; watch
theorem tableToTable_cw : Cw E P tableToTable := by unfold tableToTable; watch
theorem parseRename_cw : Cw E P parseRename := by unfold parseRename; watch
theorem parseTruncate_cw : Cw E P parseTruncate := by unfold parseTruncate; watch
theorem ifExists_cw : Cw E P ifExists := by unfold ifExists; watch
theorem dropTable_cw {d : Span} {t : Option Span} : Cw E P (dropTable d t) := by unfold dropTable; watch
theorem dropIndex_cw {d : Span} : Cw E P (dropIndex d) := by unfold dropIndex; watch
theorem dropView_cw {d : Span} {t : Option Span} : Cw E P (dropView d t) := by unfold dropView; watch
theorem dropNamed_cw {k : Keyword} {n : Prog Ast} (h : Cw E Top n) : Cw E P (dropNamed k n) := by unfold dropNamed; watch
theorem parseDrop_cw : Cw E P parseDrop := by unfold parseDrop; watch
theorem dataType_cw : Cw E P dataType := by unfold dataType; watch
theorem indexType_cw : Cw E P indexType := by unfold indexType; watch
theorem indexOption_cw : Cw E P indexOption := by unfold indexOption; watch
theorem indexSize_cw : Cw E P indexSize := by unfold indexSize; watch
theorem indexCol_cw : Cw E P indexCol := by unfold indexCol; watch
theorem indexCols_cw : Cw E P indexCols := by unfold indexCols; watch
theorem parseCols_cw : Cw E P parseCols := by unfold parseCols; watch
theorem ifNotExists_cw : Cw E P ifNotExists := by unfold ifNotExists; watch
theorem optName_cw : Cw E P optName := by unfold optName; watch
theorem constraintOpt_cw : Cw E P constraintOpt := by unfold constraintOpt; watch
theorem fkOnType_cw {s : Span} : Cw E P (fkOnType s) := by unfold fkOnType; watch
theorem fkOnAction_cw : Cw E P fkOnAction := by unfold fkOnAction; watch
theorem foreignKeyOn_cw : Cw E P foreignKeyOn := by unfold foreignKeyOn; watch
theorem addForeignKey_cw {s : Span} {c : Option (Span × Option Ast)} : Cw E P (addForeignKey s c) := by unfold addForeignKey; watch
theorem specialIndex_cw {k : Keyword} : Cw E P (specialIndex k) := by unfold specialIndex; watch
theorem addIndexType_cw : Cw E P addIndexType := by unfold addIndexType; watch
theorem addIndex_cw {s : Span} {c : Option (Span × Option Ast)} : Cw E P (addIndex s c) := by unfold addIndex; watch
theorem addColumnIfNotExists_cw : Cw E P addColumnIfNotExists := by unfold addColumnIfNotExists; watch
theorem addColumn_cw {s : Span} : Cw E P (addColumn s) := by unfold addColumn; watch
theorem addAlter_cw : Cw E P addAlter := by unfold addAlter; watch
theorem alterModify_cw : Cw E P alterModify := by unfold alterModify; watch
theorem alterColumnSet_cw (h : ∀ t, P t → Unwatched t) : Cw E P alterColumnSet := by unfold alterColumnSet; watch
theorem alterColumnDrop_cw (h : ∀ t, P t → Unwatched t) : Cw E P alterColumnDrop := by unfold alterColumnDrop; watch
theorem alterColumn_cw : Cw E P alterColumn := by unfold alterColumn; watch
theorem alterSpecification_cw : Cw E P alterSpecification := by unfold alterSpecification; watch
theorem alterTable_cw {a : Span} {o i : Option Span} : Cw E P (alterTable a o i) := by unfold alterTable; watch
theorem parseAlter_cw : Cw E P parseAlter := by unfold parseAlter; watch
theorem constraintOnDelete_cw : Cw E P constraintOnDelete := by unfold constraintOnDelete; watch
theorem constraintDefinition_cw : Cw E P constraintDefinition := by unfold constraintDefinition; watch
theorem createDefinition_cw : Cw E P createDefinition := by unfold createDefinition; watch
theorem createView_cw {c : Span} {o : List Ast} : Cw E P (createView c o) := by unfold createView; watch
theorem paramDirection_cw : Cw E P paramDirection := by unfold paramDirection; watch
theorem functionParam_cw : Cw E P functionParam := by unfold functionParam; watch
theorem functionBody_cw : Cw E P functionBody := by
  unfold functionBody
  refine isPg_cbind ?_
  simp only [Bool.false_eq_true, if_false]
  refine bindQ_cw (Q := (· = none)) (ret_cwQ rfl) ?_
  rintro _ rfl
  exact ret_cw
theorem functionCharacteristic_cw : Cw E P functionCharacteristic := by unfold functionCharacteristic; watch
theorem statementReq_cw : Cw E P statementReq := bind_cw callStatement_cw fun _ => orExpected_still.cw
theorem createFunction_cw {c : Span} {o : List Ast} : Cw E P (createFunction c o) := by unfold createFunction; watch
theorem createTrigger_cw {c : Span} {o : List Ast} : Cw E P (createTrigger c o) := by unfold createTrigger; watch
theorem enumValues_cw : Cw E P enumValues := by unfold enumValues; watch
theorem createType_cw {c : Span} {o : List Ast} : Cw E P (createType c o) := by unfold createType; watch
theorem createIndexCol_cw : Cw E P createIndexCol := by
  unfold createIndexCol
  refine bind_cw ident_cw fun i => curT_cbind fun t _ => bind_cw (when_cw fun h => ?_) fun _ => pure_cw
  have hns : ∀ t', t' = t → Unwatched t' := by
    unfold isOpclass at h
    simp only [Bool.or_eq_true] at h
    rcases h with ((((h | h) | h) | h) | h) | h <;> exact isKw_uw h (by decide +kernel)
  watch
theorem usingGist_cw : Cw E P usingGist := by unfold usingGist; watch
theorem indexWhere_cw : Cw E P indexWhere := by unfold indexWhere; watch
theorem createIndex_cw {c : Span} {o : List Ast} : Cw E P (createIndex c o) := by unfold createIndex; watch
theorem tableIfNotExists_cw : Cw E P tableIfNotExists := by unfold tableIfNotExists; watch
theorem tableName_cwQ : CwQ E P tableName Succ := by
  unfold tableName
  refine bindQ_cw (tryP_cwQ tableIfNotExists_cw) ?_
  rintro _ ⟨a, rfl, -⟩
  refine bindQ_cw (tryP_cwQ qualifiedName_cw) ?_
  rintro _ ⟨b, rfl, -⟩
  exact ret_cwQ rfl
theorem createDefinitions_cw : Cw E P createDefinitions := by unfold createDefinitions; watch
theorem optionValue_cw {k : Keyword} {v : Prog Ast} (h : Cw E Top v) : Cw E P (optionValue k v) := by unfold optionValue; watch
theorem tableOption_cw : Cw E P tableOption := by unfold tableOption; watch
theorem accMany_cwQ {item : Prog (Option Ast)} (h : Cw E Top item) : CwQ E P (accMany item) Succ := by
  unfold accMany
  exact accLoop_cwQ fun acc => bind_cw h fun _ => pure_cw
theorem createTable_cw {c : Span} {o : List Ast} : Cw E P (createTable c o) := by unfold createTable; watch
theorem createOption_cw : Cw E P createOption := by unfold createOption; watch
theorem toStmt_cw {p : Prog Ast} (h : Cw E P p) : Cw E P (toStmt p) := by unfold toStmt; watch
theorem parseCreate_cw : Cw E P parseCreate := by unfold parseCreate; watch
theorem parseSet_cw : Cw E P parseSet := by unfold parseSet; watch
theorem skipSemis_cw : Cw E P skipSemis := by unfold skipSemis; watch
theorem stmtListInner_cwQ : CwQ E P stmtListInner Succ := by
  unfold stmtListInner
  refine loop_cwQ fun acc => bindQ_cw (Q := fun _ => True) skipSemis_cw fun _ _ => bindQ_cw (tryP_cwQ (callStatement_cw (P := Top))) ?_
  rintro _ ⟨a, rfl, -⟩
  cases a with
  | none => exact ret_cwQ (by rintro _ h; cases h; rfl)
  | some v =>
    refine curT_cbindQ fun t _ => ?_
    by_cases ht : t = .semiColon
    · rw [if_neg (by simp [ht])]
      split
      · exact bindQ_cw (Q := fun _ => True) stdin_cw fun _ _ => ret_cwQ (by rintro _ h; cases h)
      · exact bindQ_cw (Q := fun _ => True) (consume_cw (eq_uw ht rfl)) fun _ _ => ret_cwQ (by rintro _ h; cases h)
    · rw [if_pos ht]
      exact ret_cwQ (by rintro _ h; cases h; rfl)
theorem stmtList_cwQ : CwQ E P stmtList Succ := by
  unfold stmtList
  have hd : CwQ E P ((Prog.op .delim : Prog Token)) Unwatched := fun _ _ s _ h _ => Or.inr ⟨h, h.delim⟩
  exact bindQ_cw hd fun d hd => bindQ_cw (setDelim_cw (show (Token.semiColon).kw.watched = false from rfl)) fun _ _ =>
    bindQ_cw stmtListInner_cwQ fun r hr => bindQ_cw (setDelim_cw hd) fun _ _ => ret_cwQ hr
theorem stmtListReq_cw : Cw E P stmtListReq := by
  unfold stmtListReq
  exact bindQ_cw stmtList_cwQ fun r (hr : r.1 = true) => by rw [if_pos hr]; exact ret_cw
theorem exceptionWhens_cw : Cw E P exceptionWhens := by unfold exceptionWhens; watch
theorem parseBlock_cw : Cw E P parseBlock := by unfold parseBlock; watch
theorem parseDo_cw : Cw E P parseDo := by unfold parseDo; watch
theorem ifCondition_cw {e : Option Span} : Cw E P (ifCondition e) := by unfold ifCondition; watch
theorem elseStmts_cw : Cw E P elseStmts := by unfold elseStmts; watch
theorem ifBody_cwQ : CwQ E P ifBody Succ := by
  unfold ifBody
  refine bindQ_cw (accLoop_cwQ fun acc => ?_) fun r (hr : r.1 = true) => ?_
  · watch
  · rw [if_pos hr]
    refine bindQ_cw (tryP_cwQ elseStmts_cw) ?_
    rintro _ ⟨a, rfl, -⟩
    exact ret_cwQ rfl
theorem parseIf_cw : Cw E P parseIf := by unfold parseIf; watch
theorem parseReturn_cw : Cw E P parseReturn := by unfold parseReturn; watch
theorem signalSet_cw : Cw E P signalSet := by unfold signalSet; watch
theorem parseSignal_cw : Cw E P parseSignal := by unfold parseSignal; watch
theorem whenStatement_cw : Cw E P whenStatement := by unfold whenStatement; watch
theorem caseStatementBody_cwQ : CwQ E P caseStatementBody Succ := by
  unfold caseStatementBody
  refine bindQ_cw (accLoop_cwQ fun acc => ?_) fun r (hr : r.1 = true) => ?_
  · watch
  · rw [if_pos hr]
    refine bindQ_cw (tryP_cwQ elseStmts_cw) ?_
    rintro _ ⟨a, rfl, -⟩
    exact ret_cwQ rfl
theorem parseCase_cw : Cw E P parseCase := by unfold parseCase; watch
theorem copyColumns_cw : Cw E P copyColumns := by unfold copyColumns; watch
theorem parseCopy_cw : Cw E P parseCopy := by unfold parseCopy; watch
theorem compoundBottom_cw : Cw E P compoundBottom := by unfold compoundBottom; watch
theorem unionType_cw : Cw E P unionType := by unfold unionType; watch
theorem unionPart_cw : Cw E P unionPart := by unfold unionPart; watch
theorem compoundQuery_cw : Cw E P compoundQuery := by unfold compoundQuery; watch
theorem withCheck_cw {m : String} {v : SAst} : Cw E P (withCheck m v) := when_cw fun _ => spanOf_still.cbind fun _ => err_still.cw
theorem withBlock_cw : Cw E P withBlock := by unfold withBlock; watch
theorem parseWith_cw : Cw E P parseWith := by unfold parseWith; watch
theorem stmt_cw {p : Prog Ast} (h : Cw E P p) : Cw E P (stmt p) := by unfold stmt; watch
theorem ostmt_cw {p : Prog SAst} (h : Cw E P p) : Cw E P (ostmt p) := by unfold ostmt; watch
theorem beginStmt_cw : Cw E P beginStmt := by unfold beginStmt; watch
theorem statementBody_cw : Cw E P statementBody := by unfold statementBody stmtDispatch; watch

/-- The functions report what they consume. -/
theorem runFn_cw (n : Nat) : CallsW E (runFn n) := by
  induction n with
  | zero => exact ⟨fun _ _ _ _ => trivial, fun _ _ _ _ => trivial⟩
  | succ n ih =>
    refine ⟨fun α f s h => runFn_past (n + 1) f s h, ?_⟩
    intro α f s hs
    cases f with
    | expression b => exact parseExpression_cw (P := Top) (parseSelect_cw (P := Top)) (parseDataType_cw (P := Top)) (runFn n) n s ih hs trivial
    | compoundQuery => exact compoundQuery_cw (P := Top) (runFn n) n s ih hs trivial
    | statement => exact statementBody_cw (P := Top) (runFn n) n s ih hs trivial

theorem skipDelims_cw : Cw E P skipDelims := by unfold skipDelims; watch
theorem topStatement_cw : Cw E P topStatement := by unfold topStatement; watch
theorem afterDelim_cw {acc : List SAst} {b : Bool} : Cw E P (afterDelim acc b) := by unfold afterDelim; watch
theorem finishStatement_cw {acc : List SAst} {v : SAst} : Cw E P (finishStatement acc (some v)) := by
  unfold finishStatement
  refine curT_cbind fun t _ => delim_cbind fun d hd => bind_cw ?_ fun _ => ?_
  · exact ite_cw (fun _ => expectedError_cbind) fun _ => ret_cw
  · watch
theorem statementsStep_cw {acc : List SAst} : Cw E P (statementsStep acc) := by
  have h1 : CwQ E Top (skw .DELIMITER) (· = none) := by
    intro R n s hR hs hp
    have hd := hs.tame.delimiter
    rw [show (skw .DELIMITER : Prog (Option Span)) = Prog.bind cur _ from rfl]
    unfold runWith
    rw [show runWith R n cur s = .ok (s.token, s.span) s from rfl]
    simp only
    cases ht : s.token with
    | ident v k' =>
      rw [ht] at hd
      simp only
      rw [if_neg (by simpa [Token.isKw] using hd)]
      exact .inr ⟨hs, rfl⟩
    | _ => exact .inr ⟨hs, rfl⟩
  unfold statementsStep
  refine bind_cw skipDelims_cw fun eof => ite_cw (fun _ => ret_cw) fun _ => bindQ_cw h1 ?_
  rintro _ rfl
  exact tryP_cbind topStatement_cw fun a => finishStatement_cw
theorem statements_cw : Cw E P statements := by unfold statements; watch
theorem singleStatement_cw : Cw E P singleStatement := by unfold singleStatement; watch

end SqlParse
