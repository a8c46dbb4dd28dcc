import Verif.Proofs.SemiExpr
import Verif.Model.Statement
/-! `Sm` for the statements. -/
namespace SqlParse
variable {md chk : Bool} {P : Token → Prop} {α β σ : Type}

theorem returningClause_sm : Sm md chk P returningClause := by unfold returningClause; semi
theorem deleteTables_sm : Sm md chk P deleteTables := by unfold deleteTables; semi
theorem deleteUsing_sm {l : List Ast} : Sm md chk P (deleteUsing l) := by unfold deleteUsing; semi
theorem parseDelete_sm : Sm md chk P parseDelete := by unfold parseDelete; semi
theorem updateSet_sm : Sm md chk P updateSet := by unfold updateSet; semi
theorem updateReturning_sm : Sm md chk P updateReturning := by unfold updateReturning; semi
theorem parseUpdate_sm : Sm md chk P parseUpdate := by unfold parseUpdate; semi
theorem checkInsertFlags_still {b : Bool} {l : List Ast} : Still (checkInsertFlags b l) := by
  induction l with
  | nil => exact Still.ret
  | cons f r ih => exact (when_still (spanOf_still.seq fun _ => err_still)).seq fun _ => ih
theorem parenItems_sm {m : String} {item : Prog α} (h : Sm md chk Top item) : Sm md chk P (parenItems item m) := by unfold parenItems; semi
theorem insertColumns_sm : Sm md chk P insertColumns := by unfold insertColumns; semi
theorem valuesRow_sm : Sm md chk P valuesRow := by unfold valuesRow; semi
theorem setPair_sm : Sm md chk P setPair := by unfold setPair; semi
theorem insertBody_sm {l : List Ast} : Sm md chk P (insertBody l) := by unfold insertBody; semi
theorem conflictTarget_sm : Sm md chk P conflictTarget := by unfold conflictTarget; semi
theorem assignment_sm : Sm md chk P assignment := by unfold assignment; semi
theorem conflictAction_sm : Sm md chk P conflictAction := by unfold conflictAction; semi
theorem insertOn_sm : Sm md chk P insertOn := by unfold insertOn; semi
theorem parseInsertReplace_sm : Sm md chk P parseInsertReplace := by unfold parseInsertReplace; semi
theorem tableToTable_sm : Sm md chk P tableToTable := by unfold tableToTable; semi
theorem parseRename_sm : Sm md chk P parseRename := by unfold parseRename; semi
theorem parseTruncate_sm : Sm md chk P parseTruncate := by unfold parseTruncate; semi
theorem ifExists_sm : Sm md chk P ifExists := by unfold ifExists; semi
theorem dropTable_sm {d : Span} {t : Option Span} : Sm md chk P (dropTable d t) := by unfold dropTable; semi
theorem dropIndex_sm {d : Span} : Sm md chk P (dropIndex d) := by unfold dropIndex; semi
theorem dropView_sm {d : Span} {t : Option Span} : Sm md chk P (dropView d t) := by unfold dropView; semi
theorem dropNamed_sm {k : Keyword} {n : Prog Ast} (h : Sm md chk Top n) : Sm md chk P (dropNamed k n) := by unfold dropNamed; semi
theorem parseDrop_sm : Sm md chk P parseDrop := by unfold parseDrop; semi
theorem dataType_sm : Sm md chk P dataType := by unfold dataType; semi
theorem indexType_sm : Sm md chk P indexType := by unfold indexType; semi
theorem indexOption_sm : Sm md chk P indexOption := by unfold indexOption; semi
theorem indexSize_sm : Sm md chk P indexSize := by unfold indexSize; semi
theorem indexCol_sm : Sm md chk P indexCol := by unfold indexCol; semi
theorem indexCols_sm : Sm md chk P indexCols := by unfold indexCols; semi
theorem parseCols_sm : Sm md chk P parseCols := by unfold parseCols; semi
theorem ifNotExists_sm : Sm md chk P ifNotExists := by unfold ifNotExists; semi
theorem optName_sm : Sm md chk P optName := by unfold optName; semi
theorem constraintOpt_sm : Sm md chk P constraintOpt := by unfold constraintOpt; semi
theorem fkOnType_sm {s : Span} : Sm md chk P (fkOnType s) := by unfold fkOnType; semi
theorem fkOnAction_sm : Sm md chk P fkOnAction := by unfold fkOnAction; semi
theorem foreignKeyOn_sm : Sm md chk P foreignKeyOn := by unfold foreignKeyOn; semi
theorem addForeignKey_sm {s : Span} {c : Option (Span × Option Ast)} : Sm md chk P (addForeignKey s c) := by unfold addForeignKey; semi
theorem specialIndex_sm {k : Keyword} : Sm md chk P (specialIndex k) := by unfold specialIndex; semi
theorem addIndexType_sm : Sm md chk P addIndexType := by unfold addIndexType; semi
theorem addIndex_sm {s : Span} {c : Option (Span × Option Ast)} : Sm md chk P (addIndex s c) := by unfold addIndex; semi
theorem addColumnIfNotExists_sm : Sm md chk P addColumnIfNotExists := by unfold addColumnIfNotExists; semi
theorem addColumn_sm {s : Span} : Sm md chk P (addColumn s) := by unfold addColumn; semi
theorem addAlter_sm : Sm md chk P addAlter := by unfold addAlter; semi
theorem alterModify_sm : Sm md chk P alterModify := by unfold alterModify; semi
theorem alterColumnSet_sm (h : ∀ t, P t → t ≠ .semiColon) : Sm md chk P alterColumnSet := by unfold alterColumnSet; semi
theorem alterColumnDrop_sm (h : ∀ t, P t → t ≠ .semiColon) : Sm md chk P alterColumnDrop := by unfold alterColumnDrop; semi
theorem alterColumn_sm : Sm md chk P alterColumn := by unfold alterColumn; semi
theorem alterSpecification_sm : Sm md chk P alterSpecification := by unfold alterSpecification; semi
theorem alterTable_sm {a : Span} {o i : Option Span} : Sm md chk P (alterTable a o i) := by unfold alterTable; semi
theorem parseAlter_sm : Sm md chk P parseAlter := by unfold parseAlter; semi
theorem constraintOnDelete_sm : Sm md chk P constraintOnDelete := by unfold constraintOnDelete; semi
theorem constraintDefinition_sm : Sm md chk P constraintDefinition := by unfold constraintDefinition; semi
theorem createDefinition_sm : Sm md chk P createDefinition := by unfold createDefinition; semi
theorem createView_sm {c : Span} {o : List Ast} : Sm md chk P (createView c o) := by unfold createView; semi
theorem paramDirection_sm : Sm md chk P paramDirection := by unfold paramDirection; semi
theorem functionParam_sm : Sm md chk P functionParam := by unfold functionParam; semi
theorem noDollars (h : Okt md .doubleDollar) : False := h.dollars rfl
theorem functionBody_sm : Sm md chk P functionBody := by
  unfold functionBody
  refine isPg_still.bind fun pg => bind_sm ?_ fun a => when_sm fun _ => NoOk.bind (ctk_sm nofun) (ctk_noOk nofun noDollars)
  semi
theorem functionCharacteristic_sm : Sm md chk P functionCharacteristic := by unfold functionCharacteristic; semi
theorem statementReq_th : Sm true chk P statementReq := bind_sm callStatement_th fun _ => orExpected_still.sm
theorem createFunction_sm {c : Span} {o : List Ast} : Sm md chk P (createFunction c o) := by
  cases md with
  | false =>
    unfold createFunction
    exact NoOk.bind ckw_sm (ckw_noOk fun t h => h.fn rfl)
  | true =>
    have := @statementReq_th chk Top
    unfold createFunction
    semi
theorem createTrigger_sm {c : Span} {o : List Ast} : Sm md chk P (createTrigger c o) := by
  unfold createTrigger
  exact NoOk.bind ckw_sm (ckw_noOk fun t h => h.trigger)
theorem enumValues_sm : Sm md chk P enumValues := by unfold enumValues; semi
theorem createType_sm {c : Span} {o : List Ast} : Sm md chk P (createType c o) := by unfold createType; semi
theorem createIndexCol_sm : Sm md chk P createIndexCol := by
  unfold createIndexCol
  refine bind_sm ident_sm fun i => curT_sbindS fun t _ => bind_sm (when_sm fun h => ?_) fun _ => pure_sm
  have hns : ∀ t', t' = t → t' ≠ .semiColon := by rintro _ rfl rfl; simp [isOpclass, Token.isKw] at h
  semi
theorem usingGist_sm : Sm md chk P usingGist := by unfold usingGist; semi
theorem indexWhere_sm : Sm md chk P indexWhere := by unfold indexWhere; semi
theorem createIndex_sm {c : Span} {o : List Ast} : Sm md chk P (createIndex c o) := by unfold createIndex; semi
theorem tableIfNotExists_sm : Sm md chk P tableIfNotExists := by unfold tableIfNotExists; semi
theorem tableName_sm : Sm md chk P tableName := by unfold tableName; semi
theorem createDefinitions_sm : Sm md chk P createDefinitions := by unfold createDefinitions; semi
theorem optionValue_sm {k : Keyword} {v : Prog Ast} (h : Sm md chk Top v) : Sm md chk P (optionValue k v) := by unfold optionValue; semi
theorem tableOption_sm : Sm md chk P tableOption := by unfold tableOption; semi
theorem accMany_sm {item : Prog (Option Ast)} (h : Sm md chk Top item) : Sm md chk P (accMany item) := by unfold accMany; semi
theorem createTable_sm {c : Span} {o : List Ast} : Sm md chk P (createTable c o) := by unfold createTable; semi
theorem createOption_sm : Sm md chk P createOption := by unfold createOption; semi
theorem toStmt_sm {p : Prog Ast} (h : Sm md chk P p) : Sm md chk P (toStmt p) := by unfold toStmt; semi
theorem parseCreate_sm : Sm md chk P parseCreate := by unfold parseCreate; semi
theorem parseSet_sm : Sm md chk P parseSet := by unfold parseSet; semi
theorem parseDo_sm : Sm md chk P parseDo := by
  unfold parseDo
  exact bind_sm ckw_sm fun _ => NoOk.bind (ctk_sm nofun) (ctk_noOk nofun noDollars)

/-- A loop whose body fails. -/
theorem accLoop_noOk {body : σ → Prog (Step σ σ)} {x : σ} {f : Bool × σ → Prog β} (h : Sm md chk Top (body x)) (h' : NoOk md chk Top (body x))
    (hf : Sm md chk Top (f (false, x))) : Sm md chk P (accLoop body x >>= f) := by
  intro R n s hR hs hp
  show OutG _ (runWith R n (.bind (accLoop body x) f) s)
  unfold runWith accLoop
  cases n with
  | zero => simp only [runWith, loopN]; trivial
  | succ k =>
    have h1 := h R (k + 1) s hR hs trivial
    have h2 := h' R (k + 1) s
    simp only [runWith, loopN]
    cases hr : runWith R (k + 1) (body x) s with
    | ok a s' => exact absurd hr (h2 a s' hR hs trivial)
    | err s' =>
      rw [hr] at h1
      simp only [bind, pure, runWith, hr]
      exact hf R (k + 1) s' hR h1 trivial
    | panic m => simp only [bind, pure, runWith, hr]; trivial
    | oof => simp only [bind, pure, runWith, hr]; trivial

theorem then_noOk : NoOk true chk P (ckw .THEN) := ckw_noOk fun _ h => h.th rfl
theorem ifCondition_th {e : Option Span} : Sm true chk P (ifCondition e) ∧ NoOk true chk P (ifCondition e) := by
  unfold ifCondition
  exact ⟨bind_sm expr_sm fun _ => NoOk.bind ckw_sm then_noOk, NoOk.after expr_sm fun _ => NoOk.seq then_noOk⟩
theorem ifBody_th : Sm true chk P ifBody := by
  unfold ifBody
  refine accLoop_noOk ?_ ?_ ?_
  · exact NoOk.bind ifCondition_th.1 ifCondition_th.2
  · exact NoOk.seq ifCondition_th.2
  · exact pure_sm
theorem parseIf_th : Sm true chk P parseIf := by
  have := @ifBody_th chk Top
  unfold parseIf
  semi
theorem parseReturn_sm : Sm md chk P parseReturn := by unfold parseReturn; semi
theorem signalSet_sm : Sm md chk P signalSet := by unfold signalSet; semi
theorem parseSignal_sm : Sm md chk P parseSignal := by unfold parseSignal; semi
theorem whenStatement_th : Sm true chk P whenStatement ∧ NoOk true chk P whenStatement := by
  unfold whenStatement
  exact ⟨bind_sm ckw_sm fun _ => bind_sm expr_sm fun _ => NoOk.bind ckw_sm then_noOk,
    NoOk.after ckw_sm fun _ => NoOk.after expr_sm fun _ => NoOk.seq then_noOk⟩
theorem caseStatementBody_th : Sm true chk P caseStatementBody := by
  unfold caseStatementBody
  refine accLoop_noOk ?_ ?_ ?_
  · exact NoOk.bind whenStatement_th.1 whenStatement_th.2
  · exact NoOk.seq whenStatement_th.2
  · exact pure_sm
theorem parseCase_th : Sm true chk P parseCase := by
  have := @caseStatementBody_th chk Top
  unfold parseCase
  semi
theorem copyColumns_sm : Sm md chk P copyColumns := by unfold copyColumns; semi
theorem parseCopy_sm : Sm md chk P parseCopy := by unfold parseCopy; semi
theorem compoundBottom_sm : Sm md chk P compoundBottom := by unfold compoundBottom; semi
theorem unionType_sm : Sm md chk P unionType := by unfold unionType; semi
theorem unionPart_sm : Sm md chk P unionPart := by unfold unionPart; semi
theorem compoundQuery_sm : Sm md chk P compoundQuery := by unfold compoundQuery; semi
theorem withCheck_still {m : String} {v : SAst} : Still (withCheck m v) := by unfold withCheck; still
theorem withBlock_th : Sm true chk P withBlock := by
  have := @callStatement_th chk Top
  unfold withBlock
  semi
theorem parseWith_th : Sm true chk P parseWith := by
  have := @callStatement_th chk Top
  have := @withBlock_th chk Top
  unfold parseWith
  semi
theorem stmt_sm {p : Prog Ast} (h : Sm md chk P p) : Sm md chk P (stmt p) := by unfold stmt; semi
theorem ostmt_sm {p : Prog SAst} (h : Sm md chk P p) : Sm md chk P (ostmt p) := by unfold ostmt; semi
theorem beginStmt_sm : Sm md chk P beginStmt := by
  unfold beginStmt
  refine permit_sbindS ?_
  simp only [Bool.false_eq_true, if_false]
  semi

/-- A statement, if it begins with a suitable token. -/
theorem statementBody_sm : Sm md chk (StartOk md) statementBody := by
  unfold statementBody
  refine curT_sbindS fun t ht => permit_sbindS ?_
  cases md with
  | true =>
    have := @parseIf_th chk (· = t)
    have := @parseCase_th chk (· = t)
    have := @parseWith_th chk (· = t)
    unfold stmtDispatch
    semi
  | false =>
    obtain ⟨h1, h2, h3⟩ := ht rfl
    unfold stmtDispatch
    simp only [h1, h2, h3, Bool.false_eq_true, if_false]
    semi

/-- Functions do not run past the `;`. -/
theorem runFn_near (n : Nat) : CallsNear md chk (runFn n) ∧ ∀ s, Near md chk s → StartOk md s.token → OutG (Near md chk) (runFn n _ .statement s) := by
  induction n with
  | zero => exact ⟨⟨fun _ _ _ => trivial, fun _ _ => trivial, fun _ _ _ => trivial⟩, fun _ _ _ => trivial⟩
  | succ n ih =>
    refine ⟨⟨?_, ?_, ?_⟩, ?_⟩
    · intro b s hs
      exact parseExpression_sm (P := Top) (parseSelect_sm (P := Top)) (parseDataType_sm (P := Top)) (runFn n) n s ih.1 hs trivial
    · intro s hs
      exact compoundQuery_sm (P := Top) (runFn n) n s ih.1 hs trivial
    · rintro rfl s hs
      exact statementBody_sm (runFn n) n s ih.1 hs nofun
    · intro s hs ht
      exact statementBody_sm (runFn n) n s ih.1 hs ht

end SqlParse
