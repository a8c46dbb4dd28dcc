import Verif.Proofs.TermExpr
import Verif.Model.Statement
/-! Termination of the statements. -/
namespace SqlParse
variable {m : Bool} {P : Token → Prop} {α β σ : Type}

theorem returningClause_tm : Tm true P returningClause Bot := by unfold returningClause; term
theorem deleteTables_tm : Tm true P deleteTables Bot := by unfold deleteTables; term
theorem deleteUsing_tm {l : List Ast} : Tm true P (deleteUsing l) Bot := by unfold deleteUsing; term
theorem parseDelete_pr : Tm m P parseDelete Top := by unfold parseDelete; term
theorem updateSet_tm : Tm true P updateSet Bot := by unfold updateSet; term
theorem updateReturning_tm : Tm true P updateReturning Bot := by unfold updateReturning; term
theorem parseUpdate_pr : Tm m P parseUpdate Top := by unfold parseUpdate; term
theorem checkInsertFlags_stay {b : Bool} {l : List Ast} : Stay (checkInsertFlags b l) := by
  induction l with
  | nil => exact Stay.ret
  | cons f r ih => exact (when_stay (spanOf_stay.seq fun _ => err_stay)).seq fun _ => ih
theorem parenItems_tm {s : String} {item : Prog α} (h : Tm m Top item Bot) : Tm m P (parenItems item s) Bot := by
  unfold parenItems
  refine recoveredAcc_tm (accLoop_tm fun acc => bind_tm h fun i => ?_)
  refine map_tm (skips_pb' nofun) ?_
  intro b hb
  cases b with
  | false => exact hb.elim
  | true => exact rfl
theorem insertColumns_tm : Tm m P insertColumns Bot := by unfold insertColumns; term
theorem valuesRow_tm : Tm true P valuesRow Bot := by unfold valuesRow; term
theorem setPair_tm : Tm true P setPair Bot := by unfold setPair; term
theorem insertBody_tm {l : List Ast} : Tm true P (insertBody l) Bot := by unfold insertBody; term
theorem conflictTarget_tm : Tm m P conflictTarget Bot := by unfold conflictTarget; term
theorem assignment_tm : Tm true P assignment Bot := by unfold assignment; term
theorem conflictAction_tm : Tm true P conflictAction Bot := by unfold conflictAction; term
theorem insertOn_tm : Tm true P insertOn Bot := by unfold insertOn; term
theorem parseInsertReplace_tm : Tm m P parseInsertReplace Bot := by
  unfold parseInsertReplace
  refine bind_po (consNode_po rfl) (fun a => ?_) (bind_pr expectedFailure_tm ?_)
  · term
  · term
theorem tableToTable_tm : Tm m P tableToTable Bot := by unfold tableToTable; term
theorem parseRename_pr : Tm m P parseRename Top := by unfold parseRename; term
theorem parseTruncate_pr : Tm m P parseTruncate Top := by unfold parseTruncate; term
theorem ifExists_tm : Tm m P ifExists Bot := by unfold ifExists; term
theorem dropTable_tm {d : Span} {t : Option Span} : Tm m P (dropTable d t) Bot := by unfold dropTable; term
theorem dropIndex_tm {d : Span} : Tm m P (dropIndex d) Bot := by unfold dropIndex; term
theorem dropView_tm {d : Span} {t : Option Span} : Tm m P (dropView d t) Bot := by unfold dropView; term
theorem dropNamed_tm {k : Keyword} {n : Prog Ast} (h : Tm true Top n Bot) : Tm m P (dropNamed k n) Bot := by unfold dropNamed; term
theorem parseDrop_pr : Tm m P parseDrop Top := by unfold parseDrop; term

theorem dataType_tm : Tm true P dataType Bot := parseDataType_tm
theorem indexType_pr : Tm m P indexType Top := by unfold indexType; term
theorem indexOption_po : Tm m P indexOption IsSome := by unfold indexOption; term
theorem indexSize_tm : Tm m P indexSize Bot := by unfold indexSize; term
theorem indexCol_tm : Tm m P indexCol Bot := by unfold indexCol; term
theorem indexCols_tm : Tm m P indexCols Bot := by unfold indexCols; term
theorem parseCols_tm : Tm m P parseCols Bot := by unfold parseCols; term
theorem ifNotExists_tm : Tm m P ifNotExists Bot := by unfold ifNotExists; term
theorem optName_tm : Tm m P optName Bot := by unfold optName; term
theorem constraintOpt_tm : Tm m P constraintOpt Bot := by unfold constraintOpt; term
theorem fkOnType_tm {s : Span} : Tm m P (fkOnType s) Bot := by unfold fkOnType; term
theorem fkOnAction_tm : Tm m P fkOnAction Bot := by unfold fkOnAction; term
theorem foreignKeyOn_po : Tm m P foreignKeyOn IsSome := by unfold foreignKeyOn; term
theorem addForeignKey_tm {s : Span} {c : Option (Span × Option Ast)} : Tm m P (addForeignKey s c) Bot := by unfold addForeignKey; term
theorem specialIndex_tm {k : Keyword} : Tm m P (specialIndex k) Bot := by unfold specialIndex; term
theorem addIndexType_tm : Tm m P addIndexType Bot := by unfold addIndexType; term
theorem addIndex_tm {s : Span} {c : Option (Span × Option Ast)} : Tm m P (addIndex s c) Bot := by unfold addIndex; term
theorem addColumnIfNotExists_tm : Tm m P addColumnIfNotExists Bot := by unfold addColumnIfNotExists; term
theorem addColumn_tm {s : Span} : Tm m P (addColumn s) Bot := by unfold addColumn; term
theorem addAlter_pr : Tm m P addAlter Top := by unfold addAlter; term
theorem alterModify_pr : Tm m P alterModify Top := by unfold alterModify; term
theorem alterColumnSet_tm : Tm true P alterColumnSet Bot := by unfold alterColumnSet; term
theorem alterColumnDrop_tm : Tm true P alterColumnDrop Bot := by unfold alterColumnDrop; term
theorem alterColumn_pr : Tm m P alterColumn Top := by unfold alterColumn; term
theorem alterSpecification_tm : Tm m P alterSpecification Bot := by unfold alterSpecification; term
theorem alterTable_tm {a : Span} {o i : Option Span} : Tm m P (alterTable a o i) Bot := by unfold alterTable; term
theorem parseAlter_pr : Tm m P parseAlter Top := by unfold parseAlter; term

theorem constraintOnDelete_tm : Tm m P constraintOnDelete Bot := by unfold constraintOnDelete; term
theorem constraintDefinition_tm : Tm m P constraintDefinition Bot := by unfold constraintDefinition; term
theorem createDefinition_tm : Tm m P createDefinition Bot := by unfold createDefinition; term
theorem createView_tm {c : Span} {o : List Ast} : Tm m P (createView c o) Bot := by unfold createView; term
theorem paramDirection_tm : Tm m P paramDirection Bot := by unfold paramDirection; term
theorem functionParam_tm : Tm m P functionParam Bot := by unfold functionParam; term
theorem functionBody_tm : Tm m P functionBody Bot := by
  unfold functionBody
  refine isPg_stay.bind fun pg => bind_tm ?_ fun a => when_tm fun _ => bind_tm ctk_tm fun _ => loop_tm fun _ => ?_
  · term
  · refine curT_sbind fun t _ => ite_tm (fun _ => ?_) fun h => ?_
    · term
    · exact bind_pr (consume_pr (ne_ne fun h' => h (.inl h'))) fun _ => pure_tm id
theorem functionCharacteristic_po : Tm m P functionCharacteristic IsSome := by unfold functionCharacteristic; term
theorem statementReq_tm : Tm true P statementReq Bot := by unfold statementReq; term
theorem createFunction_tm {c : Span} {o : List Ast} : Tm m P (createFunction c o) Bot := by unfold createFunction; term
theorem createTrigger_tm {c : Span} {o : List Ast} : Tm m P (createTrigger c o) Bot := by unfold createTrigger; term
theorem enumValues_tm : Tm m P enumValues Bot := by
  unfold enumValues
  refine loop_tm fun acc => ?_
  term
theorem createType_tm {c : Span} {o : List Ast} : Tm m P (createType c o) Bot := by unfold createType; term
theorem createIndexCol_tm : Tm m P createIndexCol Bot := by unfold createIndexCol; term
theorem usingGist_tm : Tm m P usingGist Bot := by unfold usingGist; term
theorem indexWhere_tm : Tm true P indexWhere Bot := by unfold indexWhere; term
theorem createIndex_tm {c : Span} {o : List Ast} : Tm m P (createIndex c o) Bot := by unfold createIndex; term
theorem tableIfNotExists_tm : Tm m P tableIfNotExists Bot := by unfold tableIfNotExists; term
theorem tableName_tm : Tm m P tableName Bot := by unfold tableName; term
theorem createDefinitions_tm : Tm m P createDefinitions Bot := by unfold createDefinitions; term
theorem optionValue_pr {k : Keyword} {v : Prog Ast} (h : Tm true Top v Bot) : Tm m P (optionValue k v) Top := by unfold optionValue; term
theorem tableOption_po : Tm m P tableOption IsSome := by unfold tableOption; term
theorem accMany_tm {item : Prog (Option Ast)} (h : Tm m Top item IsSome) : Tm m P (accMany item) Bot := by
  unfold accMany
  refine accLoop_tm fun acc => map_tm h ?_
  intro b hb
  cases b with
  | none => exact hb.elim
  | some a => trivial
theorem createTable_tm {c : Span} {o : List Ast} : Tm m P (createTable c o) Bot := by unfold createTable; term
theorem createOption_po : Tm m P createOption IsSome := by unfold createOption; term
theorem toStmt_tm {p : Prog Ast} (h : Tm m P p Bot) : Tm m P (toStmt p) Bot := by unfold toStmt; term
theorem parseCreate_pr : Tm m P parseCreate Top := by unfold parseCreate; term

theorem parseSet_pr : Tm m P parseSet Top := by unfold parseSet; term
theorem skipSemis_tm : Tm m P skipSemis Bot := by
  unfold skipSemis
  refine loop_tm fun _ => map_tm (skips_pb' nofun) ?_
  intro b hb
  cases b with
  | false => exact hb.elim
  | true => exact rfl
theorem stmtListInner_tm : Tm true P stmtListInner Bot := by
  unfold stmtListInner
  refine loop_tm fun acc => bind_tm skipSemis_tm fun _ => bind_tm (tryP_tm call_tm) fun r => ?_
  split
  · exact pure_tm id
  · exact pure_tm id
  · refine curT_sbind fun t _ => ite_tm (fun _ => pure_tm id) fun h => ?_
    have h : t = .semiColon := Decidable.not_not.1 h
    have hne := eq_ne h (u := .semiColon) nofun
    refine ite_tm (fun _ => bind_pr (stdin_pr hne) fun _ => pure_tm id) fun _ => bind_pr (consume_pr hne) fun _ => pure_tm id
theorem stmtList_tm : Tm true P stmtList Bot := by unfold stmtList; term
theorem stmtListReq_tm : Tm true P stmtListReq Bot := by unfold stmtListReq; term
theorem exceptionWhens_tm : Tm m P exceptionWhens Bot := by
  unfold exceptionWhens
  refine loop_tm fun _ => ?_
  term
theorem parseBlock_pr : Tm m P parseBlock Top := by unfold parseBlock; term
theorem parseDo_pr : Tm m P parseDo Top := by unfold parseDo; term
theorem ifCondition_tm {e : Option Span} : Tm true P (ifCondition e) Bot := by unfold ifCondition; term
theorem elseStmts_tm : Tm true P elseStmts Bot := by unfold elseStmts; term
theorem ifBody_tm : Tm true P ifBody Bot := by
  unfold ifBody
  refine bind_tm (accLoop_tm fun x => bind_tm ifCondition_tm fun c => ?_) fun r => ?_
  · exact bind_po skw_po (fun _ => pure_tm id) (pure_tm id)
  · term
theorem parseIf_pr : Tm m P parseIf Top := by unfold parseIf; term
theorem parseReturn_pr : Tm m P parseReturn Top := by unfold parseReturn; term
theorem signalSet_tm : Tm true P signalSet Bot := by unfold signalSet; term
theorem parseSignal_pr : Tm m P parseSignal Top := by unfold parseSignal; term
theorem whenStatement_pr : Tm m P whenStatement Top := by unfold whenStatement; term
theorem caseStatementBody_tm : Tm true P caseStatementBody Bot := by unfold caseStatementBody; term
theorem parseCase_pr : Tm m P parseCase Top := by unfold parseCase; term
theorem copyColumns_tm : Tm m P copyColumns Bot := by unfold copyColumns; term
theorem parseCopy_pr : Tm m P parseCopy Top := by unfold parseCopy; term
theorem compoundBottom_pr : Tm m P compoundBottom Top := by unfold compoundBottom; term
theorem unionType_tm : Tm m P unionType Bot := by unfold unionType; term
theorem unionPart_pr : Tm m P unionPart Top := by unfold unionPart; term
theorem compoundQuery_pr : Tm m P compoundQuery Top := by
  unfold compoundQuery
  refine bind_pr compoundBottom_pr fun q => ?_
  refine curT_sbind fun t _ => ite_tm (fun _ => pure_tm id) fun _ => ?_
  refine bind_tm (sepLoop_tm' ?_ unionPart_pr) fun w => ?_
  · term
  · term
theorem withCheck_stay {m : String} {v : SAst} : Stay (withCheck m v) := by unfold withCheck; stay
theorem withBlock_tm : Tm true P withBlock Bot := by unfold withBlock; term
theorem parseWith_pr : Tm m P parseWith Top := by unfold parseWith; term
theorem stmt_tm {p : Prog Ast} (h : Tm m P p Bot) : Tm m P (stmt p) Bot := by unfold stmt; term
theorem ostmt_tm {p : Prog SAst} (h : Tm m P p Bot) : Tm m P (ostmt p) Bot := by unfold ostmt; term
theorem beginStmt_tm : Tm m P beginStmt Bot := by unfold beginStmt; term

/-- Calls for `parse_statement`, which calls `parse_compound_query` without consuming anything. -/
theorem statementBody_fin {R : ∀ α, Fn α → St → Out α} {n k : Nat} {s : St} (hR : Calls R n k) (hs : BInv s) (hl : mu s ≤ k)
    (hq : R _ .compoundQuery s ≠ .oof) : runWith R n statementBody s ≠ .oof := by
  have key : ∀ t p, Tm false (· = t) (stmtDispatch t p) Bot ∨ stmtDispatch t p = stmt (.call .compoundQuery) := by
    intro t p
    by_cases h1 : t.isKw .CREATE = true
    · left; unfold stmtDispatch; rw [if_pos h1]; term
    · by_cases h2 : t.isKw .DROP = true
      · left; unfold stmtDispatch; rw [if_neg h1, if_pos h2]; term
      · by_cases h3 : (t.isKw .SELECT || decide (t = .lParen)) = true
        · right; unfold stmtDispatch; rw [if_neg h1, if_neg h2, if_pos h3]
        · left; unfold stmtDispatch; rw [if_neg h1, if_neg h2, if_neg h3]; term
  have hrun : runWith R n statementBody s = runWith R n (stmtDispatch s.token s.permit) s := rfl
  rw [hrun]
  rcases key s.token s.permit with h | h
  · have := h R n k s hR hs rfl (by simpa [Left] using hl)
    intro h'
    rw [h'] at this
    exact this
  · rw [h]
    intro h'
    revert hq
    change runWith R n (.bind (.call .compoundQuery) fun a => .ret (some (SAst.mk a))) s = .oof at h'
    unfold runWith at h'
    rw [show runWith R n (.call .compoundQuery) s = R _ .compoundQuery s by unfold runWith; rfl] at h'
    revert h'
    cases R _ Fn.compoundQuery s with
    | ok a s' => intro h; simp [runWith] at h
    | err s' => intro h; cases h
    | panic m => intro h; cases h
    | oof => exact fun _ h => h rfl

/-- The order in which functions call each other without consuming anything. -/
def Fn.rank : {α : Type} → Fn α → Nat
  | _, .statement => 1
  | _, _ => 0

/-- Every parsing function terminates. -/
theorem runFn_fin (n : Nat) : ∀ α (f : Fn α) s, BInv s → 2 * mu s + f.rank + 2 ≤ n → runFn n α f s ≠ .oof := by
  induction n with
  | zero => intro α f s _ h; omega
  | succ n ih =>
    intro α f s hs hn
    have hC : Calls (runFn n) n (mu s) := by
      refine ⟨runFn_good n, ?_, by omega⟩
      intro β g s' hs' hlt
      refine ih β g s' hs' ?_
      have : g.rank ≤ 1 := by cases g <;> simp [Fn.rank]
      omega
    have hl : Left false s (mu s) := by simp [Left]
    have fin : ∀ {β : Type} {p : Prog β} {D : β → Prop}, Tm false Top p D → runWith (runFn n) n p s ≠ .oof := by
      intro β p D h h'
      have := h _ _ _ s hC hs trivial hl
      rw [h'] at this
      exact this
    cases f with
    | expression inner =>
      exact fin (parseExpression_tm (P := Top) (Tm.bot parseSelect_pr) (parseDataType_tm (P := Top)))
    | compoundQuery => exact fin (compoundQuery_pr (P := Top))
    | statement =>
      refine statementBody_fin hC hs (Nat.le_refl _) (ih _ _ s hs ?_)
      simp [Fn.rank] at hn ⊢
      omega

/-- Calls at fuel `n` from a state with `k` left. -/
theorem calls_of {n k : Nat} (h : 2 * k + 2 ≤ n) : Calls (runFn n) n k := by
  refine ⟨runFn_good n, ?_, by omega⟩
  intro α f s hs hlt
  refine runFn_fin n α f s hs ?_
  have : f.rank ≤ 1 := by cases f <;> simp [Fn.rank]
  omega

end SqlParse
