import Verif.Proofs.Here
/-! Generated by tools/gen_here.py: every parser function reports what was expected only at the current token. -/
namespace SqlParse

instance : QuietStr "CREATE TYPE only supported by postgresql" := ⟨by simp [Msg.isSyntax, syntaxMessages]⟩
instance : QuietStr "Columns may not be used here" := ⟨by simp [Msg.isSyntax, syntaxMessages]⟩
instance : QuietStr "Expected . separated integers in a string" := ⟨by simp [Msg.isSyntax, syntaxMessages]⟩
instance : QuietStr "IF NOT EXIST is not supported" := ⟨by simp [Msg.isSyntax, syntaxMessages]⟩
instance : QuietStr "Index hints only supported by MariaDb" := ⟨by simp [Msg.isSyntax, syntaxMessages]⟩
instance : QuietStr "Not supported for replace" := ⟨by simp [Msg.isSyntax, syntaxMessages]⟩
instance : QuietStr "On not supported for index drops in PostgreSQL" := ⟨by simp [Msg.isSyntax, syntaxMessages]⟩
instance : QuietStr "On required for index drops in MariaDb" := ⟨by simp [Msg.isSyntax, syntaxMessages]⟩
instance : QuietStr "Only SELECT, INSERT, UPDATE or DELETE allowed as WITH query" := ⟨by simp [Msg.isSyntax, syntaxMessages]⟩
instance : QuietStr "Only SELECT, INSERT, UPDATE or DELETE allowed within WITH query" := ⟨by simp [Msg.isSyntax, syntaxMessages]⟩
instance : QuietStr "Only support by PostgreSQL" := ⟨by simp [Msg.isSyntax, syntaxMessages]⟩
instance : QuietStr "Only support by mariadb" := ⟨by simp [Msg.isSyntax, syntaxMessages]⟩
instance : QuietStr "Only support by postgesql" := ⟨by simp [Msg.isSyntax, syntaxMessages]⟩
instance : QuietStr "Opclasses not supporetd" := ⟨by simp [Msg.isSyntax, syntaxMessages]⟩
instance : QuietStr "Partial indexes not supported" := ⟨by simp [Msg.isSyntax, syntaxMessages]⟩
instance : QuietStr "Unknown delimiter" := ⟨by simp [Msg.isSyntax, syntaxMessages]⟩
instance : QuietStr "Unknown function" := ⟨by simp [Msg.isSyntax, syntaxMessages]⟩
instance : QuietStr "Using not allowed in delete with table names before FROM" := ⟨by simp [Msg.isSyntax, syntaxMessages]⟩
instance : QuietStr "WITH statements only supported by postgresql" := ⟨by simp [Msg.isSyntax, syntaxMessages]⟩
instance : QuietStr "integer outside range" := ⟨by simp [Msg.isSyntax, syntaxMessages]⟩
instance : QuietStr "quoted identifiers not supported by postgresql" := ⟨by simp [Msg.isSyntax, syntaxMessages]⟩
instance cur_eh : EH (cur) := by unfold cur; eh
instance next_eh : EH (next) := by unfold next; eh
instance curT_eh : EH (curT) := by unfold curT; eh
instance curS_eh : EH (curS) := by unfold curS; eh
instance issueIf_eh (f : WarnFlag) (l : Level) (v : List Char) (sp : Span) : EH (issueIf f l v sp) := by unfold issueIf; eh
instance dialect_eh : EH (dialect) := by unfold dialect; eh
instance isPg_eh : EH (isPg) := by unfold isPg; eh
instance isMaria_eh : EH (isMaria) := by unfold isMaria; eh
instance isSqlite_eh : EH (isSqlite) := by unfold isSqlite; eh
instance Prog_when_eh (c : Bool) (p : Prog Unit) [EH p] : EH (Prog.when c p) := by unfold Prog.when; eh
instance optMap_eh {α β : Type} (o : Option α) (f : α → Prog β) [∀ x, EH (f x)] : EH (optMap o f) := by unfold optMap; eh
instance optIf_eh {β : Type} (c : Bool) (p : Prog β) [EH p] : EH (optIf c p) := by unfold optIf; eh
instance consume_eh : EH (consume) := by unfold consume; eh
instance expectedFailure_eh {α : Type} (name : Wanted) : EH (expectedFailure name (α := α)) := by unfold expectedFailure; eh
instance recover_eh (success : Token → Bool) : EH (recover success) := by unfold recover; eh
instance recoveredEnd_eh (expected : String) (endP : Token → Bool) (ok : Bool) : EH (recoveredEnd expected endP ok) := by unfold recoveredEnd; eh
instance recoveredAcc_eh {σ : Type} (expected : String) (endP : Token → Bool) (p : Prog (Bool × σ)) [EH p] : EH (recoveredAcc expected endP p) := by unfold recoveredAcc; eh
instance recovered_eh {α : Type} (expected : String) (endP : Token → Bool) (p : Prog α) [EH p] : EH (recovered expected endP p) := by unfold recovered; eh
instance accLoop_eh {σ : Type} (body : σ → Prog (Step σ σ)) (init : σ) [∀ x, EH (body x)] : EH (accLoop body init) := by unfold accLoop; eh
instance sepLoop_eh {α : Type} (more : Prog Bool) (item : Prog α) [EH more] [EH item] : EH (sepLoop more item) := by unfold sepLoop; eh
instance spanOf_eh {α : Type} [ToF α] (a : α) : EH (spanOf a) := by unfold spanOf; eh
instance capsWarn_eh (v : List Char) (sp : Span) : EH (capsWarn v sp) := by unfold capsWarn; eh
instance ckw_eh (k : Keyword) : EH (ckw k) := by unfold ckw; eh
theorem ckwsTail_eh' (ks : List Keyword) : ∀ sp, EH (ckwsTail sp ks) := by
  induction ks with
  | nil => intro sp; unfold ckwsTail; eh
  | cons k ks ih => intro sp; unfold ckwsTail; have := ih; eh
instance ckwsTail_eh (sp : Span) (ks : List Keyword) : EH (ckwsTail sp ks) := ckwsTail_eh' ks sp
instance ckws_eh (k : Keyword) (ks : List Keyword) : EH (ckws k ks) := by unfold ckws; eh
instance skw_eh (k : Keyword) : EH (skw k) := by unfold skw; eh
instance ctk_eh (tok : Token) : EH (ctk tok) := by unfold ctk; eh
instance stk_eh (tok : Token) : EH (stk tok) := by unfold stk; eh
instance skips_eh (tok : Token) : EH (skips tok) := by unfold skips; eh
instance commaList_eh {α : Type} (item : Prog α) [EH item] : EH (commaList item) := by unfold commaList; eh
instance recList_eh {α : Type} (expected : String) (endP : Token → Bool) (item : Prog α) [EH item] : EH (recList expected endP item) := by unfold recList; eh
instance tokenToIdent_eh (t : Token) (sp : Span) : EH (tokenToIdent t sp) := by unfold tokenToIdent; eh
instance ident_eh : EH (ident) := by unfold ident; eh
instance strPair_eh : EH (strPair) := by unfold strPair; eh
instance string_eh : EH (string) := by unfold string; eh
instance int_eh (max : Nat) : EH (int max) := by unfold int; eh
instance float_eh : EH (float) := by unfold float; eh
instance qualifiedName_eh : EH (qualifiedName) := by unfold qualifiedName; eh
instance kwNode_eh (tbl : List (Keyword × Kind)) : EH (kwNode tbl) := by unfold kwNode; eh
instance consNode_eh (tbl : List (Keyword × Kind)) : EH (consNode tbl) := by unfold consNode; eh
instance orExpected_eh {α : Type} (o : Option α) (name : String) : EH (orExpected o name (α := α)) := by unfold orExpected; eh
instance manyOpt_eh {α : Type} (p : Prog (Option α)) [EH p] : EH (manyOpt p) := by unfold manyOpt; eh
instance shifted_eh (r : Except String (List RM)) : EH (shifted r) := by unfold shifted; eh
instance doBin_eh (op : BinOp) (st : List RM) : EH (doBin op st) := by unfold doBin; eh
instance doUn_eh (op : UnOp) (st : List RM) : EH (doUn op st) := by unfold doUn; eh
instance doExpr_eh (st : List RM) (p : Prog Ast) [EH p] : EH (doExpr st p) := by unfold doExpr; eh
instance expr_eh : EH (expr) := by unfold expr; eh
instance exprOuterWith_eh (sel : Prog Ast) [EH sel] : EH (exprOuterWith sel) := by unfold exprOuterWith; eh
instance exprParen_eh : EH (exprParen) := by unfold exprParen; eh
instance orderFlag_eh : EH (orderFlag) := by unfold orderFlag; eh
instance orderItem_eh : EH (orderItem) := by unfold orderItem; eh
instance functionOf_eh (t : Token) (span : Span) : EH (functionOf t span) := by unfold functionOf; eh
instance parseFunction_eh (sel : Prog Ast) (t : Token) (span : Span) [EH sel] : EH (parseFunction sel t span) := by unfold parseFunction; eh
instance timeUnit_eh : EH (timeUnit) := by unfold timeUnit; eh
instance inList_eh : EH (inList) := by unfold inList; eh
instance popLhs_eh (m : String) (st : List RM) : EH (popLhs m st) := by unfold popLhs; eh
instance exprIn_eh (st : List RM) : EH (exprIn st) := by unfold exprIn; eh
instance isWord'_eh (op : Span) : EH (isWord' op) := by unfold isWord'; eh
instance exprIs_eh (st : List RM) : EH (exprIs st) := by unfold exprIs; eh
instance exprNotIn_eh (st : List RM) : EH (exprNotIn st) := by unfold exprNotIn; eh
theorem intervalParts_eh' (sp : Span) (ws : List (List Char)) : ∀ acc, EH (intervalParts sp acc ws) := by
  induction ws with
  | nil => intro acc; unfold intervalParts; eh
  | cons k ks ih => intro acc; unfold intervalParts; have := ih; eh
instance intervalParts_eh (sp : Span) (acc : List Nat) (ws : List (List Char)) : EH (intervalParts sp acc ws) := intervalParts_eh' sp ws acc
instance intervalValue_eh : EH (intervalValue) := by unfold intervalValue; eh
instance exprInterval_eh : EH (exprInterval) := by unfold exprInterval; eh
instance timestampArgs_eh (sel : Prog Ast) [EH sel] : EH (timestampArgs sel) := by unfold timestampArgs; eh
instance exprTimestampAdd_eh (sel : Prog Ast) [EH sel] : EH (exprTimestampAdd sel) := by unfold exprTimestampAdd; eh
instance exprTimestampDiff_eh (sel : Prog Ast) [EH sel] : EH (exprTimestampDiff sel) := by unfold exprTimestampDiff; eh
instance castArgs_eh (sel dataType : Prog Ast) [EH sel] [EH dataType] : EH (castArgs sel dataType) := by unfold castArgs; eh
instance exprCast_eh (sel dataType : Prog Ast) [EH sel] [EH dataType] : EH (exprCast sel dataType) := by unfold exprCast; eh
instance exprCount_eh (sel : Prog Ast) [EH sel] : EH (exprCount sel) := by unfold exprCount; eh
instance exprGroupConcat_eh (sel : Prog Ast) [EH sel] : EH (exprGroupConcat sel) := by unfold exprGroupConcat; eh
instance extractArgs_eh (sel : Prog Ast) [EH sel] : EH (extractArgs sel) := by unfold extractArgs; eh
instance exprExtract_eh (sel : Prog Ast) [EH sel] : EH (exprExtract sel) := by unfold exprExtract; eh
instance exprLeft_eh (sel : Prog Ast) [EH sel] : EH (exprLeft sel) := by unfold exprLeft; eh
instance identParts_eh (first : Ast) : EH (identParts first) := by unfold identParts; eh
instance exprWord_eh (sel : Prog Ast) [EH sel] : EH (exprWord sel) := by unfold exprWord; eh
instance exprArg_eh : EH (exprArg) := by unfold exprArg; eh
instance exprListHack_eh : EH (exprListHack) := by unfold exprListHack; eh
instance exprDollar_eh (n : Nat) : EH (exprDollar n) := by unfold exprDollar; eh
instance exprParens_eh : EH (exprParens) := by unfold exprParens; eh
instance exprExists_eh : EH (exprExists) := by unfold exprExists; eh
instance caseWhen_eh : EH (caseWhen) := by unfold caseWhen; eh
instance caseBody_eh : EH (caseBody) := by unfold caseBody; eh
instance exprCase_eh : EH (exprCase) := by unfold exprCase; eh
instance exprVariable_eh : EH (exprVariable) := by unfold exprVariable; eh
instance parseExpression_eh (sel dataType : Prog Ast) (inner : Bool) [EH sel] [EH dataType] : EH (parseExpression sel dataType inner) := by unfold parseExpression; eh
instance parseWidth_eh : EH (parseWidth) := by unfold parseWidth; eh
instance parseWidthReq_eh : EH (parseWidthReq) := by unfold parseWidthReq; eh
instance enumSetLoop_eh : EH (enumSetLoop) := by unfold enumSetLoop; eh
instance enumSetValues_eh : EH (enumSetValues) := by unfold enumSetValues; eh
instance typeOf_eh : EH (typeOf) := by unfold typeOf; eh
instance notNull_eh : EH (notNull) := by unfold notNull; eh
instance parenExprOrInvalid_eh : EH (parenExprOrInvalid) := by unfold parenExprOrInvalid; eh
instance typeProperty_eh (noAs : Bool) : EH (typeProperty noAs) := by unfold typeProperty; eh
instance parseDataType_eh (noAs : Bool) : EH (parseDataType noAs) := by unfold parseDataType; eh
instance selectExpr_eh : EH (selectExpr) := by unfold selectExpr; eh
instance aliasOpt_eh : EH (aliasOpt) := by unfold aliasOpt; eh
instance hintFor_eh : EH (hintFor) := by unfold hintFor; eh
instance hintIndexList_eh : EH (hintIndexList) := by unfold hintIndexList; eh
instance indexHint_eh : EH (indexHint) := by unfold indexHint; eh
instance checkHints_eh (hints : List Ast) : EH (checkHints hints) := by unfold checkHints; eh
instance tableReferenceInner_eh : EH (tableReferenceInner) := by unfold tableReferenceInner; eh
instance sideJoin_eh (k : Keyword) : EH (sideJoin k) := by unfold sideJoin; eh
instance joinType_eh : EH (joinType) := by unfold joinType; eh
instance joinSpecification_eh : EH (joinSpecification) := by unfold joinSpecification; eh
instance tableReference_eh : EH (tableReference) := by unfold tableReference; eh
instance kwExpr_eh (k : Keyword) : EH (kwExpr k) := by unfold kwExpr; eh
instance groupBy_eh : EH (groupBy) := by unfold groupBy; eh
instance orderBy_eh : EH (orderBy) := by unfold orderBy; eh
instance limitClause_eh : EH (limitClause) := by unfold limitClause; eh
instance lockStrength_eh : EH (lockStrength) := by unfold lockStrength; eh
instance lockWait_eh : EH (lockWait) := by unfold lockWait; eh
instance lockOf_eh : EH (lockOf) := by unfold lockOf; eh
instance locking_eh : EH (locking) := by unfold locking; eh
instance parseSelect_eh : EH (parseSelect) := by unfold parseSelect; eh
instance exprOuter_eh : EH (exprOuter) := by unfold exprOuter; eh
instance returningClause_eh : EH (returningClause) := by unfold returningClause; eh
instance deleteTables_eh : EH (deleteTables) := by unfold deleteTables; eh
instance deleteUsing_eh (using_ : List Ast) : EH (deleteUsing using_) := by unfold deleteUsing; eh
instance parseDelete_eh : EH (parseDelete) := by unfold parseDelete; eh
instance updateSet_eh : EH (updateSet) := by unfold updateSet; eh
instance updateReturning_eh : EH (updateReturning) := by unfold updateReturning; eh
instance parseUpdate_eh : EH (parseUpdate) := by unfold parseUpdate; eh
instance checkInsertFlags_eh (b : Bool) (l : List Ast) : EH (checkInsertFlags b l) := by
  induction l with
  | nil => unfold checkInsertFlags; eh
  | cons k ks ih => unfold checkInsertFlags; eh
instance insertColumns_eh : EH (insertColumns) := by unfold insertColumns; eh
instance valuesRow_eh : EH (valuesRow) := by unfold valuesRow; eh
instance setPair_eh : EH (setPair) := by unfold setPair; eh
instance conflictTarget_eh : EH (conflictTarget) := by unfold conflictTarget; eh
instance assignment_eh : EH (assignment) := by unfold assignment; eh
instance conflictAction_eh : EH (conflictAction) := by unfold conflictAction; eh
instance insertOn_eh : EH (insertOn) := by unfold insertOn; eh
instance parseInsertReplace_eh : EH (parseInsertReplace) := by unfold parseInsertReplace; eh
instance tableToTable_eh : EH (tableToTable) := by unfold tableToTable; eh
instance parseRename_eh : EH (parseRename) := by unfold parseRename; eh
instance parseTruncate_eh : EH (parseTruncate) := by unfold parseTruncate; eh
instance ifExists_eh : EH (ifExists) := by unfold ifExists; eh
instance dropTable_eh (d : Span) (tmp : Option Span) : EH (dropTable d tmp) := by unfold dropTable; eh
instance dropIndex_eh (d : Span) : EH (dropIndex d) := by unfold dropIndex; eh
instance dropView_eh (d : Span) (tmp : Option Span) : EH (dropView d tmp) := by unfold dropView; eh
instance dropNamed_eh (k : Keyword) (name : Prog Ast) [EH name] : EH (dropNamed k name) := by unfold dropNamed; eh
instance parseDrop_eh : EH (parseDrop) := by unfold parseDrop; eh
instance dataType_eh : EH (dataType) := by unfold dataType; eh
instance indexType_eh : EH (indexType) := by unfold indexType; eh
instance indexOption_eh : EH (indexOption) := by unfold indexOption; eh
instance indexSize_eh : EH (indexSize) := by unfold indexSize; eh
instance indexCol_eh : EH (indexCol) := by unfold indexCol; eh
instance indexCols_eh : EH (indexCols) := by unfold indexCols; eh
instance parseCols_eh : EH (parseCols) := by unfold parseCols; eh
instance ifNotExists_eh : EH (ifNotExists) := by unfold ifNotExists; eh
instance optName_eh : EH (optName) := by unfold optName; eh
instance constraintOpt_eh : EH (constraintOpt) := by unfold constraintOpt; eh
instance fkOnType_eh (on : Span) : EH (fkOnType on) := by unfold fkOnType; eh
instance fkOnAction_eh : EH (fkOnAction) := by unfold fkOnAction; eh
instance foreignKeyOn_eh : EH (foreignKeyOn) := by unfold foreignKeyOn; eh
instance addForeignKey_eh (add : Span) (con : Option (Span × Option Ast)) : EH (addForeignKey add con) := by unfold addForeignKey; eh
instance specialIndex_eh (k : Keyword) : EH (specialIndex k) := by unfold specialIndex; eh
instance addIndexType_eh : EH (addIndexType) := by unfold addIndexType; eh
instance addIndex_eh (add : Span) (con : Option (Span × Option Ast)) : EH (addIndex add con) := by unfold addIndex; eh
instance addColumnIfNotExists_eh : EH (addColumnIfNotExists) := by unfold addColumnIfNotExists; eh
instance addColumn_eh (add : Span) : EH (addColumn add) := by unfold addColumn; eh
instance addAlter_eh : EH (addAlter) := by unfold addAlter; eh
instance alterModify_eh : EH (alterModify) := by unfold alterModify; eh
instance alterColumnSet_eh : EH (alterColumnSet) := by unfold alterColumnSet; eh
instance alterColumnDrop_eh : EH (alterColumnDrop) := by unfold alterColumnDrop; eh
instance alterColumn_eh : EH (alterColumn) := by unfold alterColumn; eh
instance alterSpecification_eh : EH (alterSpecification) := by unfold alterSpecification; eh
instance alterTable_eh (a : Span) (online ignore : Option Span) : EH (alterTable a online ignore) := by unfold alterTable; eh
instance parseAlter_eh : EH (parseAlter) := by unfold parseAlter; eh
instance constraintOnDelete_eh : EH (constraintOnDelete) := by unfold constraintOnDelete; eh
instance constraintDefinition_eh : EH (constraintDefinition) := by unfold constraintDefinition; eh
instance createDefinition_eh : EH (createDefinition) := by unfold createDefinition; eh
instance createView_eh (c : Span) (opts : List Ast) : EH (createView c opts) := by unfold createView; eh
instance paramDirection_eh : EH (paramDirection) := by unfold paramDirection; eh
instance functionParam_eh : EH (functionParam) := by unfold functionParam; eh
instance functionBody_eh : EH (functionBody) := by unfold functionBody; eh
instance functionCharacteristic_eh : EH (functionCharacteristic) := by unfold functionCharacteristic; eh
instance statementReq_eh : EH (statementReq) := by unfold statementReq; eh
instance createFunction_eh (c : Span) (opts : List Ast) : EH (createFunction c opts) := by unfold createFunction; eh
instance createTrigger_eh (c : Span) (opts : List Ast) : EH (createTrigger c opts) := by unfold createTrigger; eh
instance enumValues_eh : EH (enumValues) := by unfold enumValues; eh
instance createType_eh (c : Span) (opts : List Ast) : EH (createType c opts) := by unfold createType; eh
instance createIndexCol_eh : EH (createIndexCol) := by unfold createIndexCol; eh
instance usingGist_eh : EH (usingGist) := by unfold usingGist; eh
instance indexWhere_eh : EH (indexWhere) := by unfold indexWhere; eh
instance createIndex_eh (c : Span) (opts : List Ast) : EH (createIndex c opts) := by unfold createIndex; eh
instance tableIfNotExists_eh : EH (tableIfNotExists) := by unfold tableIfNotExists; eh
instance tableName_eh : EH (tableName) := by unfold tableName; eh
instance createDefinitions_eh : EH (createDefinitions) := by unfold createDefinitions; eh
instance optionValue_eh (k : Keyword) (value : Prog Ast) [EH value] : EH (optionValue k value) := by unfold optionValue; eh
instance tableOption_eh : EH (tableOption) := by unfold tableOption; eh
instance accMany_eh (item : Prog (Option Ast)) [EH item] : EH (accMany item) := by unfold accMany; eh
instance createTable_eh (c : Span) (opts : List Ast) : EH (createTable c opts) := by unfold createTable; eh
instance createOption_eh : EH (createOption) := by unfold createOption; eh
instance toStmt_eh (p : Prog Ast) [EH p] : EH (toStmt p) := by unfold toStmt; eh
instance parseCreate_eh : EH (parseCreate) := by unfold parseCreate; eh
instance parseSet_eh : EH (parseSet) := by unfold parseSet; eh
instance skipSemis_eh : EH (skipSemis) := by unfold skipSemis; eh
instance stmtListInner_eh : EH (stmtListInner) := by unfold stmtListInner; eh
instance stmtList_eh : EH (stmtList) := by unfold stmtList; eh
instance stmtListReq_eh : EH (stmtListReq) := by unfold stmtListReq; eh
instance exceptionWhens_eh : EH (exceptionWhens) := by unfold exceptionWhens; eh
instance parseBlock_eh : EH (parseBlock) := by unfold parseBlock; eh
instance parseDo_eh : EH (parseDo) := by unfold parseDo; eh
instance ifCondition_eh (e : Option Span) : EH (ifCondition e) := by unfold ifCondition; eh
instance elseStmts_eh : EH (elseStmts) := by unfold elseStmts; eh
instance ifBody_eh : EH (ifBody) := by unfold ifBody; eh
instance parseIf_eh : EH (parseIf) := by unfold parseIf; eh
instance parseReturn_eh : EH (parseReturn) := by unfold parseReturn; eh
instance signalSet_eh : EH (signalSet) := by unfold signalSet; eh
instance parseSignal_eh : EH (parseSignal) := by unfold parseSignal; eh
instance whenStatement_eh : EH (whenStatement) := by unfold whenStatement; eh
instance caseStatementBody_eh : EH (caseStatementBody) := by unfold caseStatementBody; eh
instance parseCase_eh : EH (parseCase) := by unfold parseCase; eh
instance copyColumns_eh : EH (copyColumns) := by unfold copyColumns; eh
instance parseCopy_eh : EH (parseCopy) := by unfold parseCopy; eh
instance compoundBottom_eh : EH (compoundBottom) := by unfold compoundBottom; eh
instance unionType_eh : EH (unionType) := by unfold unionType; eh
instance unionPart_eh : EH (unionPart) := by unfold unionPart; eh
instance compoundQuery_eh : EH (compoundQuery) := by unfold compoundQuery; eh
instance withCheck_eh (m : String) (v : SAst) [QuietStr m] : EH (withCheck m v) := by unfold withCheck; eh
instance withBlock_eh : EH (withBlock) := by unfold withBlock; eh
instance parseWith_eh : EH (parseWith) := by unfold parseWith; eh
instance stmt_eh (p : Prog Ast) [EH p] : EH (stmt p) := by unfold stmt; eh
instance ostmt_eh (p : Prog SAst) [EH p] : EH (ostmt p) := by unfold ostmt; eh
instance beginStmt_eh : EH (beginStmt) := by unfold beginStmt; eh
instance stmtDispatch_eh (t : Token) (p : Bool) : EH (stmtDispatch t p) := by unfold stmtDispatch; eh
instance statementBody_eh : EH (statementBody) := by unfold statementBody; eh
instance body_eh {α : Type} (f : Fn α) : EH (body f) := by cases f <;> (unfold body; eh)
instance skipDelims_eh : EH (skipDelims) := by unfold skipDelims; eh
instance skipToDelim_eh : EH (skipToDelim) := by unfold skipToDelim; eh
instance setDelimiter_eh : EH (setDelimiter) := by unfold setDelimiter; eh
instance topStatement_eh : EH (topStatement) := by unfold topStatement; eh
instance afterDelim_eh (acc : List SAst) (stdin : Bool) : EH (afterDelim acc stdin) := by unfold afterDelim; eh
instance finishStatement_eh (acc : List SAst) (r : Option SAst) : EH (finishStatement acc r) := by unfold finishStatement; eh
instance statementsStep_eh (acc : List SAst) : EH (statementsStep acc) := by unfold statementsStep; eh
instance statements_eh : EH (statements) := by unfold statements; eh
instance singleStatement_eh : EH (singleStatement) := by unfold singleStatement; eh

end SqlParse
