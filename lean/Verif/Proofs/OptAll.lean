import Verif.Proofs.Opt
import Verif.Api
/-! Generated by tools/gen_opt.py: every parser function goes in step with itself under other options. -/
namespace SqlParse

variable {E : Dsrc}

instance cur_da : DA E (cur) := by unfold cur; da
instance next_da : DA E (next) := by unfold next; da
instance curT_da : DA E (curT) := by unfold curT; da
instance curS_da : DA E (curS) := by unfold curS; da
instance err_da (msg : Msg) (sp : Span) (frags : List (String × Span)) : DA E (err msg sp frags) := by unfold err; da
instance warn_da (msg : Msg) (sp : Span) (frags : List (String × Span)) : DA E (warn msg sp frags) := by unfold warn; da
instance issueIf_da (f : WarnFlag) (l : Level) (v : List Char) (sp : Span) : DA E (issueIf f l v sp) := by unfold issueIf; da
instance Prog_when_da (c : Bool) (p : Prog Unit) [DA E p] : DA E (Prog.when c p) := by unfold Prog.when; da
instance optMap_da {α β : Type} (o : Option α) (f : α → Prog β) [∀ x, DA E (f x)] : DA E (optMap o f) := by unfold optMap; da
instance optIf_da {β : Type} (c : Bool) (p : Prog β) [DA E p] : DA E (optIf c p) := by unfold optIf; da
instance consume_da : DA E (consume) := by unfold consume; da
instance expectedError_da (name : Wanted) : DA E (expectedError name) := by unfold expectedError; da
instance expectedFailure_da {α : Type} (name : Wanted) : DA E (expectedFailure name (α := α)) := by unfold expectedFailure; da
instance errHere_da {α : Type} (msg : String) : DA E (errHere msg (α := α)) := by unfold errHere; da
instance recover_da (success : Token → Bool) : DA E (recover success) := by unfold recover; da
instance recoveredEnd_da (expected : String) (endP : Token → Bool) (ok : Bool) : DA E (recoveredEnd expected endP ok) := by unfold recoveredEnd; da
instance recoveredAcc_da {σ : Type} (expected : String) (endP : Token → Bool) (p : Prog (Bool × σ)) [DA E p] : DA E (recoveredAcc expected endP p) := by unfold recoveredAcc; da
instance recovered_da {α : Type} (expected : String) (endP : Token → Bool) (p : Prog α) [DA E p] : DA E (recovered expected endP p) := by unfold recovered; da
instance accLoop_da {σ : Type} (body : σ → Prog (Step σ σ)) (init : σ) [∀ x, DA E (body x)] : DA E (accLoop body init) := by unfold accLoop; da
instance sepLoop_da {α : Type} (more : Prog Bool) (item : Prog α) [DA E more] [DA E item] : DA E (sepLoop more item) := by unfold sepLoop; da
instance spanOf_da {α : Type} [ToF α] (a : α) : DA E (spanOf a) := by unfold spanOf; da
instance capsWarn_da (v : List Char) (sp : Span) : DA E (capsWarn v sp) := by unfold capsWarn; da
instance ckw_da (k : Keyword) : DA E (ckw k) := by unfold ckw; da
theorem ckwsTail_da' (ks : List Keyword) : ∀ sp, DA E (ckwsTail sp ks) := by
  induction ks with
  | nil => intro sp; unfold ckwsTail; da
  | cons k ks ih => intro sp; unfold ckwsTail; have := ih; da
instance ckwsTail_da (sp : Span) (ks : List Keyword) : DA E (ckwsTail sp ks) := ckwsTail_da' ks sp
instance ckws_da (k : Keyword) (ks : List Keyword) : DA E (ckws k ks) := by unfold ckws; da
instance skw_da (k : Keyword) : DA E (skw k) := by unfold skw; da
instance ctk_da (tok : Token) : DA E (ctk tok) := by unfold ctk; da
instance stk_da (tok : Token) : DA E (stk tok) := by unfold stk; da
instance skips_da (tok : Token) : DA E (skips tok) := by unfold skips; da
instance commaList_da {α : Type} (item : Prog α) [DA E item] : DA E (commaList item) := by unfold commaList; da
instance recList_da {α : Type} (expected : String) (endP : Token → Bool) (item : Prog α) [DA E item] : DA E (recList expected endP item) := by unfold recList; da
instance tokenToIdent_da (t : Token) (sp : Span) : DA E (tokenToIdent t sp) := by unfold tokenToIdent; da
instance ident_da : DA E (ident) := by
  constructor
  unfold ident
  refine .bind (DA.h (p := cur)) fun x => ?_
  obtain ⟨t, sp⟩ := x
  dsimp only
  split
  · refine D2.isPg (fun b => DA.h) fun hd => ⟨.bind ?_ fun _ => DA.h, .bind ?_ fun _ => DA.h⟩
    all_goals split
    all_goals first | exact DA.h | skip
    all_goals split
    all_goals first | exact DA.h | exact .when hd (says_err (by decide)) inferInstance
  · refine D2.isPg (fun b => DA.h) fun hd => ⟨?_, ?_⟩
    · exact errs_expectedFailure.right hd
    · exact errs_expectedFailure.left hd
  · exact DA.h
instance strPair_da : DA E (strPair) := by unfold strPair; da
instance string_da : DA E (string) := by unfold string; da
instance int_da (max : Nat) : DA E (int max) := by unfold int; da
instance float_da : DA E (float) := by unfold float; da
instance qualifiedName_da : DA E (qualifiedName) := by unfold qualifiedName; da
instance kwNode_da (tbl : List (Keyword × Kind)) : DA E (kwNode tbl) := by unfold kwNode; da
instance consNode_da (tbl : List (Keyword × Kind)) : DA E (consNode tbl) := by unfold consNode; da
instance orExpected_da {α : Type} (o : Option α) (name : String) : DA E (orExpected o name (α := α)) := by unfold orExpected; da
instance manyOpt_da {α : Type} (p : Prog (Option α)) [DA E p] : DA E (manyOpt p) := by unfold manyOpt; da
instance shifted_da (r : Except String (List RM)) : DA E (shifted r) := by unfold shifted; da
instance doBin_da (op : BinOp) (st : List RM) : DA E (doBin op st) := by unfold doBin; da
instance doUn_da (op : UnOp) (st : List RM) : DA E (doUn op st) := by unfold doUn; da
instance doExpr_da (st : List RM) (p : Prog Ast) [DA E p] : DA E (doExpr st p) := by unfold doExpr; da
instance expr_da : DA E (expr) := by unfold expr; da
instance exprOuterWith_da (sel : Prog Ast) [DA E sel] : DA E (exprOuterWith sel) := by unfold exprOuterWith; da
instance exprParen_da : DA E (exprParen) := by unfold exprParen; da
instance orderFlag_da : DA E (orderFlag) := by unfold orderFlag; da
instance orderItem_da : DA E (orderItem) := by unfold orderItem; da
instance functionOf_da (t : Token) (span : Span) : DA E (functionOf t span) := by unfold functionOf; da
instance parseFunction_da (sel : Prog Ast) (t : Token) (span : Span) [DA E sel] : DA E (parseFunction sel t span) := by unfold parseFunction; da
instance timeUnit_da : DA E (timeUnit) := by unfold timeUnit; da
instance inList_da : DA E (inList) := by unfold inList; da
instance popLhs_da (m : String) (st : List RM) : DA E (popLhs m st) := by unfold popLhs; da
instance exprIn_da (st : List RM) : DA E (exprIn st) := by unfold exprIn; da
instance isWord'_da (op : Span) : DA E (isWord' op) := by unfold isWord'; da
instance exprIs_da (st : List RM) : DA E (exprIs st) := by unfold exprIs; da
instance exprNotIn_da (st : List RM) : DA E (exprNotIn st) := by unfold exprNotIn; da
theorem intervalParts_da' (sp : Span) (ws : List (List Char)) : ∀ acc, DA E (intervalParts sp acc ws) := by
  induction ws with
  | nil => intro acc; unfold intervalParts; da
  | cons k ks ih => intro acc; unfold intervalParts; have := ih; da
instance intervalParts_da (sp : Span) (acc : List Nat) (ws : List (List Char)) : DA E (intervalParts sp acc ws) := intervalParts_da' sp ws acc
instance intervalValue_da : DA E (intervalValue) := by unfold intervalValue; da
instance exprInterval_da : DA E (exprInterval) := by unfold exprInterval; da
instance timestampArgs_da (sel : Prog Ast) [DA E sel] : DA E (timestampArgs sel) := by unfold timestampArgs; da
instance exprTimestampAdd_da (sel : Prog Ast) [DA E sel] : DA E (exprTimestampAdd sel) := by unfold exprTimestampAdd; da
instance exprTimestampDiff_da (sel : Prog Ast) [DA E sel] : DA E (exprTimestampDiff sel) := by unfold exprTimestampDiff; da
instance castArgs_da (sel dataType : Prog Ast) [DA E sel] [DA E dataType] : DA E (castArgs sel dataType) := by unfold castArgs; da
instance exprCast_da (sel dataType : Prog Ast) [DA E sel] [DA E dataType] : DA E (exprCast sel dataType) := by unfold exprCast; da
instance exprCount_da (sel : Prog Ast) [DA E sel] : DA E (exprCount sel) := by unfold exprCount; da
instance exprGroupConcat_da (sel : Prog Ast) [DA E sel] : DA E (exprGroupConcat sel) := by unfold exprGroupConcat; da
instance extractArgs_da (sel : Prog Ast) [DA E sel] : DA E (extractArgs sel) := by unfold extractArgs; da
instance exprExtract_da (sel : Prog Ast) [DA E sel] : DA E (exprExtract sel) := by unfold exprExtract; da
instance exprLeft_da (sel : Prog Ast) [DA E sel] : DA E (exprLeft sel) := by unfold exprLeft; da
instance identParts_da (first : Ast) : DA E (identParts first) := by unfold identParts; da
instance exprWord_da (sel : Prog Ast) [DA E sel] : DA E (exprWord sel) := by unfold exprWord; da
instance exprArg_da : DA E (exprArg) := by unfold exprArg; da
instance exprListHack_da : DA E (exprListHack) := by unfold exprListHack; da
instance exprDollar_da (n : Nat) : DA E (exprDollar n) := by unfold exprDollar; da
instance exprParens_da : DA E (exprParens) := by unfold exprParens; da
instance exprExists_da : DA E (exprExists) := by unfold exprExists; da
instance caseWhen_da : DA E (caseWhen) := by unfold caseWhen; da
instance caseBody_da : DA E (caseBody) := by unfold caseBody; da
instance exprCase_da : DA E (exprCase) := by unfold exprCase; da
instance exprVariable_da : DA E (exprVariable) := by unfold exprVariable; da
instance exprStep_da (sel dataType : Prog Ast) (inner : Bool) (st : List RM) [DA E sel] [DA E dataType] : DA E (exprStep sel dataType inner st) := by
  constructor
  unfold exprStep
  refine D2.curT fun t ht => ?_
  iterate 40 try (refine D2.ite ?_ ?_; · exact DA.h)
  refine D2.listHack fun b b' hb => ?_
  have h1 : (t.isKw .«_LIST_» && b) = (t.isKw .«_LIST_» && b') := by
    rcases ht.list with h | h
    · rw [hb h]
    · rw [h]; rfl
  rw [h1]
  refine D2.ite DA.h (D2.ite DA.h ?_)
  split
  all_goals first
    | exact DA.h
    | skip
  all_goals
    refine D2.arguments ?_ fun _ => DA.h
    rcases ht.args with h | ⟨h, h', h''⟩
    · exact h
    · first | exact absurd rfl (h _) | exact absurd rfl h' | exact absurd rfl h''
instance parseExpression_da (sel dataType : Prog Ast) (inner : Bool) [DA E sel] [DA E dataType] : DA E (parseExpression sel dataType inner) := by unfold parseExpression; da
instance parseWidth_da : DA E (parseWidth) := by unfold parseWidth; da
instance parseWidthReq_da : DA E (parseWidthReq) := by unfold parseWidthReq; da
instance enumSetLoop_da : DA E (enumSetLoop) := by unfold enumSetLoop; da
instance enumSetValues_da : DA E (enumSetValues) := by unfold enumSetValues; da
instance typeOf_da : DA E (typeOf) := by
  constructor
  unfold typeOf
  refine D2.curT fun t ht => ?_
  repeat' first
    | exact DA.h
    | refine D2.ite' (fun _ => ?_) (fun _ => ?_)
  · next h =>
    refine .bind DA.h fun i => D2.isSqlite (fun _ => DA.h) fun hd => ?_
    rw [ht.words hd .REAL (by decide)] at h
    cases h
  · refine D2.isPg (fun _ => DA.h) fun hd => ⟨?_, ?_⟩
    · exact .bind (D2.bindR DA.h fun _ => ((errs_ckw fun t ht => ht.words hd .PRECISION (by decide)).bindRet).left hd) fun _ => DA.h
    · exact .bind (D2.bindL DA.h fun _ => ((errs_ckw fun t ht => ht.words hd .PRECISION (by decide)).bindRet).right hd) fun _ => DA.h
  · split
    · refine D2.isPg (fun _ => DA.h) fun hd => ⟨?_, ?_⟩
      · exact errs_expectedFailure.right hd
      · exact errs_expectedFailure.left hd
    · exact DA.h
instance notNull_da : DA E (notNull) := by unfold notNull; da
instance parenExprOrInvalid_da : DA E (parenExprOrInvalid) := by unfold parenExprOrInvalid; da
theorem generated_both (hd : Differ E.o E.o') :
    D2 E (ckws .GENERATED [.ALWAYS, .AS, .IDENTITY]) (ckws .GENERATED [.ALWAYS]) ∧ D2 E (ckws .GENERATED [.ALWAYS]) (ckws .GENERATED [.ALWAYS, .AS, .IDENTITY]) := by
  have h : ∀ sp, Errs E (ckwsTail sp [.IDENTITY]) := fun sp => (errs_ckw fun t ht => ht.words hd .IDENTITY (by decide)).bindRet
  constructor
  · refine .bind DA.h fun _ => .bind DA.h fun _ => (Errs.after (fun _ _ _ => ckw_tk) fun _ => h _).left hd
  · refine .bind DA.h fun _ => .bind DA.h fun _ => (Errs.after (fun _ _ _ => ckw_tk) fun _ => h _).right hd
instance typeProperty_da (noAs : Bool) : DA E (typeProperty noAs) := by
  constructor
  unfold typeProperty
  refine D2.curT fun t ht => ?_
  repeat' first
    | exact DA.h
    | refine D2.ite' (fun _ => ?_) (fun _ => ?_)
  refine D2.isPg (fun _ => DA.h) fun hd => ⟨.bind (generated_both hd).1 fun _ => DA.h, .bind (generated_both hd).2 fun _ => DA.h⟩
instance parseDataType_da (noAs : Bool) : DA E (parseDataType noAs) := by unfold parseDataType; da
instance selectExpr_da : DA E (selectExpr) := by unfold selectExpr; da
instance aliasOpt_da : DA E (aliasOpt) := by unfold aliasOpt; da
instance hintFor_da : DA E (hintFor) := by unfold hintFor; da
instance hintIndexList_da : DA E (hintIndexList) := by unfold hintIndexList; da
instance indexHint_da : DA E (indexHint) := by unfold indexHint; da
instance checkHints_da (hints : List Ast) : DA E (checkHints hints) := by unfold checkHints; da
instance tableReferenceInner_da : DA E (tableReferenceInner) := by unfold tableReferenceInner; da
instance sideJoin_da (k : Keyword) : DA E (sideJoin k) := by unfold sideJoin; da
instance joinType_da : DA E (joinType) := by unfold joinType; da
instance joinSpecification_da : DA E (joinSpecification) := by unfold joinSpecification; da
instance tableReference_da : DA E (tableReference) := by unfold tableReference; da
instance kwExpr_da (k : Keyword) : DA E (kwExpr k) := by unfold kwExpr; da
instance groupBy_da : DA E (groupBy) := by unfold groupBy; da
instance orderBy_da : DA E (orderBy) := by unfold orderBy; da
instance limitClause_da : DA E (limitClause) := by unfold limitClause; da
instance lockStrength_da : DA E (lockStrength) := by
  constructor
  unfold lockStrength
  refine D2.curT fun t ht => ?_
  refine D2.isPg (fun _ => DA.h) fun hd => ⟨?_, ?_⟩
  all_goals
    refine D2.ite DA.h (D2.ite DA.h (D2.ite ?_ (D2.ite ?_ DA.h)))
    all_goals exact .bind DA.h fun _ => .whenBind hd (says_err (by decide)) inferInstance fun _ => inferInstance
instance lockWait_da : DA E (lockWait) := by unfold lockWait; da
instance lockOf_da : DA E (lockOf) := by unfold lockOf; da
instance locking_da : DA E (locking) := by unfold locking; da
instance parseSelect_da : DA E (parseSelect) := by unfold parseSelect; da
instance exprOuter_da : DA E (exprOuter) := by unfold exprOuter; da
instance returningClause_da : DA E (returningClause) := by unfold returningClause; da
instance deleteTables_da : DA E (deleteTables) := by unfold deleteTables; da
instance deleteUsing_da (using_ : List Ast) : DA E (deleteUsing using_) := by unfold deleteUsing; da
instance parseDelete_da : DA E (parseDelete) := by unfold parseDelete; da
instance updateSet_da : DA E (updateSet) := by unfold updateSet; da
instance updateReturning_da : DA E (updateReturning) := by unfold updateReturning; da
instance parseUpdate_da : DA E (parseUpdate) := by unfold parseUpdate; da
instance checkInsertFlags_da (b : Bool) (l : List Ast) : DA E (checkInsertFlags b l) := by
  induction l with
  | nil => unfold checkInsertFlags; da
  | cons k ks ih => unfold checkInsertFlags; da
instance insertColumns_da : DA E (insertColumns) := by unfold insertColumns; da
instance valuesRow_da : DA E (valuesRow) := by unfold valuesRow; da
instance setPair_da : DA E (setPair) := by unfold setPair; da
instance conflictTarget_da : DA E (conflictTarget) := by unfold conflictTarget; da
instance assignment_da : DA E (assignment) := by unfold assignment; da
instance conflictAction_da : DA E (conflictAction) := by unfold conflictAction; da
instance insertOn_da : DA E (insertOn) := by unfold insertOn; da
instance parseInsertReplace_da : DA E (parseInsertReplace) := by unfold parseInsertReplace; da
instance tableToTable_da : DA E (tableToTable) := by unfold tableToTable; da
instance parseRename_da : DA E (parseRename) := by unfold parseRename; da
instance parseTruncate_da : DA E (parseTruncate) := by unfold parseTruncate; da
instance ifExists_da : DA E (ifExists) := by unfold ifExists; da
instance dropTable_da (d : Span) (tmp : Option Span) : DA E (dropTable d tmp) := by
  constructor
  unfold dropTable
  refine .bind DA.h fun _ => .bind DA.h fun _ => .bind DA.h fun _ => D2.isPg (fun _ => DA.h) fun hd => ?_
  have h := skw_no fun t (ht : AlikeOpt E.o E.o' t) => ht.words hd .CASCADE (by decide)
  exact ⟨.bind h.1 fun _ => DA.h, .bind h.2 fun _ => DA.h⟩
instance dropIndex_da (d : Span) : DA E (dropIndex d) := by
  constructor
  unfold dropIndex
  refine .bind DA.h fun _ => .bind DA.h fun _ => .bind DA.h fun _ => .bind DA.h fun _ => .bind (DA.h (p := optMap _ _)) fun on => ?_
  refine D2.isMaria2 fun b b' h => D2.isPg2 fun c c' h' => ?_
  exact .bind (.when2 (h.imp id fun h => by rw [h]) (says_spanErr (by decide)) inferInstance) fun _ => .bind (.when2 (h'.imp id fun h => by rw [h]) (says_spanErr (by decide)) inferInstance) fun _ => DA.h
instance dropView_da (d : Span) (tmp : Option Span) : DA E (dropView d tmp) := by unfold dropView; da
instance dropNamed_da (k : Keyword) (name : Prog Ast) [DA E name] : DA E (dropNamed k name) := by unfold dropNamed; da
instance parseDrop_da : DA E (parseDrop) := by unfold parseDrop; da
instance dataType_da : DA E (dataType) := by unfold dataType; da
instance indexType_da : DA E (indexType) := by unfold indexType; da
instance indexOption_da : DA E (indexOption) := by unfold indexOption; da
instance indexSize_da : DA E (indexSize) := by unfold indexSize; da
instance indexCol_da : DA E (indexCol) := by unfold indexCol; da
instance indexCols_da : DA E (indexCols) := by unfold indexCols; da
instance parseCols_da : DA E (parseCols) := by unfold parseCols; da
instance ifNotExists_da : DA E (ifNotExists) := by unfold ifNotExists; da
instance optName_da : DA E (optName) := by unfold optName; da
instance constraintOpt_da : DA E (constraintOpt) := by unfold constraintOpt; da
instance fkOnType_da (on : Span) : DA E (fkOnType on) := by unfold fkOnType; da
instance fkOnAction_da : DA E (fkOnAction) := by unfold fkOnAction; da
instance foreignKeyOn_da : DA E (foreignKeyOn) := by unfold foreignKeyOn; da
instance addForeignKey_da (add : Span) (con : Option (Span × Option Ast)) : DA E (addForeignKey add con) := by unfold addForeignKey; da
instance specialIndex_da (k : Keyword) : DA E (specialIndex k) := by unfold specialIndex; da
instance addIndexType_da : DA E (addIndexType) := by unfold addIndexType; da
instance addIndex_da (add : Span) (con : Option (Span × Option Ast)) : DA E (addIndex add con) := by unfold addIndex; da
instance addColumnIfNotExists_da : DA E (addColumnIfNotExists) := by unfold addColumnIfNotExists; da
instance addColumn_da (add : Span) : DA E (addColumn add) := by unfold addColumn; da
instance addAlter_da : DA E (addAlter) := by unfold addAlter; da
instance alterModify_da : DA E (alterModify) := by unfold alterModify; da
instance alterColumnSet_da : DA E (alterColumnSet) := by unfold alterColumnSet; da
instance alterColumnDrop_da : DA E (alterColumnDrop) := by unfold alterColumnDrop; da
instance alterColumn_da : DA E (alterColumn) := by unfold alterColumn; da
instance alterSpecification_da : DA E (alterSpecification) := by unfold alterSpecification; da
instance alterTable_da (a : Span) (online ignore : Option Span) : DA E (alterTable a online ignore) := by unfold alterTable; da
instance parseAlter_da : DA E (parseAlter) := by unfold parseAlter; da
instance constraintOnDelete_da : DA E (constraintOnDelete) := by unfold constraintOnDelete; da
instance constraintDefinition_da : DA E (constraintDefinition) := by unfold constraintDefinition; da
instance createDefinition_da : DA E (createDefinition) := by unfold createDefinition; da
instance createView_da (c : Span) (opts : List Ast) : DA E (createView c opts) := by unfold createView; da
instance paramDirection_da : DA E (paramDirection) := by unfold paramDirection; da
instance functionParam_da : DA E (functionParam) := by unfold functionParam; da

instance functionCharacteristic_da : DA E (functionCharacteristic) := by unfold functionCharacteristic; da
instance statementReq_da : DA E (statementReq) := by unfold statementReq; da
instance parenItems_da {α : Type} (item : Prog α) (m : String) [DA E item] : DA E (parenItems item m) := by unfold parenItems; da
theorem functionBody_same (h : ¬ Differ E.o E.o') : DA E (functionBody) := by
  constructor
  unfold functionBody
  exact D2.isPg (fun _ => (by da : DA E _).h) fun hd => absurd hd h
instance createFunction_da (c : Span) (opts : List Ast) : DA E (createFunction c opts) := by
  by_cases h : Differ E.o E.o'
  · exact ⟨Errs.leftBind h (errs_ckw fun t ht => ht.words h .FUNCTION (by decide))⟩
  · have := functionBody_same h
    constructor
    unfold createFunction
    refine .bind DA.h fun _ => .bind DA.h fun _ => .bind DA.h fun _ => .bind DA.h fun _ => .bind DA.h fun _ => .bind DA.h fun _ => .bind DA.h fun _ => .bind DA.h fun _ =>
      .bind DA.h fun _ => .bind DA.h fun _ => D2.isMaria (fun _ => DA.h) fun hd => absurd hd h
instance createTrigger_da (c : Span) (opts : List Ast) : DA E (createTrigger c opts) := by unfold createTrigger; da
instance enumValues_da : DA E (enumValues) := by unfold enumValues; da
instance createType_da (c : Span) (opts : List Ast) : DA E (createType c opts) := by unfold createType; da
instance createIndexCol_da : DA E (createIndexCol) := by unfold createIndexCol; da
instance usingGist_da : DA E (usingGist) := by unfold usingGist; da
instance indexWhere_da : DA E (indexWhere) := by
  unfold indexWhere
  refine .bind inferInstance fun w => ?_
  unfold optMap
  da
instance createIndex_da (c : Span) (opts : List Ast) : DA E (createIndex c opts) := by unfold createIndex; da
instance tableIfNotExists_da : DA E (tableIfNotExists) := by unfold tableIfNotExists; da
instance tableName_da : DA E (tableName) := by unfold tableName; da
instance createDefinitions_da : DA E (createDefinitions) := by unfold createDefinitions; da
instance optionValue_da (k : Keyword) (value : Prog Ast) [DA E value] : DA E (optionValue k value) := by unfold optionValue; da
instance tableOption_da : DA E (tableOption) := by unfold tableOption; da
instance accMany_da (item : Prog (Option Ast)) [DA E item] : DA E (accMany item) := by unfold accMany; da
instance createTable_da (c : Span) (opts : List Ast) : DA E (createTable c opts) := by unfold createTable; da
instance createOption_da : DA E (createOption) := by unfold createOption; da
instance toStmt_da (p : Prog Ast) [DA E p] : DA E (toStmt p) := by unfold toStmt; da
instance parseCreate_da : DA E (parseCreate) := by unfold parseCreate; da
instance parseSet_da : DA E (parseSet) := by unfold parseSet; da
instance skipSemis_da : DA E (skipSemis) := by unfold skipSemis; da
instance stmtListInner_da : DA E (stmtListInner) := by unfold stmtListInner; da
instance stmtList_da : DA E (stmtList) := by unfold stmtList; da
instance stmtListReq_da : DA E (stmtListReq) := by unfold stmtListReq; da
instance exceptionWhens_da : DA E (exceptionWhens) := by unfold exceptionWhens; da
instance parseBlock_da : DA E (parseBlock) := by unfold parseBlock; da
instance parseDo_da : DA E (parseDo) := by unfold parseDo; da
instance ifCondition_da (e : Option Span) : DA E (ifCondition e) := by unfold ifCondition; da
instance elseStmts_da : DA E (elseStmts) := by unfold elseStmts; da
instance ifBody_da : DA E (ifBody) := by unfold ifBody; da
instance parseIf_da : DA E (parseIf) := by unfold parseIf; da
instance parseReturn_da : DA E (parseReturn) := by unfold parseReturn; da
instance signalSet_da : DA E (signalSet) := by unfold signalSet; da
instance parseSignal_da : DA E (parseSignal) := by unfold parseSignal; da
instance whenStatement_da : DA E (whenStatement) := by unfold whenStatement; da
instance caseStatementBody_da : DA E (caseStatementBody) := by unfold caseStatementBody; da
instance parseCase_da : DA E (parseCase) := by unfold parseCase; da
instance copyColumns_da : DA E (copyColumns) := by unfold copyColumns; da
instance parseCopy_da : DA E (parseCopy) := by unfold parseCopy; da
instance compoundBottom_da : DA E (compoundBottom) := by unfold compoundBottom; da
instance unionType_da : DA E (unionType) := by unfold unionType; da
instance unionPart_da : DA E (unionPart) := by unfold unionPart; da
instance compoundQuery_da : DA E (compoundQuery) := by unfold compoundQuery; da
instance withCheck_da (m : String) (v : SAst) : DA E (withCheck m v) := by unfold withCheck; da
instance withBlock_da : DA E (withBlock) := by unfold withBlock; da
instance parseWith_da : DA E (parseWith) := by unfold parseWith; da
instance stmt_da (p : Prog Ast) [DA E p] : DA E (stmt p) := by unfold stmt; da
instance ostmt_da (p : Prog SAst) [DA E p] : DA E (ostmt p) := by unfold ostmt; da
instance beginStmt_da : DA E (beginStmt) := by unfold beginStmt; da
instance stmtDispatch_da (t : Token) (p : Bool) : DA E (stmtDispatch t p) := by unfold stmtDispatch; da
instance statementBody_da : DA E (statementBody) := by unfold statementBody; da
instance body_da {α : Type} (f : Fn α) : DA E (body f) := by cases f <;> (unfold body; da)
instance skipDelims_da : DA E (skipDelims) := by unfold skipDelims; da
instance skipToDelim_da : DA E (skipToDelim) := by unfold skipToDelim; da
instance setDelimiter_da : DA E (setDelimiter) := by unfold setDelimiter; da
instance topStatement_da : DA E (topStatement) := by unfold topStatement; da
instance afterDelim_da (acc : List SAst) (stdin : Bool) : DA E (afterDelim acc stdin) := by unfold afterDelim; da
instance finishStatement_da (acc : List SAst) (r : Option SAst) : DA E (finishStatement acc r) := by unfold finishStatement; da
instance statementsStep_da (acc : List SAst) : DA E (statementsStep acc) := by unfold statementsStep; da
instance statements_da : DA E (statements) := by unfold statements; da
instance singleStatement_da : DA E (singleStatement) := by unfold singleStatement; da

end SqlParse
