import Verif.Proofs.ParCreate
/-! Corresponding runs of statement.rs and with_query.rs. -/
namespace SqlParse
variable {E : Par}

theorem parseSet_par : PR E (vr E) parseSet parseSet := by unfold parseSet; pw
theorem skipSemis_par : PR E (vr E) skipSemis skipSemis := by unfold skipSemis; pw

theorem readsStdin_par {a b : SAst} (h : vr E a b) : b.readsStdin = a.readsStdin := by
  have h : ARel E a.ast b.ast := h
  unfold SAst.readsStdin
  rw [vr_kind h]
theorem readsStdin_ok {a b : SAst} (h : vr E a b) (hr : a.readsStdin = true) : E.ok .COPY :=
  copy_ok (E := E) (a := a.ast) (b := b.ast) h (by simpa [SAst.readsStdin] using hr)

theorem stmtListInner_par : PR E (vr E) stmtListInner stmtListInner := by
  unfold stmtListInner
  refine loop_par (fun acc acc' ha => ?_) nil_vr
  refine bind_par skipSemis_par (fun _ _ _ => bind_par (tryP_par callStatement_par) (fun r r' hr => ?_))
  cases r with
  | none => cases r' with
    | none => dsimp only; pw
    | some => cases hr
  | some o => cases r' with
    | none => cases hr
    | some o' =>
      cases o with
      | none => cases o' with
        | none => dsimp only; pw
        | some => cases hr
      | some v => cases o' with
        | none => cases hr
        | some v' =>
          have hv : vr E v v' := hr
          refine bind_par curT_par (fun t t' ht => ?_)
          refine ite_par (by rw [ne_eq, ne_eq, tok_eq ht (c := .semiColon) rfl]) (fun _ _ => ?_) (fun _ _ => ?_)
          · pw
          refine ite_par (by rw [readsStdin_par hv]) (fun hc _ => ?_) (fun _ _ => ?_)
          · refine bind_par (stdin_par (readsStdin_ok hv hc)) ?_
            rintro ⟨d, sp⟩ ⟨d', sp'⟩ ⟨hd, hsp⟩
            have hd : vr E d d' := hd
            have hsp : vr E sp sp' := hsp
            pw
          · pw

theorem dl_semi : E.dl .semiColon .semiColon := ⟨fun t t' h => by rw [tok_eq h (c := .semiColon) rfl], fun _ => rfl, rfl⟩

theorem stmtList_par : PR E (vr E) stmtList stmtList := by
  unfold stmtList
  exact bind_par delim_par (fun d d' hd => bind_par (setDelim_par dl_semi) (fun _ _ _ => bind_par stmtListInner_par
    (fun _ _ hr => bind_par (setDelim_par hd) (fun _ _ _ => pure_par hr))))

theorem stmtListReq_par : PR E (vr E) stmtListReq stmtListReq := by unfold stmtListReq; pw
theorem exceptionWhens_par : PR E (vr E) exceptionWhens exceptionWhens := by unfold exceptionWhens; pw
theorem isBlockEnd_end : EndR E isBlockEnd isBlockEnd := by
  intro t t' ht; simp only [isBlockEnd, tok_isKw ht]
theorem parseBlock_par : PR E (vr E) parseBlock parseBlock := by
  unfold parseBlock
  have := @isBlockEnd_end E
  pw
theorem parseDo_par : PR E (vr E) parseDo parseDo := by unfold parseDo; pw
theorem ifCondition_par {o o' : Option Span} (h : vr E o o') : PR E (vr E) (ifCondition o) (ifCondition o') := by unfold ifCondition; pw
theorem elseStmts_par : PR E (vr E) elseStmts elseStmts := by unfold elseStmts; pw
theorem ifBody_par : PR E (vr E) ifBody ifBody := by unfold ifBody; pw
theorem parseIf_par : PR E (vr E) parseIf parseIf := by
  unfold parseIf
  have := @isKw_end E .END
  pw
theorem parseReturn_par : PR E (vr E) parseReturn parseReturn := by unfold parseReturn; pw
theorem signalSet_par : PR E (vr E) signalSet signalSet := by unfold signalSet; pw
theorem parseSignal_par : PR E (vr E) parseSignal parseSignal := by unfold parseSignal; pw
theorem whenStatement_par : PR E (vr E) whenStatement whenStatement := by unfold whenStatement; pw
theorem caseStatementBody_par : PR E (vr E) caseStatementBody caseStatementBody := by unfold caseStatementBody; pw
theorem parseCase_par : PR E (vr E) parseCase parseCase := by
  unfold parseCase
  have := @isKw_end E .END
  pw
theorem copyColumns_par : PR E (vr E) copyColumns copyColumns := by unfold copyColumns; pw
theorem parseCopy_par : PR E (vr E) parseCopy parseCopy := by
  unfold parseCopy
  refine bind_par ckw_par' ?_
  rintro c c' ⟨hc, hk⟩
  refine bind_par ident_par (fun t t' ht => bind_par ctk_par (fun _ _ _ => bind_par copyColumns_par (fun l l' hl =>
    bind_par ctk_par (fun _ _ _ => bind_par ckw_par (fun f f' hf => bind_par ckw_par (fun s s' hs => pure_par (ARel.copy hk ?_)))))))
  pv
theorem compoundBottom_par : PR E (vr E) compoundBottom compoundBottom := by
  unfold compoundBottom
  have := @isRParen_end E
  pw
theorem unionType_par : PR E (vr E) unionType unionType := by unfold unionType; pw
theorem unionPart_par : PR E (vr E) unionPart unionPart := by unfold unionPart; pw
theorem compoundQuery_par : PR E (vr E) compoundQuery compoundQuery := by
  unfold compoundQuery
  pw
  next ht => exact (tok_isKw ht _).symm
theorem withCheck_par {m : String} {v v' : SAst} (h : vr E v v') : PR E (vr E) (withCheck m v) (withCheck m v') := by
  have hk : v'.ast.kind? = v.ast.kind? := vr_kind (E := E) h
  unfold withCheck withAllowed
  rw [hk]
  pw
theorem withBlock_par : PR E (vr E) withBlock withBlock := by
  unfold withBlock
  have := @isRParen_end E
  refine bind_par ident_par (fun i i' hi => bind_par ckw_par (fun a a' ha => bind_par ctk_par (fun l l' hl =>
    bindV_par (by pw) (fun s s' hs => bind_par ctk_par (fun r r' hr => ?_)))))
  have hj : vr E s.join s'.join := by
    cases s <;> cases s' <;> first | (cases hs; done) | trivial | exact hs
  revert hj
  generalize s.join = j
  generalize s'.join = j'
  intro hj
  pw
theorem parseWith_par : PR E (vr E) parseWith parseWith := by unfold parseWith; pw
theorem stmt_par {p q : Prog Ast} (h : PR E (vr E) p q) : PR E (vr E) (stmt p) (stmt q) := by unfold stmt; pw
theorem ostmt_par {p q : Prog SAst} (h : PR E (vr E) p q) : PR E (vr E) (ostmt p) (ostmt q) := by unfold ostmt; pw
theorem beginStmt_par : PR E (vr E) beginStmt beginStmt := by unfold beginStmt; pw
theorem stmtDispatch_par {t t' : Token} {p : Bool} (ht : vr E t t') : PR E (vr E) (stmtDispatch t p) (stmtDispatch t' p) := by
  unfold stmtDispatch; pw
theorem statementBody_par : PR E (vr E) statementBody statementBody := by
  unfold statementBody
  refine bind_par curT_par (fun t t' ht => bind_par permit_par ?_)
  rintro p _ rfl
  exact stmtDispatch_par ht

theorem body_par : ∀ {α : Type} (f : Fn α), PR E (FnR E f) (body f) (body f)
  | _, .expression _ => parseExpression_par parseSelect_par parseDataType_par
  | _, .compoundQuery => compoundQuery_par
  | _, .statement => statementBody_par

theorem runFn_par : ∀ n, CallsR E (runFn n)
  | 0, _, _, _, _, _ => .oof
  | n + 1, _, f, s, t, hs => body_par f (runFn n) n (runFn_par n) s t hs

theorem run_par {α : Type} {Q : α → α → Prop} {p q : Prog α} (h : PR E Q p q) (n : Nat) {s t : St} (hs : SR E s t) :
    ORel E Q (p.run n s) (q.run n t) := h (runFn n) n (runFn_par n) s t hs

end SqlParse
