import Verif.Proofs.SafeAlter
import Verif.Model.Create
/-! `SafeT` for create.rs. -/
namespace SqlParse
variable {C : Ctx} {P : Token → Prop}

theorem noName_good (hE : C.E) : good C noName := by
  have h1 := ident_good (v := []) (zeroSpan_good hE) (.inl hE) (fun _ h => absurd rfl h)
  unfold noName
  gd

theorem BInv.permit {s : St} (h : BInv s) (b : Bool) : BInv { s with permit := b } := ⟨h.lex, h.tok, h.pos, h.peek⟩
theorem Inv.permit {s : St} (h : Inv C s) (b : Bool) : Inv C { s with permit := b } :=
  ⟨h.base.permit b, h.src, h.isrc, h.opts, h.chk, h.lo, h.n0, h.arg, h.pw, h.mark, h.says⟩

/-- A block that sets `permit_compound_statements` and puts it back. -/
theorem permitBlock_safe {α β : Type} [HasGood α] {p : Prog α} {f : α → Prog β} {Q : β → Prop} (hp : Safe C p (good C))
    (hf : ∀ a, good C a → Safe C (f a) Q) (ht : TrigTok C) :
    SafeT P C (Prog.op .permit >>= fun old => Prog.op (.setPermit true) >>= fun _ => p >>= fun a =>
      Prog.op (.setPermit old) >>= fun _ => f a) Q := by
  intro R n h1 h2 s hs _
  have h := hp R n h1 h2 _ (hs.permit true) trivial
  have hg := runWith_good h1 n p _ (hs.permit true).base
  show Post C s Q (runWith R n (.bind p fun a => Prog.op (.setPermit s.permit) >>= fun _ => f a) { s with permit := true })
  unfold runWith
  revert h hg
  cases runWith R n p { s with permit := true } with
  | ok a s1 =>
    intro h hg
    show Post C s Q (runWith R n (f a) { s1 with permit := s.permit })
    refine Post.cond (runWith_good h1 n (f a) _ (hg.1.permit _)) (hg.1.permit _) (hg.2.src.trans hs.src) ?_
    intro hfut
    obtain ⟨a1, a2, a3, a4⟩ := h ⟨hfut.err, hfut.hi, hfut.arg, hfut.say⟩
    exact (hf a a2 R n h1 h2 _ (a1.permit _) trivial).andThen a3 (.inl rfl)
  | err s1 =>
    intro h _ hfut
    obtain ⟨a1, a2, a3, a4⟩ := h hfut
    refine ⟨a1, a2, a3, .inr ⟨a2, ?_, ht⟩⟩
    rcases a4 with a4 | a4
    · exact a4
    · exact a4.2.1
  | panic m => intro h _; exact h
  | oof => intro _ _; trivial

theorem skw_pos {R : ∀ α, Fn α → St → Out α} {n : Nat} {k : Keyword} (h1 : CallsGood R) {s s' : St} (hs : BInv s) {a : Span}
    (h : runWith R n (skw k) s = .ok (some a) s') : a.start ≤ s'.span.start := by
  change runWith R n (match s.token with
    | .ident v k' => if k' = k then (capsWarn v s.span >>= fun _ => consume >>= fun s => pure (some s)) else pure none
    | _ => pure none) s = .ok (some a) s' at h
  split at h
  · split at h
    · next v k' _ _ =>
      have hg := runWith_good h1 n (capsWarn v s.span) s hs
      obtain ⟨u, s1, e1, e2⟩ := bind_run h
      rw [e1] at hg
      obtain ⟨b, s2, e3, e4⟩ := bind_run e2
      obtain ⟨rfl, g⟩ := consume_pos h1 hg.1 e3
      cases e4
      exact g
    · cases h
  · cases h

theorem constraintOnDelete_safe : SafeT P C constraintOnDelete (good C) := by unfold constraintOnDelete; walk
theorem constraintDefinition_safe : SafeT P C constraintDefinition (good C) := by unfold constraintDefinition; walk
theorem createDefinition_safe : SafeT P C createDefinition (good C) := by unfold createDefinition; walk
theorem createView_safe {c : Span} {opts : List Ast} (hc : good C c) (hopts : good C opts) : SafeT P C (createView c opts) (good C) := by unfold createView; walk
theorem paramDirection_safe : SafeT P C paramDirection (good C) := by unfold paramDirection; walk
theorem functionParam_safe : SafeT P C functionParam (good C) := by unfold functionParam; walk
theorem functionBody_safe : SafeT P C functionBody (good C) := by unfold functionBody; walk
theorem functionCharacteristic_safe : SafeT P C functionCharacteristic (good C) := by unfold functionCharacteristic; walk
theorem statementReq_safe : SafeT P C statementReq (good C) := by unfold statementReq; walk
theorem optIf_safe' {β : Type} [HasGood β] {c : Bool} {p : Prog β} (h : c = true → SafeT P C p (good C)) :
    SafeT P C (optIf c p) (fun o => good C o ∧ (o.isSome = true ↔ c = true)) := by
  unfold optIf
  split
  · next hc => exact bind'_safe (h hc) (fun b hb => ret_safe ⟨hb, by simp [hc]⟩)
  · next hc => exact ret_safe ⟨trivial, by simp [hc]⟩
theorem createFunction_safe {c : Span} {opts : List Ast} (hc : good C c) (hopts : good C opts) : SafeT P C (createFunction c opts) (good C) := by 
  unfold createFunction
  refine bind_good ckw_safe (fun _ _ => bind_good ifNotExists_safe (fun _ _ => bind_good ident_safe (fun _ _ =>
    bind_good ctk_safe (fun _ _ => bind_good (parenItems_safe functionParam_safe) (fun _ _ => bind_good ctk_safe (fun _ _ =>
    bind_good ckw_safe (fun _ _ => bind_good parseDataType_safe (fun _ _ => bind_good functionBody_safe (fun _ _ =>
    bind_good (manyOpt_safe functionCharacteristic_safe) (fun _ _ => isMaria_bind (fun m hm =>
    bind_safe (optIf_safe' (fun _ => statementReq_safe)) (fun r hr => ?_))))))))))))
  obtain ⟨h1, h2⟩ := hr
  rw [hm] at h2
  exact pure_safe (by gd)
theorem createTrigger_safe {c : Span} {opts : List Ast} (hc : good C c) (hopts : good C opts) : SafeT P C (createTrigger c opts) (good C) := by 
  unfold createTrigger
  refine bind_safe ckw_safe' (fun _ hk => ?_)
  obtain ⟨hg, v', sp', ht⟩ := hk
  have hT : TrigTok C := ⟨v', sp', ht.isToken⟩
  refine (bind_good ifNotExists_safe (fun _ _ => bind_good ident_safe (fun _ _ =>
    kwReq_bind (by decide +kernel) (fun _ _ =>
    kwReq_bind (by decide +kernel) (fun _ _ =>
    bind_good ckw_safe (fun _ _ => bind_good ident_safe (fun _ _ => bind_good ckws_safe (fun _ _ =>
    permitBlock_safe statementReq_safe (fun _ _ => pure_safe (by gd)) hT))))))))
theorem enumValues_safe : SafeT P C enumValues (good C) := by unfold enumValues; walk
theorem createType_safe {c : Span} {opts : List Ast} (hc : good C c) (hopts : good C opts) : SafeT P C (createType c opts) (good C) := by unfold createType; walk
theorem createIndexCol_safe : SafeT P C createIndexCol (good C) := by 
  unfold createIndexCol
  refine bind_good ident_safe (fun i hi => curT_bind (fun t _ => when_bind' (fun _ => ?_) (pure_safe hi)))
  exact bind_good consume_safe (fun r hr => isPg_bind (fun pg _ => (when_safeR (R := True) (fun _ =>
    (err_safe hr (by gd)).imp (fun _ _ => trivial))).imp (fun _ _ => trivial)))
theorem usingGist_safe : SafeT P C usingGist (good C) := by unfold usingGist; walk
theorem indexWhere_bind {β : Type} {f : Option (Span × Ast) → Prog β} {Q : β → Prop}
    (hf : ∀ r, good C r → (r.isSome = true → C.E ∨ C.opts.dialect ≠ .mariaDB) → Safe C (f r) Q) :
    SafeT P C (indexWhere >>= f) Q := by
  refine bind_safe (Q1 := fun r => good C r ∧ (r.isSome = true → C.E ∨ C.opts.dialect ≠ .mariaDB)) ?_ (fun r h => hf r h.1 h.2)
  unfold indexWhere
  refine bind_good skw_safe (fun w hw => ?_)
  unfold optMap
  cases w with
  | none => exact ret_safe ⟨trivial, by simp⟩
  | some w =>
    refine bind_safe (Q1 := fun r : Span × Ast => good C r ∧ (C.E ∨ C.opts.dialect ≠ .mariaDB)) ?_
      (fun r h => ret_safe ⟨h.1, fun _ => h.2⟩)
    have hw : good C w := hw
    walk
    next m hm h => exact ⟨by gd, by cases m <;> simp_all⟩
theorem createIndex_safe {c : Span} {opts : List Ast} (hc : good C c) (hopts : good C opts) : SafeT P C (createIndex c opts) (good C) := by unfold createIndex; walk
theorem tableIfNotExists_safe : SafeT P C tableIfNotExists (good C) := by 
  refine bind_from (g := fun o => match o with | some a => a.start | none => 0) skw_safe ?_ ?_
  · intro R n h1 s hs a s' h
    cases a with
    | none => exact Nat.zero_le _
    | some a => exact skw_pos h1 hs h
  · intro o ho
    cases o with
    | none => exact fun R n h1 h2 s hs _ => ret_safe (P := fun _ => True) trivial R n h1 h2 s hs trivial
    | some a =>
      intro R n h1 h2 s hs hm
      exact SafeFrom.bind (fun R n h1 h2 s hs hm => spanTo_from (C := C) (m := a.start) ckws_safe (ckws2_pos .NOT .EXISTS)
        (Nat.le_refl _) (GoodSpan.lo ho) (GoodSpan.b1 ho) R n h1 h2 s hs hm) (fun b hb => ret_safe (a := some b) hb) R n h1 h2 s hs hm
theorem tableName_safe : SafeT P C tableName (AccPost C) := by 
  unfold tableName; walk
  · next h => exact ⟨⟨trivial, noName_good (h rfl)⟩, fun _ => h rfl⟩
  · next h1 _ _ _ h => exact ⟨⟨h1, noName_good (h rfl)⟩, fun _ => h rfl⟩
  · next h1 _ _ _ h2 _ => exact ⟨⟨h1, h2⟩, by simp⟩
theorem createDefinitions_safe : SafeT P C createDefinitions (good C) := by unfold createDefinitions; walk
theorem optionValue_safe {k : Keyword} (hw : k.isWord = true := by first | rfl | assumption) {v : Prog Ast} (hv : Safe C v (good C)) : SafeT P C (optionValue k v) (good C) := by
  unfold optionValue; walk
theorem tableOption_safe : SafeT P C tableOption (good C) := by unfold tableOption; walk
theorem accMany_safe {p : Prog (Option Ast)} (hp : Safe C p (good C)) : SafeT P C (accMany p) (AccPost C) := by
  unfold accMany; walk
theorem createTable_safe {c : Span} {opts : List Ast} (hc : good C c) (hopts : good C opts) : SafeT P C (createTable c opts) (good C) := by unfold createTable; walk
theorem createOption_safe : SafeT P C createOption (good C) := by unfold createOption; walk
theorem toStmt_safe {p : Prog Ast} (hp : SafeT P C p (good C)) : SafeT P C (toStmt p) (good C) := by unfold toStmt; walk
theorem parseCreate_safe : SafeT P C parseCreate (good C) := by unfold parseCreate; walk

end SqlParse
