import Verif.Proofs.Sim
import Verif.Spec.Ast
/-! Which kind of node a parsing function returns, by looking at the places where it returns. -/
namespace SqlParse
variable {α β σ : Type}

/-- The kind of the node is in the list. -/
def KindIn (ks : List Kind) (a : Ast) : Prop := ∃ k ∈ ks, a.kind? = some k

def queryKinds : List Kind := [.Select, .Union, .Statement_Invalid]

/-- Calls of `parse_compound_query` return queries. -/
def CallsQuery (R : ∀ α, Fn α → St → Out α) : Prop := ∀ s b s', R _ .compoundQuery s = .ok b s' →
  KindIn queryKinds b ∧ (s.token.isKw .SELECT = true → KindIn [.Select, .Union] b)

/-- A successful run of `p` gives a result satisfying `Q`. -/
def Ends (p : Prog α) (Q : α → Prop) : Prop :=
  ∀ (R : ∀ α, Fn α → St → Out α) n, CallsQuery R → ∀ s a s', runWith R n p s = .ok a s' → Q a

theorem Ends.bind {p : Prog α} {f : α → Prog β} {Q : β → Prop} (h : ∀ a, Ends (f a) Q) : Ends (p >>= f) Q := by
  intro R n hR s b s' hr
  change runWith R n (.bind p f) s = _ at hr
  unfold runWith at hr
  split at hr
  · exact h _ R n hR _ _ _ hr
  all_goals cases hr

theorem Ends.bind' {p : Prog α} {f : α → Prog β} {Q1 : α → Prop} {Q : β → Prop} (h1 : Ends p Q1) (h : ∀ a, Q1 a → Ends (f a) Q) :
    Ends (p >>= f) Q := by
  intro R n hR s b s' hr
  change runWith R n (.bind p f) s = _ at hr
  unfold runWith at hr
  split at hr
  · next a s1 he => exact h _ (h1 R n hR _ _ _ he) R n hR _ _ _ hr
  all_goals cases hr

theorem Ends.ret {a : α} {Q : α → Prop} (h : Q a) : Ends (.ret a) Q := by
  intro R n _ s b s' hr
  simp [runWith] at hr
  rw [← hr.1]; exact h
theorem Ends.pure {a : α} {Q : α → Prop} (h : Q a) : Ends (pure a : Prog α) Q := Ends.ret h
theorem Ends.throw {Q : α → Prop} : Ends (.throw : Prog α) Q := by
  intro R n _ s b s' hr; simp [runWith] at hr
theorem Ends.ite {c : Prop} [Decidable c] {p q : Prog α} {Q : α → Prop} (h1 : Ends p Q) (h2 : Ends q Q) :
    Ends (if c then p else q) Q := by split <;> assumption
theorem Ends.errHere {m : String} {Q : α → Prop} : Ends (errHere m) Q := .bind (fun _ => .bind (fun _ => .throw))
theorem Ends.expectedFailure {m : String} {Q : α → Prop} : Ends (expectedFailure m) Q := .bind (fun _ => .throw)
theorem Ends.compoundQuery : Ends (.call .compoundQuery) (KindIn queryKinds) := by
  intro R n hR s b s' hr
  exact (hR s b s' hr).1
theorem Ends.imp {p : Prog α} {Q Q' : α → Prop} (h : Ends p Q) (hq : ∀ a, Q a → Q' a) : Ends p Q' :=
  fun R n hR s a s' hr => hq a (h R n hR s a s' hr)
theorem Ends.recovered {m : String} {e : Token → Bool} {p : Prog α} {Q : α → Prop} (h : Ends p Q) :
    Ends (recovered m e p) (fun o => ∀ a, o = some a → Q a) := by
  refine Ends.bind' (Q1 := fun o => ∀ a, o = some a → Q a) ?_ (fun o ho => .bind (fun _ => .pure ho))
  intro R n hR s b s' hr
  unfold runWith at hr
  split at hr
  · next a s1 he => cases hr; rintro _ ⟨⟩; exact h R n hR _ _ _ he
  · cases hr; simp
  all_goals cases hr

macro "ends" : tactic => `(tactic| repeat' (first
  | exact Ends.errHere
  | exact Ends.expectedFailure
  | exact Ends.throw
  | refine Ends.pure ⟨_, ?_, rfl⟩
  | refine Ends.bind (fun _ => ?_)
  | refine Ends.ite ?_ ?_
  | decide
  | split))

def createKinds : List Kind := [.CreateTable, .CreateView, .CreateFunction, .CreateTrigger, .CreateIndex, .CreateTypeEnum]
def dropKinds : List Kind := [.DropTable, .DropDatabase, .DropEvent, .DropFunction, .DropIndex, .DropProcedure,
  .DropServer, .DropTrigger, .DropView]

theorem dropTable_ends {d tmp} : Ends (dropTable d tmp) (KindIn dropKinds) := by unfold dropTable; ends
theorem dropIndex_ends {d} : Ends (dropIndex d) (KindIn dropKinds) := by unfold dropIndex; ends
theorem dropView_ends {d tmp} : Ends (dropView d tmp) (KindIn dropKinds) := by unfold dropView; ends
theorem parseDrop_ends : Ends parseDrop (KindIn dropKinds) := by
  unfold parseDrop; ends
theorem parseSelect_ends : Ends parseSelect (KindIn queryKinds) := by unfold parseSelect; ends
theorem compoundBottom_ends : Ends compoundBottom (KindIn queryKinds) := by
  unfold compoundBottom
  refine .bind (fun t => .ite (.bind (fun _ => .bind' (Ends.recovered Ends.compoundQuery) (fun o ho => .bind (fun _ => ?_))))
    (.ite parseSelect_ends .expectedFailure))
  cases o with
  | none => exact .pure ⟨_, by decide, rfl⟩
  | some a => exact .pure (ho a rfl)
theorem compoundQuery_ends : Ends compoundQuery (KindIn queryKinds) := by
  unfold compoundQuery
  refine .bind' compoundBottom_ends (fun q hq => .bind (fun t => .ite (.pure hq) ?_))
  ends
theorem parseDelete_ends : Ends parseDelete (KindIn [.Delete]) := by unfold parseDelete; ends
theorem parseInsertReplace_ends : Ends parseInsertReplace (KindIn [.InsertReplace]) := by unfold parseInsertReplace; ends
theorem parseUpdate_ends : Ends parseUpdate (KindIn [.Update]) := by unfold parseUpdate; ends
theorem parseSet_ends : Ends parseSet (KindIn [.Set]) := by unfold parseSet; ends
theorem parseSignal_ends : Ends parseSignal (KindIn [.Signal]) := by unfold parseSignal; ends
theorem parseReturn_ends : Ends parseReturn (KindIn [.Return]) := by unfold parseReturn; ends
theorem parseCopy_ends : Ends parseCopy (KindIn [.Copy]) := by unfold parseCopy; ends
theorem parseTruncate_ends : Ends parseTruncate (KindIn [.TruncateTable]) := by unfold parseTruncate; ends
theorem parseRename_ends : Ends parseRename (KindIn [.RenameTable]) := by unfold parseRename; ends
theorem alterTable_ends {a b c} : Ends (alterTable a b c) (KindIn [.AlterTable]) := by unfold alterTable; ends
theorem parseAlter_ends : Ends parseAlter (KindIn [.AlterTable]) := by
  unfold parseAlter; ends

abbrev SKind (ks : List Kind) (a : SAst) : Prop := KindIn ks a.ast

theorem createIndex_ends {a b} : Ends (createIndex a b) (KindIn createKinds) := by unfold createIndex; ends
theorem createTable_ends {a b} : Ends (createTable a b) (KindIn createKinds) := by unfold createTable; ends
theorem createView_ends {a b} : Ends (createView a b) (KindIn createKinds) := by unfold createView; ends
theorem createType_ends {a b} : Ends (createType a b) (KindIn createKinds) := by unfold createType; ends
theorem createFunction_ends {a b} : Ends (createFunction a b) (SKind createKinds) := by unfold createFunction; ends
theorem createTrigger_ends {a b} : Ends (createTrigger a b) (SKind createKinds) := by unfold createTrigger; ends
theorem toStmt_ends {p : Prog Ast} {ks} (h : Ends p (KindIn ks)) : Ends (toStmt p) (SKind ks) := .bind' h (fun _ h => .pure h)
theorem parseCreate_ends : Ends parseCreate (SKind createKinds) := by
  unfold parseCreate
  refine .bind (fun _ => .bind (fun _ => .bind (fun t => .ite (toStmt_ends createIndex_ends) (.ite (toStmt_ends createTable_ends)
    (.ite (toStmt_ends createView_ends) (.ite createFunction_ends (.ite createTrigger_ends (.ite (toStmt_ends createType_ends)
      .expectedFailure))))))))
theorem parseIf_ends : Ends parseIf (SKind [.If]) := by unfold parseIf; ends
theorem parseCase_ends : Ends parseCase (SKind [.CaseStatement]) := by unfold parseCase; ends
theorem parseDo_ends : Ends parseDo (SKind [.Statement_Do]) := by unfold parseDo; ends
theorem parseWith_ends : Ends parseWith (SKind [.WithQuery]) := by unfold parseWith; ends

/-- A program that reads the current token first. -/
theorem curT_run {R : ∀ α, Fn α → St → Out α} {n : Nat} {f : Token → Prog β} {s : St} :
    runWith R n (curT >>= f) s = runWith R n (f s.token) s := rfl

theorem stmt_ends {p : Prog Ast} {ks} (h : Ends p (KindIn ks)) : Ends (stmt p) (fun o => ∀ v, o = some v → SKind ks v) :=
  .bind' h (fun _ h => .pure (by rintro _ ⟨⟩; exact h))
theorem ostmt_ends {p : Prog SAst} {ks} (h : Ends p (SKind ks)) : Ends (ostmt p) (fun o => ∀ v, o = some v → SKind ks v) :=
  .bind' h (fun _ h => .pure (by rintro _ ⟨⟩; exact h))

theorem Ends.iteH {c : Prop} [Decidable c] {p q : Prog α} {Q : α → Prop} (h1 : c → Ends p Q) (h2 : ¬c → Ends q Q) :
    Ends (if c then p else q) Q := by
  split
  · exact h1 ‹_›
  · exact h2 ‹_›

theorem isKw_iff {t : Token} {k : Keyword} (h : t.isKw k = true) : ∃ v, t = .ident v k := by
  cases t <;> simp [Token.isKw] at h
  exact ⟨_, by rw [h]⟩

def stmtPost (t : Token) (o : Option SAst) : Prop := ∀ v, o = some v → SKind (stmtKinds t) v

theorem Ends.kw {t : Token} {k : Keyword} {p : Prog (Option SAst)} {ks : List Kind} (h : t.isKw k = true)
    (hk : kwKinds.lookup k = some ks) (hp : Ends p (fun o => ∀ v, o = some v → SKind ks v)) : Ends p (stmtPost t) := by
  obtain ⟨v, rfl⟩ := isKw_iff h
  have : stmtKinds (.ident v k) = ks := by simp [stmtKinds, Token.kw, hk]
  unfold stmtPost
  rw [this]; exact hp

theorem some_ends {a : SAst} {ks} (h : SKind ks a) : Ends (pure (some a)) (fun o => ∀ v, o = some v → SKind ks v) :=
  .pure (by rintro _ ⟨⟩; exact h)

theorem beginStmt_ends : Ends beginStmt (fun o => ∀ v, o = some v → SKind [.Statement_Block, .Statement_Begin] v) := by
  unfold beginStmt
  exact .bind (fun p => .ite (.bind (fun _ => some_ends ⟨_, by decide, rfl⟩)) (.bind (fun _ => some_ends ⟨_, by decide, rfl⟩)))

theorem parseSelect_ends' : Ends parseSelect (KindIn [.Select]) := by unfold parseSelect; ends
/-- Not in parentheses. -/
theorem compoundQuery_select {R : ∀ α, Fn α → St → Out α} {n : Nat} (hR : CallsQuery R) {s s' : St} {b : Ast}
    (hs : s.token.isKw .SELECT = true) (h : runWith R n compoundQuery s = .ok b s') : KindIn [.Select, .Union] b := by
  change runWith R n (.bind compoundBottom _) s = _ at h
  unfold runWith at h
  split at h
  · next q s1 he =>
    have hq : KindIn [.Select, .Union] q := by
      change runWith R n (if s.token = .lParen then _ else _) s = _ at he
      rw [if_neg (by intro hh; rw [hh] at hs; cases hs), if_pos hs] at he
      obtain ⟨k, h1, h2⟩ := parseSelect_ends' R n hR _ _ _ he
      simp at h1
      exact ⟨k, by simp [h1], h2⟩
    revert h
    generalize hf : (fun q => _ : Ast → Prog Ast) = f
    intro h
    have : Ends (f q) (KindIn [.Select, .Union]) := by
      subst hf
      refine .bind (fun t => .ite (.pure hq) ?_)
      ends
    exact this R n hR _ _ _ h
  all_goals cases h

theorem runFn_query (n : Nat) : CallsQuery (runFn n) := by
  induction n with
  | zero => intro s b s' h; cases h
  | succ n ih =>
    intro s b s' h
    exact ⟨compoundQuery_ends _ n ih s b s' h, fun hs => compoundQuery_select ih hs h⟩

theorem stmtDispatch_ends {t : Token} {p : Bool} (ht : t.isKw .SELECT = false) : Ends (stmtDispatch t p) (stmtPost t) := by
  unfold stmtDispatch
  repeat' (first
    | (refine Ends.iteH (fun h => ?_) (fun _ => ?_))
    | exact .kw h rfl (ostmt_ends parseCreate_ends)
    | exact .kw h rfl (stmt_ends parseDrop_ends)
    | exact .kw h rfl (stmt_ends parseDelete_ends)
    | exact .kw h rfl (stmt_ends parseUpdate_ends)
    | exact .kw h rfl (stmt_ends parseSet_ends)
    | exact .kw h rfl (stmt_ends parseSignal_ends)
    | exact .kw h rfl beginStmt_ends
    | exact .kw h rfl (stmt_ends parseReturn_ends)
    | exact .kw h rfl (stmt_ends parseAlter_ends)
    | exact .kw h rfl (ostmt_ends parseIf_ends)
    | exact .kw h rfl (ostmt_ends parseCase_ends)
    | exact .kw h rfl (stmt_ends parseCopy_ends)
    | exact .kw h rfl (ostmt_ends parseDo_ends)
    | exact .kw h rfl (stmt_ends parseTruncate_ends)
    | exact .kw h rfl (stmt_ends parseRename_ends)
    | exact .kw h rfl (ostmt_ends parseWith_ends)
    | exact .kw h rfl (.bind (fun _ => some_ends ⟨_, by decide, rfl⟩)))
  · simp [ht] at h
    subst h
    exact (stmt_ends Ends.compoundQuery).imp (fun o ho => ho)
  · simp only [Bool.or_eq_true] at h
    rcases h with h | h
    · exact .kw h rfl (stmt_ends parseInsertReplace_ends)
    · exact .kw h rfl (stmt_ends parseInsertReplace_ends)
  · simp only [Bool.and_eq_true] at h
    exact .kw h.1 rfl (.bind (fun _ => some_ends ⟨_, by decide, rfl⟩))
  · exact .pure (by simp [stmtPost])

/-- The kind of a statement fits its first token. -/
theorem statementBody_kind {R : ∀ α, Fn α → St → Out α} {n : Nat} (hR : CallsQuery R) {s s' : St} {v : SAst}
    (h : runWith R n statementBody s = .ok (some v) s') : SKind (stmtKinds s.token) v := by
  change runWith R n (stmtDispatch s.token s.permit) s = _ at h
  cases ht : s.token.isKw .SELECT with
  | false => exact stmtDispatch_ends ht R n hR _ _ _ h v rfl
  | true =>
    obtain ⟨w, hw⟩ := isKw_iff ht
    rw [hw] at h
    change runWith R n (.bind (.call .compoundQuery) _) s = _ at h
    unfold runWith at h
    split at h
    · next b s1 he =>
      cases h
      have h2 : stmtKinds s.token = [.Select, .Union] := by rw [hw]; rfl
      rw [h2]
      exact (hR _ _ _ he).2 ht
    all_goals cases h

end SqlParse
