import Verif.Proofs.SoundWalk
import Verif.Spec.GrammarStmt
/-! The converse direction of the grammar: data types and queries. -/
namespace SqlParse
set_option linter.unusedSectionVars false

/-- The specification of the recursive functions. -/
def SpecFn (c : Env) : {α : Type} → Fn α → List Tk → α → List Tk → Prop
  | _, .expression inner => fun ts a r => Ex c inner ts a r
  | _, .compoundQuery => fun ts a r => Comp c ts a r
  | _, .statement => fun ts o r => match o with
    | some v => Stm c ts v r
    | none => r = ts ∧ Next (NoStmt c) ts

/-- The recursive functions satisfy their specifications, with fuel `n`. -/
class CallsS (n : Nat) : Prop where
  call : ∀ {α : Type} (f : Fn α) (c : Env) (ts : List Tk), D n c (.call f) ts (SpecFn c f ts)

section
variable {α β σ : Type} {n : Nat} [CallsS n] {c : Env} {ts r tl : List Tk} {t : Token} {sp : Span}

theorem callExpression_d {b : Bool} : D n c (.call (.expression b)) ts (Ex c b ts) := CallsS.call (.expression b) c ts
theorem callCompoundQuery_d : D n c (.call .compoundQuery) ts (Comp c ts) := CallsS.call .compoundQuery c ts
theorem expr_d : D n c expr ts (Ex c false ts) := callExpression_d

/-- ASC, DESC or nothing. -/
inductive OFlag : List Tk → OAst → List Tk → Prop where
  | asc {t : Token} {sp : Span} {r : List Tk} (h : t.isKw .ASC = true) : OFlag ((t, sp) :: r) (ond% OrderFlag_Asc [sp]) r
  | desc {t : Token} {sp : Span} {r : List Tk} (h : t.isKw .DESC = true) : OFlag ((t, sp) :: r) (ond% OrderFlag_Desc [sp]) r
  | none {r : List Tk} (h : NoKw [.ASC, .DESC] r) : OFlag r (ond% OrderFlag_None []) r

theorem orderFlag_d : D n c orderFlag ts (OFlag ts) := by
  unfold orderFlag
  dw
  all_goals leaf

theorem orderItem_d : D n c orderItem ts (Ord c ts) := by
  unfold orderItem
  dw
  dcase [OFlag]
  all_goals leaf

theorem kwExpr_d {k : Keyword} : D n c (kwExpr k) ts (OptKw k (ExK c) ts) := by
  refine optKw_d fun sp ts => ?_
  dw
  leaf

theorem groupBy_d : D n c groupBy ts (OptKw .GROUP (GroupBy c) ts) := by
  refine optKw_d fun sp ts => ?_
  dw
  all_goals leaf

theorem orderBy_d : D n c orderBy ts (OptKw .ORDER (OrderBy c) ts) := by
  refine optKw_d fun sp ts => ?_
  dw
  all_goals leaf

theorem limitClause_d : D n c limitClause ts (OptKw .LIMIT (Lim c) ts) := by
  refine optKw_d fun sp ts => ?_
  dw
  all_goals leaf

theorem lockStrength_d : D n c lockStrength ts (Strength c ts) := by
  unfold lockStrength
  dw
  all_goals leaf

theorem lockWait_d : D n c lockWait ts (Wait ts) := by
  unfold lockWait
  dw
  all_goals leaf

theorem lockOf_d : D n c lockOf ts (OptKw .OF (fun sp ts a r => ∃ l, a = (sp, l) ∧ CommaL (Idn c) ts l r) ts) := by
  refine optKw_d fun sp ts => ?_
  dw
  all_goals leaf

theorem locking_d : D n c locking ts (OptKw .FOR (LockSpec c) ts) := by
  refine optKw_d fun sp ts => ?_
  dw
  all_goals leaf

theorem selectExpr_d : D n c selectExpr ts (SelE c ts) := by
  unfold selectExpr
  dw
  all_goals leaf

theorem aliasOpt_d : D n c aliasOpt ts (Alias c ts) := by
  unfold aliasOpt
  dw
  · next h1 _ _ _ h2 _ _ _ =>
    obtain ⟨v, k, rfl, hk⟩ := isPlainWord_elim (by simpa using h2)
    refine .plain ?_ (by assumption)
    rintro rfl
    cases hk
  · next h1 h2 => exact .none h1 (by show plainWord _ = false; rw [plainWord_eq]; simpa using h2)
  · leaf

/-! ### Data types -/

theorem parseWidth_d : D n c parseWidth ts (OptWidth ts) := by
  unfold parseWidth
  dw
  all_goals leaf

theorem width_of_opt {w : Nat × Span} (h : OptWidth ts (some w) r) : Width ts w r := by cases h; assumption

theorem parseWidthReq_d : D n c parseWidthReq ts (Width ts) := by
  unfold parseWidthReq
  dw
  all_goals leaf [width_of_opt]

theorem enumSetLoop_d : D n c enumSetLoop ts (fun x r => x.1 = true ∧ CommaL Str ts x.2 r) := by
  refine d_loop (I := fun acc r => ∀ l r', CommaL Str r l r' → CommaL Str ts (acc ++ l) r') (fun _ _ h => h) ?_
  intro acc ts' hI
  dw
  · next hs l r' hl => simpa using hI _ _ (.cons hs hl)
  · next hs _ => exact ⟨rfl, hI _ _ (.one hs (by simp [Next]))⟩

theorem enumSetValues_d : D n c enumSetValues ts (StrList ts) := by
  unfold enumSetValues
  dw
  all_goals leaf

theorem num_elim {m : Nat} {x : Nat × Span} (h : Num m ts x r) : ∃ v sp, ts = (.integer v, sp) :: r ∧ x = (numberOf v, sp) ∧ numberOf v ≤ m := by
  cases h; exact ⟨_, _, rfl, rfl, by assumption⟩

theorem ty_named {v : List Char} {k : Keyword} (hm : c.noArg (.ident v k, sp)) (hd : c.opts.dialect = .postgreSQL)
    (h : ∀ k' ∈ plainTypes.map (·.1) ++ widthTypes.map (·.1) ++ otherTypes, (Token.ident v k).isKw k' = false) :
    Ty c ((.ident v k, sp) :: tl) (sp, ond% Type_Named [sp]) tl := by
  refine .named hd (lookup_noKw (t := .ident v k) rfl ?_) (lookup_noKw (t := .ident v k) rfl ?_) ?_ hm
  · exact fun k' hk => h k' (by simp only [List.mem_append]; exact .inl (.inl hk))
  · exact fun k' hk => h k' (by simp only [List.mem_append]; exact .inl (.inr hk))
  · intro hm
    have := h k (by simp only [List.mem_append]; exact .inr hm)
    simp [Token.isKw] at this

theorem typeOf_d : D n c typeOf ts (Ty c ts) := by
  refine d_expose fun t sp tl he => ?_
  subst he
  unfold typeOf
  dw
  all_goals dcase [Num]
  all_goals try lf [lookup_kw]
  refine ty_named (by assumption) (by simp_all) ?_
  simp_all [plainTypes, widthTypes, otherTypes]

theorem notNull_d : D n c notNull ts (fun a r => ∃ t s t' s', ts = (t, s) :: (t', s') :: r ∧ t.isKw .NOT = true ∧ t'.isKw .NULL = true ∧ a = ⟨s.start, s'.stop⟩) := by
  unfold notNull
  dw
  all_goals leaf

theorem parenExprOrInvalid_d : D n c parenExprOrInvalid ts (fun a r => ∃ lp ts' rp, ts = (.lParen, lp) :: ts' ∧ Ex c false ts' a ((.rParen, rp) :: r)) := by
  unfold parenExprOrInvalid
  dw
  all_goals leaf

/-- One property. -/
def Prop1 (c : Env) (noAs : Bool) (ts : List Tk) (o : Option Ast) (r : List Tk) : Prop :=
  match o with
  | some a => ∀ l r', Props c noAs r l r' → Props c noAs ts (a :: l) r'
  | none => Props c noAs ts [] r

theorem typeProperty_d {noAs : Bool} : D n c (typeProperty noAs) ts (Prop1 c noAs ts) := by
  unfold typeProperty
  dw
  all_goals simp only [Prop1]
  all_goals try intro l r' hr
  all_goals try dcase [OptK]
  all_goals try leaf [lookup_kw]
  · next h _ _ _ _ _ _ _ =>
    simp only [Bool.and_eq_true, Bool.not_eq_true'] at h
    obtain ⟨h, rfl⟩ := h
    leaf
  · refine .nil (lookup_noKw rfl ?_) ?_ ?_
    · simp_all [plainProps]
    · simp_all [otherProps, Next]
    · cases noAs <;> simp_all [Next]

theorem many_props {noAs : Bool} {l : List Ast} (h : Many (Prop1 c noAs) ts l r) : Props c noAs ts l r := by
  induction h with
  | nil h => exact h
  | cons h _ ih => exact h _ _ ih

theorem parseDataType_d {noAs : Bool} : D n c (parseDataType noAs) ts (DT c noAs ts) := by
  unfold parseDataType
  dw
  all_goals leaf [many_props]

/-! ### Queries -/

theorem joinSpan_r {a b c : Span} : joinSpan (joinSpan a b) c = joinSpan a (joinSpan b c) := joinSpan_assoc a b c

theorem hintFor_d : D n c hintFor ts (HintFor ts) := by
  unfold hintFor
  dw
  all_goals leaf

theorem hintIndexList_d : D n c hintIndexList ts (CommaL (Idn c) ts) := by
  refine d_loop (I := fun acc r => ∀ l r', CommaL (Idn c) r l r' → CommaL (Idn c) ts (acc ++ l) r') (fun _ _ h => h) ?_
  intro acc ts' hI
  dw
  · next h _ => exact hI _ _ (.one h (by simp [Next]))
  · next h _ _ l r' hl => simpa using hI _ _ (.cons h hl)

/-- One index hint. -/
def Hint1 (c : Env) (ts : List Tk) (o : Option Ast) (r : List Tk) : Prop :=
  match o with
  | some a => c.opts.dialect = .mariaDB → ∀ l r', Hints c r l r' → Hints c ts (a :: l) r'
  | none => Hints c ts [] r

theorem indexHint_d : D n c indexHint ts (Hint1 c ts) := by
  unfold indexHint
  dw
  · next h => exact .nil (noKw_of_none h rfl)
  all_goals dcase [KwN]
  all_goals simp only [Hint1]
  all_goals intro hd l r' hl
  all_goals leaf

theorem sideJoin_d {k : Keyword} : D n c (sideJoin k) ts (SideJoin k ts) := by
  unfold sideJoin
  dw
  all_goals try rw [joinSpan_assoc]
  all_goals leaf

/-- One join. -/
def Join1 (ts : List Tk) (o : Option Ast) (r : List Tk) : Prop :=
  match o with
  | some a => JoinTy ts a r
  | none => r = ts ∧ NoKw joinWords ts

theorem joinType_d : D n c joinType ts (Join1 ts) := by
  unfold joinType
  dw
  all_goals simp only [Join1]
  all_goals try leaf
  · simp_all [Next, joinWords]

theorem joinSpecification_d : D n c joinSpecification ts (JSpec c ts) := by
  unfold joinSpecification
  dw
  all_goals leaf

theorem hints_of_many {l : List Ast} (h : Many (Hint1 c) ts l r) (hm : l = [] ∨ c.opts.dialect = .mariaDB) : Hints c ts l r := by
  induction h with
  | nil h => exact h
  | cons h _ ih =>
    rcases hm with hm | hm
    · cases hm
    · exact h hm _ _ (ih (.inr hm))

theorem checkHints_d {l : List Ast} : D n c (checkHints l) ts (fun _ r => r = ts ∧ (l = [] ∨ c.opts.dialect = .mariaDB)) := by
  unfold checkHints
  refine d_isMaria (d_tail (d_whenNo ?_ ?_))
  · intro f
    dw
  · intro h
    refine d_ret ⟨rfl, ?_⟩
    cases l
    · exact .inl rfl
    · simpa using h

theorem tableReferenceInner_d : D n c tableReferenceInner ts (TRi c ts) := by
  unfold tableReferenceInner
  dw
  all_goals leaf [hints_of_many]

theorem tableReference_d : D n c tableReference ts (TR c ts) := by
  unfold tableReference
  refine d_bind tableReferenceInner_d fun a r0 ha => ?_
  refine d_loop (I := fun a' r => ∀ b r', Joins c a' r b r' → Joins c a r0 b r') (fun _ _ h => h) ?_
  intro x ts' hI
  refine d_bind joinType_d fun o r ho => ?_
  cases o with
  | none =>
    obtain ⟨rfl, h⟩ := ho
    exact d_pure (.mk ha (hI _ _ (.nil h)))
  | some j =>
    dw
    next b r' hj => exact hI _ _ (.cons ho (by assumption) (by assumption) hj)

theorem flags_of_many {tbl : List (Keyword × Kind)} {l : List Ast} (h : Many (KwN tbl) ts l r) : Flags tbl ts l r := many_flags h

theorem parseSelect_d : D n c parseSelect ts (Sel c ts) := by
  unfold parseSelect
  dw
  all_goals leaf [many_flags]

theorem compoundBottom_d : D n c compoundBottom ts (QPart c ts) := by
  unfold compoundBottom
  dw
  all_goals leaf

/-- ALL, DISTINCT or nothing. -/
inductive UTy : List Tk → OAst → List Tk → Prop where
  | all {t : Token} {sp : Span} {r : List Tk} (h : t.isKw .ALL = true) : UTy ((t, sp) :: r) (ond% UnionType_All [sp]) r
  | distinct {t : Token} {sp : Span} {r : List Tk} (h : t.isKw .DISTINCT = true) : UTy ((t, sp) :: r) (ond% UnionType_Distinct [sp]) r
  | default {r : List Tk} (h : NoKw [.ALL, .DISTINCT] r) : UTy r (ond% UnionType_Default []) r

theorem unionType_d : D n c unionType ts (UTy ts) := by
  unfold unionType
  dw
  all_goals leaf

theorem unionPart_d : D n c unionPart ts (UnionPart c ts) := by
  unfold unionPart
  dw
  dcase [UTy]
  all_goals leaf

theorem unions_d : D n c (sepLoop (do let t ← curT; return t.isKw .UNION) unionPart) ts (Unions c ts) := by
  refine d_loop (I := fun acc r => ∀ l r', Unions c r l r' → Unions c ts (acc ++ l) r') (fun _ _ h => h) ?_
  intro acc ts' hI
  dw
  next h =>
    split
    · next h' =>
      split at h'
      · cases h'
        intro l r hl
        simpa using hI _ _ (.cons h hl)
      · cases h'
    · next h' =>
      split at h'
      · cases h'
      · next hn =>
        cases h'
        exact hI _ _ (.one h (by simpa [Next] using hn))

theorem compoundQuery_d : D n c compoundQuery ts (Comp c ts) := by
  unfold compoundQuery
  dw
  · leaf
  · refine d_bind unions_d fun l r hl => ?_
    dw
    all_goals leaf

end
end SqlParse
