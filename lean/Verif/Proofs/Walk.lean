import Verif.Proofs.SafeParser
/-! The tactics `gd` (proves that a value is good) and `walk` (goes through a program, using the lemmas `<name>_bind` and
`<name>_safe`). -/
namespace SqlParse
variable {C : Ctx} {P : Token → Prop} {α β σ : Type}

theorem some_good [HasGood α] {a : α} (h : good C a) : good C (some a) := h
theorem none_good [HasGood α] : good C (none : Option α) := trivial
theorem pair_good [HasGood α] [HasGood β] {a : α} {b : β} (h : good C a) (h' : good C b) : good C (a, b) := ⟨h, h'⟩
theorem fst_good [HasGood α] [HasGood β] {p : α × β} (h : good C p) : good C p.1 := h.1
theorem snd_good' [HasGood α] [HasGood β] {p : α × β} (h : good C p) : good C p.2 := h.2
theorem natSpan_snd {p : Nat × Span} (h : good C p) : good C p.2 := h.1
theorem cont_good [HasGood α] [HasGood β] {a : α} (h : good C a) : good C (Step.cont a : Step α β) := h
theorem done_good [HasGood α] [HasGood β] {a : β} (h : good C a) : good C (Step.done a : Step α β) := h
theorem nil_good [HasGood α] : good C ([] : List α) := by intro a ha; cases ha
theorem cons_good [HasGood α] {a : α} {l : List α} (h : good C a) (h' : good C l) : good C (a :: l) := by
  intro b hb
  rcases List.mem_cons.1 hb with rfl | hb
  · exact h
  · exact h' b hb
theorem app_good [HasGood α] {l l' : List α} (h : good C l) (h' : good C l') : good C (l ++ l') := good_append h h'
theorem toList_good [HasGood α] {o : Option α} (h : good C o) : good C o.toList := good_toList h
theorem zeroInt_good (hE : C.E) : good C ((0, ⟨0, 0⟩) : Nat × Span) :=
  ⟨⟨boundary_zero _, boundary_zero _, Nat.le_refl _, Nat.zero_le _, .inl hE⟩, .inl hE⟩
theorem fieldsSpan_good {k : Kind} {fs : List Ast} {m : Mode} (h : FL C (kindOmit k) 0 fs m) {sp : Span}
    (hs : (Ast.node k fs).spanRes = .some sp) : GoodSpan C sp := by
  refine spanResList_good (C := C) fs h.1 (kindOmit k) 0 sp ?_
  simp only [Ast.spanRes] at hs
  revert hs
  cases spanResList (kindOmit k) 0 fs with
  | none => intro h; simp at h; split at h <;> cases h
  | some s => exact id
  | panic => intro h; simp at h

/-- The span of a node, whatever the node says. -/
theorem spanOfNode_safe {k : Kind} {fs : List Ast} {m : Mode} (h : FL C (kindOmit k) 0 fs m)
    (hm : (Mode.node k m).le .must = true) : SafeT P C (@spanOf Ast instToFAst (Ast.node k fs)) (good C) := by
  obtain ⟨sp, h1⟩ := Mode.le_holds hm h.node
  have h2 := fieldsSpan_good h h1
  unfold spanOf
  show SafeT P C (match (Ast.node k fs).spanRes with | .some s => .ret s | .none => .panic "no span" | .panic => .panic "Span of block") _
  rw [h1]
  exact ret_safe h2

theorem spanOfSNode_safe {k : Kind} {fs : List Ast} {m : Mode} (h : FL C (kindOmit k) 0 fs m)
    (hm : (Mode.node k m).le .stmt = true) (hw : WithTok C) : SafeT P C (spanOf (SAst.mk (Ast.node k fs))) (good C) := by
  have h1 := Mode.le_holds hm h.node
  have h2 : ∀ sp, (Ast.node k fs).spanRes = .some sp → GoodSpan C sp := fun sp hs => fieldsSpan_good h hs
  unfold spanOf
  show SafeT P C (match (Ast.node k fs).spanRes with | .some s => .ret s | .none => .panic "no span" | .panic => .panic "Span of block") _
  revert h1 h2
  cases (Ast.node k fs).spanRes with
  | none => intro h1; exact absurd rfl h1
  | some s => intro _ h2; exact ret_safe (h2 s rfl)
  | panic => intro _ _ _ _ _ _ _ _ _ _; exact .inl ⟨rfl, hw⟩

theorem isSome'_toF [ToF α] {o : Option α} : isSome' (toF o) = o.isSome := by cases o <;> rfl
section
variable {a b c d e f g h i j k l : Ast}
theorem NodeOK_update : NodeOK C .Update [a, b, c, d, e, f, g] = (isSome' g = true → C.E ∨ C.opts.dialect = .postgreSQL) := rfl
theorem NodeOK_dropIndex : NodeOK C .DropIndex [a, b, c, d, e] = (C.E ∨ ((isSome' e = false → C.opts.dialect ≠ .mariaDB) ∧
      (isSome' e = true → C.opts.dialect ≠ .postgreSQL))) := rfl
theorem NodeOK_createIndex : NodeOK C .CreateIndex [a, b, c, d, e, f, g, h, i, j, k, l] =
    (isSome' l = true → C.E ∨ C.opts.dialect ≠ .mariaDB) := rfl
theorem NodeOK_dropTable : NodeOK C .DropTable [a, b, c, d, e, f] = (isSome' f = true → C.opts.dialect = .postgreSQL) := rfl
theorem NodeOK_addColumn : NodeOK C .AlterSpecification_AddColumn [a, b, c, d] =
    (isSome' b = true → C.E ∨ C.opts.dialect ≠ .mariaDB) := rfl
theorem NodeOK_createFunction : NodeOK C .CreateFunction [a, b, c, d, e, f, g, h, i, j] =
    (isSome' j = true ↔ C.opts.dialect = .mariaDB) := rfl
end

theorem map_good [HasGood α] [HasGood β] {o : Option α} {f : α → β} (h : good C o) (hf : ∀ a, good C a → good C (f a)) :
    good C (o.map f) := by
  cases o with
  | none => trivial
  | some a => exact hf a h

theorem gate_ok {b : Bool} {p q : Prop} (h : b = true ↔ p) (h' : (!b) = true → q) : q ∨ p := by
  cases b
  · exact .inl (h' rfl)
  · exact .inr (h.1 rfl)
theorem frags_nil : ∀ f ∈ ([] : List (String × Span)), good C f.2 := by intro f hf; cases hf
theorem frags_one {m : String} {sp : Span} (h : good C sp) : ∀ f ∈ [(m, sp)], good C f.2 := by
  intro f hf
  cases List.mem_singleton.1 hf
  exact h
theorem getD_good [HasGood α] {o : Option α} {d : α} (h : good C o) (hE : o = none → C.E) (hd : C.E → good C d) :
    good C (o.getD d) := by
  cases o with
  | none => exact hd (hE rfl)
  | some a => exact h
theorem and_split [HasGood α] [HasGood β] {a : α} {b : β} {p : Prop} (h : good C (a, b)) (k : good C a → good C b → p) : p :=
  k h.1 h.2

open Lean Meta Elab Tactic

private def runTac (g : MVarId) (tac : TSyntax `tactic) : TacticM (List MVarId) := do
  let gs ← Tactic.run g (evalTactic tac)
  return gs

private def tryTac (g : MVarId) (tac : TSyntax `tactic) : TacticM (Option (List MVarId)) := do
  let s ← saveState
  try
    let gs ← Term.withoutErrToSorry (withoutRecover (runTac g tac))
    return some gs
  catch _ =>
    restoreState s
    return none

private def closeTac (g : MVarId) (tac : TSyntax `tactic) : TacticM Bool := do
  let s ← saveState
  try
    let gs ← Term.withoutErrToSorry (withoutRecover (runTac g tac))
    unless gs.isEmpty do throwError "open"
    return true
  catch _ =>
    restoreState s
    return false

/-- Destruct pairs behind a hypothesis `good C x`. -/
partial def splitPair (g : MVarId) (h : FVarId) : TacticM MVarId := g.withContext do
  let ty ← instantiateMVars (← h.getType)
  unless ty.isAppOf ``HasGood.good do return g
  let args := ty.getAppArgs
  let α ← whnfR args[0]!
  unless α.isAppOfArity ``Prod 2 do return g
  if (← whnfR α.appFn!.appArg!).isConstOf ``Nat then return g
  let x ← whnfCore args[3]!
  if x.isFVar then
    let hn ← mkFreshUserName `h
    let (_, g) ← g.revert #[h] true
    let cs ← g.cases x.fvarId!
    let some c := cs[0]? | throwError "cases"
    let g := c.mvarId
    let (h', g) ← g.intro hn
    splitPair g h'
  else if x.isAppOfArity ``Prod.mk 4 then
    let gs ← runTac g (← `(tactic| refine and_split $(mkIdent (← h.getUserName)) ?_))
    match gs with
    | [g] =>
      let g ← g.clear h
      let (h1, g) ← g.intro (← mkFreshUserName `h)
      let (h2, g) ← g.intro (← mkFreshUserName `h)
      let g ← splitPair g h1
      splitPair g h2
    | _ => throwError "splitPair"
  else return g

/-- Destruct pairs in hypotheses `good C (some (a, b))`. -/
partial def normHyps (g : MVarId) : TacticM MVarId := g.withContext do
  for d in (← getLCtx) do
    if d.isImplementationDetail then continue
    let ty ← instantiateMVars d.type
    if ty.isAppOfArity ``HasGood.good 4 then
      let x := ty.appArg!
      if x.isAppOfArity ``Option.some 2 && x.appArg!.isAppOfArity ``Prod.mk 4 then
        let α := x.appFn!.appArg!
        let inst ← synthInstance (← mkAppM ``HasGood #[α])
        let ty' := mkAppN ty.getAppFn #[α, inst, ty.getAppArgs[2]!, x.appArg!]
        let g ← g.assert (← mkFreshUserName `h) ty' (mkFVar d.fvarId)
        let (h', g) ← g.intro (← mkFreshUserName `h)
        let g ← g.clear d.fvarId
        let g ← splitPair g h'
        return ← normHyps g
  return g

/-- fields of a node: proves `FL ..` -/
partial def flCore (gd : MVarId → TacticM (List MVarId)) (g : MVarId) : TacticM (List MVarId) := do
  if let some gs ← tryTac g (← `(tactic| exact FL.nil _ _ _)) then return gs
  let gs ← g.apply (mkConst ``FL.cons) { newGoals := .nonDependentFirst }
  match gs with
  | a :: b :: _ =>
    let l1 ← gd a
    let l2 ← flCore gd b
    return l1 ++ l2
  | _ => throwError "fl {gs}"

partial def gdCore (g : MVarId) : TacticM (List MVarId) := g.withContext do
  if let some gs ← tryTac g (← `(tactic| assumption)) then return gs
  let ty ← instantiateMVars (← g.getType)
  let ty ← whnfR ty
  let fn := ty.getAppFn
  if fn.isConstOf ``LitOK then
    if let some gs ← tryTac g (← `(tactic| lit)) then return gs
    return [g]
  if ty.isForall then
    if ty.getForallBody.isAppOf ``LitOK then
      if let some gs ← tryTac g (← `(tactic| lit)) then return gs
    if let some gs ← tryTac g (← `(tactic| exact frags_nil)) then return gs
    if let some gs ← tryTac g (← `(tactic| refine frags_one ?_)) then
      return (← gs.mapM gdCore).flatten
    let (_, g') ← g.intro1
    return ← gdCore g'
  if fn.isConstOf ``FL then return ← flCore gdCore g
  if fn.isConstOf ``PlainTrue then
    let g ← g.change ty
    if let some gs ← tryTac g (← `(tactic| plain)) then return gs
  unless fn.isConstOf ``HasGood.good do
    if let some gs ← tryTac g (← `(tactic| trivial)) then return gs
    if let some gs ← tryTac g (← `(tactic| (refine (?_ : plainTable _ = true); decide +kernel))) then return gs
    return [g]
  let a ← whnfCore ty.appArg!
  let a ← if a.isAppOf ``Prod.fst || a.isAppOf ``Prod.snd then (do let b ← whnfR a; return if b.isProj then a else b) else pure a
  let g ← g.change (mkApp ty.appFn! a)
  let go (tac : TSyntax `tactic) : TacticM (List MVarId) := do
    let gs ← runTac g tac
    let mut out := #[]
    for x in gs do
      unless ← x.isAssigned do
        out := out ++ (← gdCore x)
    return out.toList
  let node (l : Name) : TacticM (List MVarId) := do
   let st ← saveState
   try
    let gs ← g.apply (mkConst l)
    let mut out := #[]
    for x in gs do
      unless ← x.isAssigned do
        let xt ← instantiateMVars (← x.getType)
        if xt.isAppOf ``FL then out := out ++ (← flCore gdCore x)
        else if xt.isAppOf ``Eq then out := out ++ (← runTac x (← `(tactic| rfl)))
        else if xt.isAppOf ``NodeOK then
          if let some gs ← tryTac x (← `(tactic| exact trivial)) then out := out ++ gs
          else if ← closeTac x (← `(tactic| exact gate_ok (by assumption) (by assumption))) then pure ()
          else if ← closeTac x (← `(tactic| simp_all [NodeOK, nodeTag])) then pure ()
          else if ← closeTac x (← `(tactic| simp_all [NodeOK_update, NodeOK_dropIndex, NodeOK_createIndex, NodeOK_dropTable, NodeOK_addColumn,
              NodeOK_createFunction, isSome'_toF])) then pure ()
          else out := out.push x
        else out := out.push x
    return out.toList
   catch e =>
    restoreState st
    if let some gs ← tryTac g (← `(tactic| solve_by_elim)) then return gs
    throw e
  match a.getAppFn.constName? with
  | some ``Ast.node => node ``nd_good
  | some ``OAst.mk => node ``ond_good
  | some ``SAst.mk =>
    if a.appArg!.isAppOf ``Ast.node then node ``snd_good
    else go (← `(tactic| refine sast_good ?_))
  | some ``Option.some => go (← `(tactic| refine some_good ?_))
  | some ``Option.none => go (← `(tactic| exact none_good))
  | some ``Prod.mk => go (← `(tactic| refine pair_good ?_ ?_))
  | some ``Step.cont => go (← `(tactic| refine cont_good ?_))
  | some ``Step.done => go (← `(tactic| refine done_good ?_))
  | some ``List.nil => go (← `(tactic| exact nil_good))
  | some ``List.cons => go (← `(tactic| refine cons_good ?_ ?_))
  | some ``HAppend.hAppend => go (← `(tactic| refine app_good ?_ ?_))
  | some ``Option.toList => go (← `(tactic| refine toList_good ?_))
  | some ``Option.map => do
    let gs ← runTac g (← `(tactic| refine map_good ?_ ?_))
    let mut out := #[]
    for x in gs do
      unless ← x.isAssigned do
        let xt ← whnfR (← instantiateMVars (← x.getType))
        if xt.isForall then
          let (_, x) ← x.intro1
          let (h, x) ← x.intro1
          let x ← splitPair x h
          out := out ++ (← gdCore x)
        else out := out ++ (← gdCore x)
    return out.toList
  | some ``Option.getD => go (← `(tactic| refine getD_good ?_ (by assumption) zeroInt_good))
  | some ``joinSpan => go (← `(tactic| refine joinSpan_good ?_ ?_))
  | some ``Prod.fst => go (← `(tactic| first | exact fst_good (by assumption) | exact trivial))
  | some ``Prod.snd => go (← `(tactic| first | exact snd_good' (by assumption) | exact natSpan_snd (by assumption)))
  | n? =>
    let isM ← match n? with
      | some n => pure ((← getMatcherInfo? n).isSome || n == ``ite)
      | none => pure false
    if isM then do
      let gs ← runTac g (← `(tactic| split))
      let mut out := #[]
      for x in gs do
        out := out ++ (← gdCore (← normHyps x))
      return out.toList
    else
      if let some gs ← tryTac g (← `(tactic| exact trivial)) then return gs
      return [g]

elab "gd" : tactic => do
  let g ← getMainGoal
  let gs ← gdCore g
  replaceMainGoal gs

/-- name of the lemma family of a program head -/
def progKey (p : Expr) : MetaM (Option Name) := do
  match p.getAppFn.constName? with
  | some ``Prog.op =>
    match p.appArg!.getAppFn.constName? with
    | some n => return some (`SqlParse ++ n.componentsRev.head!)
    | none => return none
  | some ``Prog.call =>
    match p.appArg!.getAppFn.constName? with
    | some ``Fn.expression => return some `SqlParse.callExpression
    | some ``Fn.compoundQuery => return some `SqlParse.callCompoundQuery
    | some ``Fn.statement => return some `SqlParse.callStatement
    | _ => return none
  | some ``Prog.tryP => return some `SqlParse.tryP
  | some ``Prog.loop => return some `SqlParse.loop
  | some ``Prog.when => return some `SqlParse.when
  | some `SqlParse.spanOf =>
    if p.appArg!.isAppOf ``Ast.node then return some `SqlParse.spanOfNode
    return some `SqlParse.spanOf
  | some n => return some n
  | none => return none

def sfx (n : Name) (s : String) : Name :=
  match n with
  | .str p x => .str p (x ++ s)
  | n => n

/-- `only`: stop after one step. -/
partial def walkCore (g : MVarId) : TacticM (List MVarId) := g.withContext do
  let ty ← instantiateMVars (← g.getType)
  let ty ← whnfR ty
  if ty.isForall then
    if ty.getForallBody.isAppOf ``LitOK then return ← gdCore g
    if ty.getForallBody.isAppOf ``HasGood.good then
      if let some gs ← tryTac g (← `(tactic| exact frags_nil)) then return gs
      if let some gs ← tryTac g (← `(tactic| refine frags_one ?_)) then
        return (← gs.mapM gdCore).flatten
    let (h, g) ← g.intro (← mkFreshUserName `x)
    if let some (_, a, b) := (← g.withContext (do instantiateMVars (← h.getType))).eq? then
      if b.isAppOf ``Option.some && (a.isAppOf ``Option.some || a.isAppOf ``Option.none) then
        return (← (← g.cases h).toList.mapM fun s => walkCore s.mvarId).flatten
    let g ← splitPair g h
    return ← walkCore g
  unless ty.isAppOf ``SafeT do
    return ← gdCore g
  let args := ty.getAppArgs
  -- P C α p Q
  let p ← whnfCore args[3]!
  let g ← g.change (mkAppN ty.getAppFn (args.set! 3 p))
  let go (tac : TSyntax `tactic) : TacticM (List MVarId) := do
    let gs ← runTac g tac
    let mut out := #[]
    for x in gs do
      unless ← x.isAssigned do
        out := out ++ (← walkCore x)
    return out.toList
  let goA (l : Name) : TacticM (List MVarId) := do
    let gs ← g.apply (← mkConstWithFreshMVarLevels l)
    let mut out := #[]
    for x in gs do
      unless ← x.isAssigned do
        out := out ++ (← walkCore x)
    return out.toList
  let env ← getEnv
  match p.getAppFn.constName? with
  | some ``Bind.bind =>
    let p1 ← whnfCore p.getAppArgs[4]!
    if let some key ← progKey p1 then
      let l := sfx key "_bind"
      if env.contains l then
        return ← goA l
    go (← `(tactic| refine bind_good ?_ ?_))
  | some ``Pure.pure => go (← `(tactic| refine pure_safe ?_))
  | some ``Prog.ret => go (← `(tactic| refine ret_safe ?_))
  | some ``ite => go (← `(tactic| refine ite_safe ?_ ?_))
  | n? =>
    let isM ← match n? with
      | some n => pure (← getMatcherInfo? n).isSome
      | none => pure false
    if isM then do
      let gs ← runTac g (← `(tactic| split))
      let mut out := #[]
      for x in gs do
        out := out ++ (← walkCore (← normHyps x))
      return out.toList
    else
      if p.isFVar then
        if let some gs ← tryTac g (← `(tactic| exact Safe.at (by assumption))) then return gs
      if let some gs ← tryTac g (← `(tactic| assumption)) then return gs
      if let some key ← progKey p then
        let l := sfx key "_safe"
        if env.contains l then return ← goA l
      return [g]

elab "walk" : tactic => do
  let g ← getMainGoal
  let gs ← walkCore g
  replaceMainGoal gs

end SqlParse
