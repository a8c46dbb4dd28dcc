import Verif.Proofs.SoundRules
import Verif.Proofs.Walk
/-! Tactics for the converse direction of the grammar: `dw` goes through a program, `leaf` builds a derivation. -/
namespace SqlParse
open Lean Meta Elab Tactic

/-- the token can be consumed -/
macro "solid" : tactic => `(tactic| first
  | rfl
  | exact solid_kw (by assumption)
  | exact solid_or (by assumption)
  | exact solid_isStr (by assumption)
  | exact solid_str (by assumption)
  | exact solid_table (by assumption) rfl
  | (subst_vars; rfl)
  | assumption)

private def runTac (g : MVarId) (tac : TSyntax `tactic) : TacticM (List MVarId) := do
  let gs ← Tactic.run g (evalTactic tac)
  return gs

private def tryTac (g : MVarId) (tac : TSyntax `tactic) : TacticM (Option (List MVarId)) := do
  let s ← saveState
  try
    let gs ← Term.withoutErrToSorry (withoutRecover (runTac g tac))
    return some gs
  catch _ =>
    restoreState s
    return none

/-- Specifications that are opened at once: conjunctions, existentials and equations. -/
partial def openHyp (g : MVarId) (h : FVarId) : TacticM (List MVarId) := g.withContext do
  let ty ← whnfR (← instantiateMVars (← h.getType))
  if ty.isAppOf ``And || ty.isAppOf ``Exists then
    let subs ← g.cases h
    let mut out := #[]
    for s in subs do
      let mut gs := [s.mvarId]
      for f in s.fields.reverse do
        let mut gs' := #[]
        for g in gs do
          if f.isFVar then
            let has ← g.withContext do return (← getLCtx).contains f.fvarId!
            if has then gs' := gs' ++ (← openHyp g f.fvarId!) else gs' := gs'.push g
          else gs' := gs'.push g
        gs := gs'.toList
      out := out ++ gs
    return out.toList
  if ty.isAppOf ``Eq then
    let args := ty.getAppArgs
    let t0 ← whnfR args[0]!
    -- token lists, options, spans: substitute or take apart
    if t0.isConstOf ``Bool then
      let l ← whnf args[1]!
      let r ← whnf args[2]!
      if l.isConst && r.isConst then
        if l == r then return [← g.clear h]
        let subs ← g.cases h
        return (subs.map (·.mvarId)).toList
    if t0.isAppOf ``List || t0.isAppOf ``Option || t0.isAppOf ``Span || args[1]!.isFVar || args[2]!.isFVar || t0.isAppOf ``Prod then
      let s ← saveState
      try
        let subs ← g.cases h
        return (subs.map (·.mvarId)).toList
      catch _ =>
        restoreState s
        return [g]
  if let some q := ty.not? then
    if q.isAppOfArity ``Eq 3 && q.getAppArgs[0]!.isConstOf ``Bool then
      let l ← whnf q.getAppArgs[1]!
      let r ← whnf q.getAppArgs[2]!
      if l.isConst && l == r then
        if let some [] ← tryTac g (← `(tactic| simp_all)) then return []
  return [g]

/-- Hypotheses that say which of several ways an optional phrase was read. -/
private def caseHeads : List Name := [``OptK, ``OptT, ``SkT, ``OptKw, ``KwN]

/-- Find a hypothesis to be taken apart so that the value of `x` is known. -/
private def findCase (g : MVarId) (x : FVarId) : MetaM (Option FVarId) := g.withContext do
  for d in ← getLCtx do
    unless d.isImplementationDetail do
      let ty ← instantiateMVars d.type
      if let some n := ty.getAppFn.constName? then
        if caseHeads.contains n && ty.getAppArgs.contains (.fvar x) then return some d.fvarId
      if ty.isAppOf ``Or && (ty.containsFVar x) then return some d.fvarId
  return none

/-- Substitute equations for results that were opened too early. -/
partial def substOpts (g : MVarId) : TacticM MVarId := g.withContext do
  for d in ← getLCtx do
    unless d.isImplementationDetail do
      let ty ← instantiateMVars d.type
      if ty.isAppOfArity ``Eq 3 then
        let t0 ← whnfR ty.getAppArgs[0]!
        if (t0.isAppOf ``Option || t0.isAppOf ``Prod) && (ty.getAppArgs[1]!.isFVar || ty.getAppArgs[2]!.isFVar) then
          let s ← saveState
          try
            let subs ← g.cases d.fvarId
            match subs.toList with
            | [x] => return ← substOpts x.mvarId
            | _ => restoreState s
          catch _ => restoreState s
  return g

private def introAll (g : MVarId) : TacticM (List MVarId) := do
  let ty ← g.withContext do whnfR (← instantiateMVars (← g.getType))
  if ty.isForall then
    let (h, g) ← g.intro (← mkFreshUserName `x)
    let isP ← g.withContext do isProp (← h.getType)
    let gs ← if isP then openHyp g h else pure [g]
    if isP then return ← gs.mapM substOpts
    return gs
  else return [g]

private partial def introsOpen (g : MVarId) : TacticM (List MVarId) := do
  let ty ← g.withContext do whnfR (← instantiateMVars (← g.getType))
  if ty.isForall then
    let gs ← introAll g
    return (← gs.mapM introsOpen).flatten
  else return [g]

/-- programs with rules `d_*` of the shape `D .. (p >>= f) ..` -/
private def simpleRules : List (Name × Name) := [(``cur, ``d_cur), (``curT, ``d_curT), (``curS, ``d_curS), (``err, ``d_err), (``warn, ``d_warn),
  (``expectedError, ``d_expectedError), (``expectedFailure, ``d_expectedFailure_bind), (``errHere, ``d_errHere_bind),
  (``dialect, ``d_dialect), (``isPg, ``d_isPg), (``isMaria, ``d_isMaria), (``isSqlite, ``d_isSqlite),
  (`SqlParse.listHack, ``d_listHack), (`SqlParse.arguments, ``d_arguments), (`SqlParse.delim, ``d_delim), (`SqlParse.permit, ``d_permit),
  (``issueIf, ``d_issueIf), (``capsWarn, ``d_capsWarn), (``Prog.panic, ``d_panic_bind)]

/-- The specification of a program, by the lemmas `*_d` and the hypotheses. -/
partial def specSolve (g : MVarId) : TacticM Unit := do
  let ty ← g.withContext do whnfR (← instantiateMVars (← g.getType))
  if ty.isForall then
    let (_, g) ← g.intro1P
    return ← specSolve g
  g.withContext do
    unless ty.isAppOf ``D do
      match ← tryTac g (← `(tactic| first | rfl | assumption | solid)) with
      | some [] => return
      | _ => throwError "specSolve: {g}"
    if let some [] ← tryTac g (← `(tactic| assumption)) then return
    let some p := ty.getAppArgs[3]? | throwError "specSolve"
    let p ← whnfCore p
    let some key ← progKey p | throwError "specSolve: no key"
    let l := sfx key "_d"
    unless (← getEnv).contains l do throwError "specSolve: no lemma {l}"
    let gs ← g.apply (← mkConstWithFreshMVarLevels l) {newGoals := .nonDependentFirst}
    for g in gs do
      unless ← g.isAssigned do
        let pr ← g.withContext do isProp (← g.getType)
        if pr then specSolve g

private def trySpec (g : MVarId) : TacticM Bool := do
  let s ← saveState
  try
    Term.withoutErrToSorry (withoutRecover (specSolve g))
    return true
  catch _ =>
    restoreState s
    return false

/-- `d_bind` with a specification that is found. -/
private def bindSpec (g : MVarId) : TacticM (Option (List MVarId)) := do
  let s ← saveState
  try
    let gs ← g.apply (← mkConstWithFreshMVarLevels ``d_bind) {newGoals := .nonDependentFirst}
    match gs with
    | h :: hf :: _ =>
      if ← trySpec h then return some [hf]
      restoreState s; return none
    | _ => restoreState s; return none
  catch _ => restoreState s; return none

/-- `D.mono` with a specification that is found. -/
private def monoSpec (g : MVarId) : TacticM (Option (List MVarId)) := do
  let s ← saveState
  try
    let gs ← g.apply (← mkConstWithFreshMVarLevels ``D.mono) {newGoals := .nonDependentFirst}
    match gs with
    | h :: hf :: _ =>
      if ← trySpec h then return some [hf]
      restoreState s; return none
    | _ => restoreState s; return none
  catch _ => restoreState s; return none

mutual
partial def dwMany (gs : List MVarId) : TacticM (List MVarId) := do
  let mut out := #[]
  for x in gs do
    unless ← x.isAssigned do
      out := out ++ (← dwCore x)
  return out.toList

partial def dwCore (g : MVarId) : TacticM (List MVarId) := g.withContext do
  let ty ← instantiateMVars (← g.getType)
  let ty ← whnfR ty
  if ty.isForall && ty.getForallBody.isAppOf ``D then
    return ← dwMany (← introsOpen g)
  unless ty.isAppOf ``D do
    if let some [] ← tryTac g (← `(tactic| solid)) then return []
    return [g]
  let args := ty.getAppArgs
  -- n c α p ts Q
  let p ← whnfCore args[3]!
  let g ← g.change (mkAppN ty.getAppFn (args.set! 3 p))
  let go (tac : TSyntax `tactic) : TacticM (List MVarId) := do dwMany (← runTac g tac)
  let env ← getEnv
  let isMatch (e : Expr) : MetaM Bool := match e.getAppFn.constName? with | some n => do return (← getMatcherInfo? n).isSome | none => pure false
  -- variables on which a program is stuck
  let stuckVar (e : Expr) : MetaM (Option FVarId) := do
    let some n := e.getAppFn.constName? | return none
    if n == ``optMap then return e.getAppArgs[2]!.fvarId?
    if n == ``optIf || n == ``ite then
      for d in ← getLCtx do
        unless d.isImplementationDetail do
          let i := if n == ``optIf then 1 else 1
          if e.getAppArgs[i]!.containsFVar d.fvarId && (← findCase g d.fvarId).isSome then return some d.fvarId
      return none
    let some mi ← getMatcherInfo? n | return none
    let ds := e.getAppArgs.extract mi.getFirstDiscrPos (mi.getFirstDiscrPos + mi.numDiscrs)
    for d in ds do
      if let some x := d.fvarId? then return some x
    return none
  let splitVar (x : FVarId) : TacticM (Option (List MVarId)) := do
    if let some h ← findCase g x then
      let s ← saveState
      try
        let subs ← g.cases h
        let mut out := #[]
        for s in subs do
          let mut gs := [s.mvarId]
          for f in s.fields.reverse do
            if f.isFVar then
              let mut gs' := #[]
              for g in gs do
                let has ← g.withContext do return (← getLCtx).contains f.fvarId! && (← isProp (← f.fvarId!.getType))
                if has then gs' := gs' ++ (← openHyp g f.fvarId!) else gs' := gs'.push g
              gs := gs'.toList
          out := out ++ gs
        return some out.toList
      catch _ => restoreState s; return none
    return none
  match p.getAppFn.constName? with
  | some ``Bind.bind =>
    let p1 ← whnfCore p.getAppArgs[4]!
    if p1.isAppOf ``Bind.bind || p1.isAppOf ``Prog.bind then
      return ← go (← `(tactic| refine d_assoc ?_))
    if p1.isAppOf ``Pure.pure || p1.isAppOf ``Prog.ret then
      return ← go (← `(tactic| refine d_seq (d_ret ?_)))
    let key? ← progKey p1
    let key := key?.getD `none
    if let some (_, l) := simpleRules.find? (·.1 == key) then
      return ← dwMany (← g.apply (← mkConstWithFreshMVarLevels l))
    if key == `SqlParse.when then
      if let some gs ← tryTac g (← `(tactic| refine d_whenErr ?_)) then return ← dwMany gs
      let gs ← runTac g (← `(tactic| refine d_whenNo ?_ ?_))
      return ← dwMany gs
    if key == ``next || key == ``consume then
      let l := mkIdent (sfx key "_dbA")
      if let some gs ← tryTac g (← `(tactic| refine $l (by solid) ?_)) then return ← dwMany gs
      let gs ← runTac g (← `(tactic| refine d_expose ?_))
      let gs := (← gs.mapM introsOpen).flatten
      let mut out := #[]
      for g in gs do
        if let some gs ← tryTac g (← `(tactic| refine $l (by solid) ?_)) then out := out ++ (← dwMany gs)
        else out := out.push g
      return out.toList
    if key == `SqlParse.tryP then
      let q ← whnfCore p1.appArg!
      if let some k ← progKey q then
        if env.contains (sfx k "_d") then
          let l := mkIdent (sfx k "_d")
          if let some gs ← tryTac g (← `(tactic| refine d_tryP_bind $l ?_)) then return ← dwMany gs
      return ← go (← `(tactic| refine d_tryP ?_))
    if let some x ← stuckVar p1 then
      if let some gs ← splitVar x then return ← dwMany gs
    if key == ``optMap then
      let o ← whnfR p1.getAppArgs[2]!
      if o.isAppOf ``Option.none then return ← dwMany (← g.apply (← mkConstWithFreshMVarLevels ``optMap_none_db))
      if o.isAppOf ``Option.some then return ← dwMany (← g.apply (← mkConstWithFreshMVarLevels ``optMap_some_db))
    if env.contains (sfx key "_db") then
      return ← dwMany (← g.apply (← mkConstWithFreshMVarLevels (sfx key "_db")))
    if let some gs ← tryTac g (← `(tactic| refine d_bind (by assumption) ?_)) then return ← dwMany gs
    if env.contains (sfx key "_d") then
      if let some gs ← bindSpec g then return ← dwMany gs
      return [g]
    if p1.isAppOf ``ite || (← isMatch p1) then return ← go (← `(tactic| refine d_seq ?_))
    return [g]
  | some ``Prog.bind => do
    let a := p.getAppArgs
    let g ← g.change (mkAppN ty.getAppFn (args.set! 3 (← mkAppOptM ``Bind.bind #[mkConst ``Prog, none, a[0]!, a[1]!, a[2]!, a[3]!])))
    dwCore g
  | some ``Pure.pure => return ← leafGoal (← runTac g (← `(tactic| refine d_pure ?_)))
  | some ``Prog.ret => return ← leafGoal (← runTac g (← `(tactic| refine d_ret ?_)))
  | some ``expectedFailure => go (← `(tactic| exact d_expectedFailure))
  | some ``errHere => go (← `(tactic| exact d_errHere))
  | some ``Prog.panic => go (← `(tactic| exact d_panic))
  | n? =>
    if let some x ← stuckVar p then
      if let some gs ← splitVar x then return ← dwMany gs
    if n? == some ``ite then return ← go (← `(tactic| refine d_ite ?_ ?_))
    if ← isMatch p then
      dwMany (← runTac g (← `(tactic| split)))
    else
      if let some gs ← tryTac g (← `(tactic| assumption)) then return gs
      if let some gs ← tryTac g (← `(tactic| refine D.mono (by assumption) ?_)) then return ← dwMany gs
      if let some key ← progKey p then
        if env.contains (sfx key "_d") then
          let l := mkIdent (sfx key "_d")
          if let some gs ← tryTac g (← `(tactic| exact $l)) then return gs
          if let some gs ← monoSpec g then return ← leafGoal gs
        if env.contains (sfx key "_db") || (simpleRules.find? (·.1 == key)).isSome || key == ``optMap then
          return ← go (← `(tactic| refine d_tail ?_))
      return [g]

/-- Introduce what is before a leaf. -/
partial def leafGoal (gs : List MVarId) : TacticM (List MVarId) := do
  let gs := (← gs.mapM introsOpen).flatten
  let mut out := #[]
  for g in gs do
    let ty ← g.withContext do whnfR (← instantiateMVars (← g.getType))
    if ty.isAppOf ``D then out := out ++ (← dwCore g)
    else
      -- the conclusion of a round of a loop
      match ty.getAppFn.constName? with
      | some n =>
        if (← getMatcherInfo? n).isSome then
          match ← tryTac g (← `(tactic| dsimp only)) with
          | some gs => out := out ++ (← gs.mapM introsOpen).flatten
          | none => out := out.push g
        else out := out.push g
      | none => out := out.push g
  return out.toList
end

elab "dw" : tactic => do
  let g ← getMainGoal
  let gs ← dwCore g
  replaceMainGoal gs

/-! ### Leaves -/

/-- Reduce a relation that is given by a function: `(fun a r => ..) x y`. -/
private def leafWhnf (e : Expr) : MetaM Expr := do
  let e ← instantiateMVars e
  whnfR e

/-- Side conditions -/
macro "lside" : tactic => `(tactic| first
  | assumption
  | rfl
  | simp_all [Next])

/-- Depth first search: hypotheses, constructors and the given lemmas. -/
partial def leafSolve (lems : List Name) : Nat → List MVarId → TacticM Bool
  | _, [] => return true
  | 0, _ => return false
  | fuel + 1, g :: gs => do
    if ← g.isAssigned then return ← leafSolve lems (fuel + 1) gs
    g.withContext do
      let ty ← leafWhnf (← g.getType)
      -- not a proposition: wait until it is assigned
      unless ← isProp ty do
        let gs' ← gs.filterM fun g => do return !(← g.isAssigned)
        let others ← gs'.filterM fun g => do isProp (← g.getType)
        if others.isEmpty then return false
        return ← leafSolve lems fuel (others ++ [g])
      let g ← g.change ty
      let s ← saveState
      if ty.isForall then
        let (_, g) ← g.intro1P
        return ← leafSolve lems fuel (g :: gs)
      -- equations
      if ty.isAppOf ``Eq then
        try
          g.refl
          if ← leafSolve lems fuel gs then return true
        catch _ => pure ()
        restoreState s
      -- hypotheses
      for d in ← getLCtx do
        unless d.isImplementationDetail do
          try
            if ← isDefEq ty d.type then
              g.assign d.toExpr
              if ← leafSolve lems fuel gs then return true
          catch _ => pure ()
          restoreState s
      -- lemmas and constructors
      let hd? := ty.getAppFn.constName?
      let mut cands := lems
      if let some hd := hd? then
        if hd != ``Eq && hd != ``Not then
          if let some (.inductInfo ii) := (← getEnv).find? hd then
            if hd != ``OptK && hd != ``OptT || true then cands := ii.ctors ++ cands
      for l in cands do
        try
          let gs' ← g.apply (← mkConstWithFreshMVarLevels l) {newGoals := .nonDependentFirst, allowSynthFailures := false}
          let gs' ← gs'.filterM fun g => do return !(← g.isAssigned)
          if ← leafSolve lems fuel (gs' ++ gs) then return true
        catch _ => pure ()
        restoreState s
      -- side conditions
      unless (← instantiateMVars ty).hasExprMVar do
        match ← tryTac g (← `(tactic| lside)) with
        | some [] => if ← leafSolve lems fuel gs then return true
        | _ => pure ()
        restoreState s
      return false

syntax "leaf" ("[" ident,* "]")? : tactic
elab_rules : tactic
  | `(tactic| leaf $[[$ls,*]]?) => do
    let lems ← match ls with
      | some ls => (ls.getElems.toList : List (TSyntax `ident)).mapM fun (i : TSyntax `ident) => realizeGlobalConstNoOverload i.raw
      | none => pure []
    let g ← getMainGoal
    unless ← Term.withoutErrToSorry (withoutRecover (leafSolve lems 40 [g])) do throwError "leaf: no derivation found\n{g}"
    replaceMainGoal []

/-- `leaf`, after cases on what the value depends on. -/
syntax "lf" ("[" ident,* "]")? : tactic
macro_rules
  | `(tactic| lf) => `(tactic| first | leaf | (split <;> (try simp only [decide_eq_true_eq, decide_eq_false_iff_not] at *) <;> leaf))
  | `(tactic| lf [$ls,*]) => `(tactic| first | leaf [$ls,*] | (split <;> (try simp only [decide_eq_true_eq, decide_eq_false_iff_not] at *) <;> leaf [$ls,*]))

/-- Take apart every hypothesis with one of these relations. -/
partial def dcaseCore (hs : List Name) (g : MVarId) : TacticM (List MVarId) := g.withContext do
  for d in ← getLCtx do
    unless d.isImplementationDetail do
      let ty ← instantiateMVars d.type
      if let some n := ty.getAppFn.constName? then
        if hs.contains n then
          let s ← saveState
          try
            let subs ← g.cases d.fvarId
            return (← subs.toList.mapM fun s => dcaseCore hs s.mvarId).flatten
          catch _ => restoreState s
  return [g]

syntax "dcase" "[" ident,* "]" : tactic
elab_rules : tactic
  | `(tactic| dcase [$ls,*]) => do
    let hs ← (ls.getElems.toList : List (TSyntax `ident)).mapM fun (i : TSyntax `ident) => realizeGlobalConstNoOverload i.raw
    let g ← getMainGoal
    replaceMainGoal (← dcaseCore hs g)

end SqlParse
