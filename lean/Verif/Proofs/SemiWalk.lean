import Verif.Proofs.Semi
/-! The tactic `semi`, which goes through a program and proves `Sm`. -/
namespace SqlParse

/-- the token is not `;` -/
macro "nsemi" : tactic => `(tactic| first
  | assumption
  | exact isKw_ns (by assumption)
  | (refine eq_ns (by assumption) ?_; intro h; cases h; done)
  | exact ne_ns (by assumption)
  | exact known_ns (by assumption) (by assumption)
  | exact tableFind_ns (by assumption) rfl
  | exact strVal_ns (by assumption)
  | (refine eq_ns rfl ?_; intro h; cases h; done)
  | (intro _ h1 h2; subst h1; subst h2; simp_all [Token.isKw, Token.kw]; done))

/-- the program only looks -/
macro "still" : tactic => `(tactic| repeat (first
  | exact Still.pure | exact Still.ret | exact Still.panic
  | exact cur_still | exact curT_still | exact curS_still | exact err_still | exact warn_still | exact issueIf_still
  | exact dialect_still | exact isPg_still | exact isMaria_still | exact isSqlite_still | exact delim_still
  | exact permit_still | exact arguments_still | exact listHack_still
  | exact expectedError_still | exact expectedFailure_still | exact errHere_still | exact spanOf_still | exact orExpected_still
  | exact capsWarn_still | exact tokenToIdent_still
  | refine when_still ?_ | refine Still.seq ?_ (fun _ => ?_) | refine Still.ite ?_ ?_ | split))

open Lean Meta Elab Tactic

private def runTac (g : MVarId) (tac : TSyntax `tactic) : TacticM (List MVarId) := do
  let gs ← Tactic.run g (evalTactic tac)
  return gs

private def tryTac (g : MVarId) (tac : TSyntax `tactic) : TacticM (Option (List MVarId)) := do
  let s ← saveState
  try
    let gs ← Term.withoutErrToSorry (withoutRecover (runTac g tac))
    return some gs
  catch _ =>
    restoreState s
    return none

/-- Apply a rule whose first goal must be closed by a tactic. -/
private def closing (g : MVarId) (rule tac : TSyntax `tactic) : TacticM (Option (List MVarId)) := do
  let s ← saveState
  try
    let gs ← Term.withoutErrToSorry (withoutRecover (runTac g rule))
    match gs with
    | x :: gs =>
      let r ← Term.withoutErrToSorry (withoutRecover (runTac x tac))
      unless r.isEmpty do throwError "open"
      return some gs
    | [] => return some []
  catch _ =>
    restoreState s
    return none

/-- `true` when the hypothesis is worth keeping: it mentions `;` -/
private def mentionsSemi (e : Expr) : Bool := (e.find? fun x => x.isConstOf ``Token.semiColon).isSome

partial def semiCore (g : MVarId) : TacticM (List MVarId) := g.withContext do
  let ty ← instantiateMVars (← g.getType)
  let ty ← whnfR ty
  if ty.isForall && ty.getForallBody.isAppOf ``Sm then
    let (h, g) ← g.intro (← mkFreshUserName `x)
    let g ← g.withContext do
      let ht ← whnfR (← instantiateMVars (← h.getType))
      if (ht.isAppOf ``Not || ht.isArrow) && !mentionsSemi ht then (try g.clear h catch _ => pure g) else pure g
    return ← semiCore g
  unless ty.isAppOf ``Sm do
    if let some [] ← tryTac g (← `(tactic| rfl)) then return []
    if let some [] ← tryTac g (← `(tactic| nsemi)) then return []
    if let some [] ← tryTac g (← `(tactic| (intro h; nomatch h))) then return []
    return [g]
  let args := ty.getAppArgs
  -- α md chk P p
  let p ← whnfCore args[4]!
  let g ← g.change (mkAppN ty.getAppFn (args.set! 4 p))
  let many (gs : List MVarId) : TacticM (List MVarId) := do
    let mut out := #[]
    for x in gs do
      unless ← x.isAssigned do
        out := out ++ (← semiCore x)
    return out.toList
  let go (tac : TSyntax `tactic) : TacticM (List MVarId) := do many (← runTac g tac)
  let env ← getEnv
  match p.getAppFn.constName? with
  | some ``Bind.bind =>
    let p1 ← whnfCore p.getAppArgs[4]!
    let key? ← progKey p1
    let key := key?.getD `none
    let has (s : String) : Option Ident := if env.contains (sfx key s) then some (mkIdent (sfx key s)) else none
    if let some l := has "_sbindS" then
      return ← many (← g.apply (mkConst l.getId))
    if let some l := has "_still" then
      if let some gs ← tryTac g (← `(tactic| refine Still.bind $l ?_)) then return ← many gs
    let isC := p1.isAppOf ``ite || (← match p1.getAppFn.constName? with | some n => pure (← getMatcherInfo? n).isSome | none => pure false)
    if isC || key == `SqlParse.when then
      if let some gs ← closing g (← `(tactic| refine Still.bind ?_ ?_)) (← `(tactic| still)) then return ← many gs
    go (← `(tactic| refine bind_sm ?_ ?_))
  | some ``Pure.pure => go (← `(tactic| exact pure_sm))
  | some ``Prog.ret => go (← `(tactic| exact ret_sm))
  | some ``ite => go (← `(tactic| refine ite_sm ?_ ?_))
  | n? =>
    let isM ← match n? with
      | some n => pure (← getMatcherInfo? n).isSome
      | none => pure false
    if isM then do
      many (← runTac g (← `(tactic| split)))
    else
      if let some gs ← tryTac g (← `(tactic| assumption)) then return gs
      if let some gs ← tryTac g (← `(tactic| exact Sm.at (by assumption))) then return gs
      if let some key ← progKey p then
        let has (s : String) : Option Ident := if env.contains (sfx key s) then some (mkIdent (sfx key s)) else none
        if let some l := has "_sm" then
          return ← many (← g.apply (mkConst l.getId))
        if let some l := has "_still" then
          if let some gs ← tryTac g (← `(tactic| exact Still.sm $l)) then return gs
      return [g]

elab "semi" : tactic => do
  let g ← getMainGoal
  let gs ← semiCore g
  replaceMainGoal gs

end SqlParse
