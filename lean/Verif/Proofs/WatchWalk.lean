import Verif.Proofs.Watch
/-! The tactic `watch`, which goes through a program and proves `Cw`. -/
namespace SqlParse

theorem decEq_uw {t u : Token} (h : decide (t = u) = true) (hu : u.kw.watched = false) : ∀ t', t' = t → Unwatched t' := eq_uw (of_decide_eq_true h) hu
theorem eqTk_uw {t u : Token} (h : t = u) (hu : u.kw.watched = false) : ∀ t', t' = t → Unwatched t' := eq_uw h hu
theorem left_uw {a : Bool} {u : Token} (h : a = true → ∃ t, t = u ∧ Unwatched t) (ha : a = true) : ∀ t', t' = u → Unwatched t' := by
  obtain ⟨t, rfl, ht⟩ := h ha
  rintro _ rfl
  exact ht
theorem exprIdent_uw {v : List Char} {k : Keyword} (h : k.exprIdent = true) : ∀ t', t' = .ident v k → Unwatched t' := by
  rintro _ rfl
  show k.watched = false
  unfold Keyword.exprIdent at h
  rcases Bool.or_eq_true_iff.1 h with h | h
  · have := List.all_eq_true.1 (show (exprIdentKws.all fun k => !k.watched) = true by decide +kernel) k (List.contains_iff_mem.1 h)
    simpa using this
  · unfold Keyword.watched
    simp only [Bool.not_eq_true'] at h
    rw [h]; rfl
theorem andKw_uw {t : Token} {k : Keyword} {b : Bool} (h : (t.isKw k && b) = true) (hk : k.watched = false) : ∀ t', t' = t → Unwatched t' := by
  rw [Bool.and_eq_true] at h; exact isKw_uw h.1 hk
theorem andEq_uw {t u : Token} {b : Bool} (h : (decide (t = u) && b) = true) (hu : u.kw.watched = false) : ∀ t', t' = t → Unwatched t' := by
  rw [Bool.and_eq_true] at h; exact decEq_uw h.1 hu
theorem andOr_uw {t u : Token} {k : Keyword} {b : Bool} (h : ((t.isKw k || decide (t = u)) && b) = true) (hk : k.watched = false) (hu : u.kw.watched = false) :
    ∀ t', t' = t → Unwatched t' := by
  rw [Bool.and_eq_true, Bool.or_eq_true] at h
  rcases h.1 with h | h
  · exact isKw_uw h hk
  · exact decEq_uw h hu
theorem orKw_uw {t : Token} {k k' : Keyword} (h : (t.isKw k || t.isKw k') = true) (hk : k.watched = false) (hk' : k'.watched = false) : ∀ t', t' = t → Unwatched t' := by
  rw [Bool.or_eq_true] at h
  rcases h with h | h
  · exact isKw_uw h hk
  · exact isKw_uw h hk'

/-- the token need not be reported -/
macro "nwatch" : tactic => `(tactic| first
  | assumption
  | exact isKw_uw (by assumption) (by decide +kernel)
  | exact eq_uw (by assumption) (by assumption)
  | exact eqTk_uw (by assumption) (by decide +kernel)
  | exact left_uw (by assumption) (by assumption)
  | exact exprIdent_uw (by assumption)
  | exact absurd (by assumption : false = true) Bool.false_ne_true
  | exact known_uw (by assumption) (by assumption)
  | exact tableFind_uw (by assumption) (by decide +kernel)
  | exact strVal_uw (by assumption)
  | exact eq_uw rfl rfl
  | (show tableUnwatched _ = true; decide +kernel)
  | exact andOr_uw (by assumption) (by decide +kernel) (by decide +kernel)
  | exact andKw_uw (by assumption) (by decide +kernel)
  | exact andEq_uw (by assumption) (by decide +kernel)
  | exact orKw_uw (by assumption) (by decide +kernel) (by decide +kernel)
  | exact decEq_uw (by assumption) (by decide +kernel)
  | (rintro _ rfl; rfl))

open Lean Meta Elab Tactic

private def runTac (g : MVarId) (tac : TSyntax `tactic) : TacticM (List MVarId) := do
  let gs ← Tactic.run g (evalTactic tac)
  return gs

private def tryTac (g : MVarId) (tac : TSyntax `tactic) : TacticM (Option (List MVarId)) := do
  let s ← saveState
  try
    let gs ← Term.withoutErrToSorry (withoutRecover (runTac g tac))
    return some gs
  catch _ =>
    restoreState s
    return none

/-- Apply a rule whose first goal must be closed by a tactic. -/
private def closing (g : MVarId) (rule tac : TSyntax `tactic) : TacticM (Option (List MVarId)) := do
  let s ← saveState
  try
    let gs ← Term.withoutErrToSorry (withoutRecover (runTac g rule))
    match gs with
    | x :: gs =>
      let r ← Term.withoutErrToSorry (withoutRecover (runTac x tac))
      unless r.isEmpty do throwError "open"
      return some gs
    | [] => return some []
  catch _ =>
    restoreState s
    return none

/-- `true` when the hypothesis is worth keeping: it mentions `Unwatched` -/
private def mentionsUw (e : Expr) : Bool := (e.find? fun x => x.isConstOf ``Unwatched).isSome

partial def capsCore (g : MVarId) : TacticM (List MVarId) := g.withContext do
  let ty ← instantiateMVars (← g.getType)
  let ty ← whnfR ty
  if ty.isForall && ty.getForallBody.isAppOf ``Cw then
    let (h, g) ← g.intro (← mkFreshUserName `x)
    let g ← g.withContext do
      let ht ← whnfR (← instantiateMVars (← h.getType))
      if (ht.isAppOf ``Not || ht.isArrow) && !mentionsUw ht then (try g.clear h catch _ => pure g) else pure g
    return ← capsCore g
  if ty.isAppOf ``CwQ then
    if let some gs ← tryTac g (← `(tactic| assumption)) then return gs
    if let some key ← progKey (← whnfCore ty.getAppArgs[3]!) then
      if (← getEnv).contains (sfx key "_cwQ") then
        let mut out := #[]
        for x in ← g.apply (mkConst (sfx key "_cwQ")) do
          unless ← x.isAssigned do
            out := out ++ (← capsCore x)
        return out.toList
    return [g]
  unless ty.isAppOf ``Cw do
    if let some [] ← tryTac g (← `(tactic| rfl)) then return []
    if let some [] ← tryTac g (← `(tactic| nwatch)) then return []
    return [g]
  let args := ty.getAppArgs
  -- α E P p
  let p ← whnfCore args[3]!
  let g ← g.change (mkAppN ty.getAppFn (args.set! 3 p))
  let many (gs : List MVarId) : TacticM (List MVarId) := do
    let mut out := #[]
    for x in gs do
      unless ← x.isAssigned do
        out := out ++ (← capsCore x)
    return out.toList
  let go (tac : TSyntax `tactic) : TacticM (List MVarId) := do many (← runTac g tac)
  let env ← getEnv
  match p.getAppFn.constName? with
  | some ``Bind.bind =>
    let p1 ← whnfCore p.getAppArgs[4]!
    let key? ← progKey p1
    let key := key?.getD `none
    let has (s : String) : Option Ident := if env.contains (sfx key s) then some (mkIdent (sfx key s)) else none
    if let some l := has "_cbind" then
      return ← many (← g.apply (mkConst l.getId))
    if let some l := has "_still" then
      if let some gs ← tryTac g (← `(tactic| refine Still.cbind $l ?_)) then return ← many gs
    let isC := p1.isAppOf ``ite || (← match p1.getAppFn.constName? with | some n => pure (← getMatcherInfo? n).isSome | none => pure false)
    if isC || key == `SqlParse.when then
      if let some gs ← closing g (← `(tactic| refine Still.cbind ?_ ?_)) (← `(tactic| still)) then return ← many gs
    go (← `(tactic| refine bind_cw ?_ ?_))
  | some ``Pure.pure => go (← `(tactic| exact pure_cw))
  | some ``Prog.ret => go (← `(tactic| exact ret_cw))
  | some ``ite => go (← `(tactic| refine ite_cw ?_ ?_))
  | n? =>
    let isM ← match n? with
      | some n => pure (← getMatcherInfo? n).isSome
      | none => pure false
    if isM then do
      many (← runTac g (← `(tactic| split)))
    else
      if let some gs ← tryTac g (← `(tactic| assumption)) then return gs
      if let some gs ← tryTac g (← `(tactic| exact Cw.at (by assumption))) then return gs
      if let some key ← progKey p then
        let has (s : String) : Option Ident := if env.contains (sfx key s) then some (mkIdent (sfx key s)) else none
        if let some l := has "_cw" then
          return ← many (← g.apply (mkConst l.getId))
        if let some l := has "_still" then
          if let some gs ← tryTac g (← `(tactic| exact Still.cw $l)) then return gs
      return [g]

elab "watch" : tactic => do
  let g ← getMainGoal
  let gs ← capsCore g
  replaceMainGoal gs

end SqlParse
