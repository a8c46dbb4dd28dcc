import Verif.Proofs.Par
import Verif.Proofs.Walk
/-! The tactics `pv` (two values correspond) and `pw` (two programs correspond, using the lemmas `<name>_par`). -/
namespace SqlParse
variable {E : Par} {α β σ : Type}

theorem spanOfNode_par {k : Kind} {fs gs : List Ast} (h : ARel E (.node k fs) (.node k gs)) :
    PR E (vr E) (@spanOf Ast instToFAst (.node k fs)) (@spanOf Ast instToFAst (.node k gs)) :=
  spanOf_par (α := Ast) h

theorem some_vr [VRel α] {a b : α} (h : vr E a b) : vr E (some a) (some b) := h
theorem none_vr [VRel α] : vr E (none : Option α) none := trivial
theorem unsome_vr [VRel α] {a b : α} (h : vr E (some a) (some b)) : vr E a b := h
theorem pair_vr [VRel α] [VRel β] {a a' : α} {b b' : β} (h : vr E a a') (h' : vr E b b') : vr E (a, b) (a', b') := ⟨h, h'⟩
theorem fst_vr [VRel α] [VRel β] {p q : α × β} (h : vr E p q) : vr E p.1 q.1 := h.1
theorem snd_vr [VRel α] [VRel β] {p q : α × β} (h : vr E p q) : vr E p.2 q.2 := h.2
theorem cont_vr [VRel α] [VRel β] {a b : α} (h : vr E a b) : vr E (Step.cont a : Step α β) (.cont b) := h
theorem done_vr [VRel α] [VRel β] {a b : β} (h : vr E a b) : vr E (Step.done a : Step α β) (.done b) := h
theorem nil_vr [VRel α] : listR (vr E) ([] : List α) [] := trivial
theorem cons_vr [VRel α] {a b : α} {l m : List α} (h : vr E a b) (h' : listR (vr E) l m) : listR (vr E) (a :: l) (b :: m) := ⟨h, h'⟩
theorem app_vr [VRel α] {l l' m m' : List α} (h : listR (vr E) l m) (h' : listR (vr E) l' m') :
    listR (vr E) (l ++ l') (m ++ m') := listR_append h h'
theorem toList_vr [VRel α] {a b : Option α} (h : vr E a b) : listR (vr E) a.toList b.toList := by
  cases a <;> cases b <;> first | (cases h; done) | exact nil_vr | exact cons_vr h nil_vr
theorem nd_vr {k : Kind} {fs gs : List Ast} (hk : k.alike = true) (h : ARelL E fs gs) : vr E (Ast.node k fs) (.node k gs) := .node hk h
theorem ond_vr {k : Kind} {fs gs : List Ast} (hk : k.alike = true) (h : ARelL E fs gs) :
    vr E (OAst.mk (Ast.node k fs)) ⟨.node k gs⟩ := ARel.node hk h
theorem snd_vr' {k : Kind} {fs gs : List Ast} (hk : k.alike = true) (h : ARelL E fs gs) :
    vr E (SAst.mk (Ast.node k fs)) ⟨.node k gs⟩ := ARel.node hk h
theorem sast_vr {a b : Ast} (h : ARel E a b) : vr E (SAst.mk a) (SAst.mk b) := h
theorem fields_cons [ToF α] [VRel α] [ToFRel α] {a b : α} {l m : List Ast} (h : vr E a b) (hl : ARelL E l m) :
    ARelL E (toF a :: l) (toF b :: m) := .cons (toF_rel E h) hl
theorem rec_vr {v w : List Char} {s t : Span} (h : E.V v w) (hs : vr E s t) : vr E (Ast.ident v s) (.ident w t) := .ident h hs
theorem str_vr {v w : List Char} {s t : Span} (h : E.W v w) (hs : vr E s t) : vr E (Ast.sstring v s) (.sstring w t) := .sstring h hs
theorem ite_vr {c c' : Prop} [Decidable c] [Decidable c'] {Q : α → β → Prop} {a b : α} {a' b' : β} (hc : c ↔ c')
    (h1 : c → c' → Q a a') (h2 : ¬c → ¬c' → Q b b') : Q (if c then a else b) (if c' then a' else b') := by
  by_cases h : c
  · rw [if_pos h, if_pos (hc.1 h)]; exact h1 h (hc.1 h)
  · have h' : ¬c' := fun h' => h (hc.2 h')
    rw [if_neg h, if_neg h']; exact h2 h h'
theorem map_vr [VRel α] [VRel β] {a b : Option α} {f g : α → β} (h : vr E a b) (hf : ∀ x y, vr E x y → vr E (f x) (g y)) :
    vr E (a.map f) (b.map g) := by
  cases a <;> cases b <;> first | (cases h; done) | trivial | exact hf _ _ h
theorem getD_vr [VRel α] {a b : Option α} {x y : α} (h : vr E a b) (hx : vr E x y) : vr E (a.getD x) (b.getD y) := by
  cases a <;> cases b <;> first | (cases h; done) | exact hx | exact h
theorem zeroInt_vr : vr E ((0, ⟨0, 0⟩) : Nat × Span) (0, ⟨0, 0⟩) := ⟨rfl, sp_zero⟩
theorem span_mk_vr {a a' b b' : Span} (h : vr E a a') (h' : vr E b b') : vr E (⟨a.start, b.stop⟩ : Span) ⟨a'.start, b'.stop⟩ := ⟨h.1, h'.2⟩
theorem frags_nil_par : fragsR E [] [] := trivial
theorem frags_one_par {m : String} {s t : Span} (h : vr E s t) : fragsR E [(m, s)] [(m, t)] := ⟨⟨rfl, h⟩, trivial⟩

open Lean Meta Elab Tactic

private def runTac (g : MVarId) (tac : TSyntax `tactic) : TacticM (List MVarId) := do
  let gs ← Tactic.run g (evalTactic tac)
  return gs

private def tryTac (g : MVarId) (tac : TSyntax `tactic) : TacticM (Option (List MVarId)) := do
  let s ← saveState
  try
    let gs ← Term.withoutErrToSorry (withoutRecover (runTac g tac))
    return some gs
  catch _ =>
    restoreState s
    return none

private def closeTac (g : MVarId) (tac : TSyntax `tactic) : TacticM Bool := do
  let s ← saveState
  try
    let gs ← Term.withoutErrToSorry (withoutRecover (runTac g tac))
    unless gs.isEmpty do throwError "open"
    return true
  catch _ =>
    restoreState s
    return false

/-- weak head normal form, also for the components of pairs -/
partial def pnorm (e : Expr) : MetaM Expr := do
  let e ← whnfCore e
  if e.isAppOfArity ``Prod.fst 3 || e.isAppOfArity ``Prod.snd 3 then
    let x ← pnorm e.appArg!
    if x.isAppOfArity ``Prod.mk 4 then
      return ← pnorm (if e.isAppOf ``Prod.fst then x.getAppArgs[2]! else x.appArg!)
  return e

/-- The two related values of a hypothesis, with its kind: `vr E a b`, `E.tok a b`, `ARel E a b`, `listR R a b`, `optR R a b`. -/
def relArgs (ty : Expr) : Option (Expr × Expr) :=
  let n := ty.getAppNumArgs
  if n < 2 then none else
  match ty.getAppFn.constName? with
  | some ``VRel.vr | some ``ARel | some ``listR | some ``optR | some ``Par.tok | some ``TokR | some ``Par.dl | some ``Par.sp =>
    some (ty.appFn!.appArg!, ty.appArg!)
  | _ => none

/-- Take pairs apart and substitute equations in a new hypothesis `h` about related values. -/
partial def parHyp (g : MVarId) (h : FVarId) : TacticM MVarId := g.withContext do
  let ty ← instantiateMVars (← h.getType)
  let ty ← whnfR ty
  if ty.isAppOf ``And then
    let cs ← g.cases h
    let some c := cs[0]? | throwError "parHyp"
    let mut g := c.mvarId
    for f in c.fields.reverse do
      g ← parHyp g f.fvarId!
    return g
  if ty.isAppOfArity ``Eq 3 then
    let s ← saveState
    try
      let cs ← g.cases h
      match cs.toList with
      | [c] => return c.mvarId
      | _ => restoreState s; return g
    catch _ => restoreState s; return g
  if ty.isAppOfArity ``VRel.vr 5 then
    let α ← whnfR ty.getAppArgs[0]!
    let a ← whnfCore ty.appFn!.appArg!
    let b ← whnfCore ty.appArg!
    if α.isAppOfArity ``Prod 2 then
      let g0 := g
      let mut g := g0
      let mut h := h
      if a.isFVar || b.isFVar then
        let hn ← mkFreshUserName `h
        let (_, g1) ← g.revert #[h] true
        let mut g1 := g1
        if a.isFVar then
          let cs ← g1.cases a.fvarId!
          let some c := cs[0]? | throwError "parHyp cases"
          g1 := c.mvarId
        if b.isFVar then
          let cs ← g1.cases b.fvarId!
          let some c := cs[0]? | throwError "parHyp cases"
          g1 := c.mvarId
        let (h', g2) ← g1.intro hn
        h := h'
        g := g2
      g.withContext do
        let ty ← instantiateMVars (← h.getType)
        let a ← whnfCore ty.appFn!.appArg!
        let b ← whnfCore ty.appArg!
        unless a.isAppOfArity ``Prod.mk 4 && b.isAppOfArity ``Prod.mk 4 do return g
        let e := ty.getAppArgs[2]!
        let mk (x y : Expr) : MetaM Expr := do
          let t ← inferType x
          let inst ← synthInstance (← mkAppM ``VRel #[t])
          return mkAppN (mkConst ``VRel.vr) #[t, inst, e, x, y]
        let t1 ← mk a.getAppArgs[2]! b.getAppArgs[2]!
        let t2 ← mk a.appArg! b.appArg!
        let hv := mkFVar h
        let p1 ← mkAppM ``fst_vr #[hv]
        let p2 ← mkAppM ``snd_vr #[hv]
        let g ← g.assert (← mkFreshUserName `h) t1 p1
        let (h1, g) ← g.intro (← mkFreshUserName `h)
        let g ← g.assert (← mkFreshUserName `h) t2 p2
        let (h2, g) ← g.intro (← mkFreshUserName `h)
        let g ← g.clear h
        let g ← parHyp g h2
        parHyp g h1
    else if α.isConst && [``Nat, ``Bool, ``Unit, ``PUnit, ``Keyword, ``Dialect, ``Arguments, ``BinOp, ``UnOp].contains α.constName! then
      let g ← g.replaceLocalDeclDefEq h (← mkEq a b)
      if a.isFVar || b.isFVar then
        let s ← saveState
        try
          let cs ← g.cases h
          match cs.toList with
          | [c] => return c.mvarId
          | _ => restoreState s; return g
        catch _ => restoreState s; return g
      else return g
    else if α.isAppOfArity ``Option 1 && a.isAppOfArity ``Option.some 2 && b.isAppOfArity ``Option.some 2 then
      let e := ty.getAppArgs[2]!
      let t := α.appArg!
      let inst ← synthInstance (← mkAppM ``VRel #[t])
      let g ← g.replaceLocalDeclDefEq h (mkAppN (mkConst ``VRel.vr) #[t, inst, e, a.appArg!, b.appArg!])
      parHyp g h
    else return g
  else return g

/-- the tokens that a goal compares with -/
def eqTokens (e : Expr) : Array Expr := Id.run do
  let mut out : Array Expr := #[]
  let some _ := e.find? (fun _ => true) | return out
  let mut todo := #[e]
  while !todo.isEmpty do
    let x := todo.back!
    todo := todo.pop
    if x.isAppOfArity ``Eq 3 && x.appFn!.appFn!.appArg!.isConstOf ``Token then
      let c := x.appArg!
      if c.isConst && !out.contains c then out := out.push c
    for a in x.getAppArgs do todo := todo.push a
  return out

/-- Equations that follow from the hypotheses about related values. -/
def parFacts : TacticM (Array Expr) := withMainContext do
  let mut out := #[]
  let cs := eqTokens (← instantiateMVars (← getMainTarget)) ++ #[mkConst ``Token.rParen, mkConst ``Token.comma]
  for d in ← getLCtx do
    if d.isImplementationDetail then continue
    let ty ← whnfR (← instantiateMVars d.type)
    let some (a, _) := relArgs ty | continue
    let α ← whnfR (← inferType a)
    let h := mkFVar d.fvarId
    let add (n : Name) (out : Array Expr) : TacticM (Array Expr) := do
      try return out.push (← mkAppM n #[h]) catch _ => return out
    if α.isConstOf ``Token then
      for n in [``tok_isKw, ``tok_kw, ``tok_isStr] do out ← add n out
      try
        let e ← mkConstWithFreshMVarLevels ``tok_eq
        let (ms, _, _) ← forallMetaTelescope (← inferType e)
        -- E t u h
        if ← isDefEq ms[3]! h then
          for c in cs do
            let pf := mkAppN e (ms[:4].toArray ++ #[c, mkApp2 (mkConst ``rfl [1]) (mkConst ``Bool) (mkConst ``Bool.true)])
            out := out.push (← instantiateMVars pf)
      catch _ => pure ()
    else if α.isAppOfArity ``Option 1 then
      for n in [``vr_isSome, ``vr_isNone] do out ← add n out
    else if α.isAppOfArity ``List 1 then
      for n in [``vr_isEmpty, ``topExpr_vr] do out ← add n out
    else if α.isConstOf ``Ast then out ← add ``vr_kind out
  return out

attribute [simp] Token.noText

/-- proves that two conditions are equivalent -/
elab "pc" : tactic => do
  let g ← getMainGoal
  if ← closeTac g (← `(tactic| with_reducible exact Iff.rfl)) then return
  if ← closeTac g (← `(tactic| with_reducible rfl)) then return
  if ← closeTac g (← `(tactic| assumption)) then return
  let fs ← parFacts
  -- introduce the facts as hypotheses and simplify
  let mut g := g
  let mut hs := #[]
  for f in fs do
    let t ← g.withContext do instantiateMVars (← inferType f)
    let nm ← mkFreshUserName `fact
    let g' ← g.assert nm t f
    let (h, g') ← g'.intro nm
    g := g'
    hs := hs.push h
  let ids ← g.withContext do hs.mapM fun h => do
    let id := mkIdent (← h.getUserName)
    `(Lean.Parser.Tactic.simpLemma| $id:term)
  let gs ← runTac g (← `(tactic| (simp only [$ids,*, Token.noText, Token.isPlainWord, isRParen, isRParenComma, isOpclass, isBlockEnd, isCreatable]; done)))
  replaceMainGoal gs

/-- the hypothesis relating `x` -/
def findRel (g : MVarId) (x : FVarId) : MetaM (Option (FVarId × Expr)) := g.withContext do
  for d in ← getLCtx do
    if d.isImplementationDetail then continue
    let ty ← whnfR (← instantiateMVars d.type)
    let some (a, b) := relArgs ty | continue
    if a == .fvar x then return some (d.fvarId, b)
  return none

/-- Split a match on a related variable (or on the same term on both sides). -/
partial def splitMatch (g : MVarId) (p : Expr) : TacticM (List MVarId) := g.withContext do
  let some ma ← matchMatcherApp? p | throwError "splitMatch: {p}"
  for d in ma.discrs do
    let d ← pnorm d
    if d.isFVar then
      if let some (h, b) ← findRel g d.fvarId! then
        let α ← whnfR (← inferType d)
        if α.isConstOf ``Token then
          let cs ← g.cases h
          return cs.toList.map (·.mvarId)
        if b.isFVar then
          let hn ← mkFreshUserName `h
          let (_, g) ← g.revert #[h] true
          let c1 ← g.cases d.fvarId!
          let mut out := #[]
          for c in c1 do
            let b' := c.subst.apply b
            let c2 ← c.mvarId.cases b'.fvarId!
            for c' in c2 do
              let (h', g') ← c'.mvarId.intro hn
              if ← closeTac g' (← `(tactic| exact False.elim $(mkIdent hn))) then continue
              out := out.push (← parHyp g' h')
          return out.toList
  -- the same discriminant on both sides
  runTac g (← `(tactic| split))

mutual
partial def fieldsCore (g : MVarId) : TacticM (List MVarId) := g.withContext do
  let ty ← whnfR (← instantiateMVars (← g.getType))
  let a := ty.appFn!.appArg!
  let a ← whnfCore a
  if a.isAppOf ``List.nil then return ← g.apply (mkConst ``ARelL.nil)
  if a.isAppOf ``List.cons then
    let x := a.getAppArgs[1]!
    let l ← if x.isAppOf ``ToF.toF then pure ``fields_cons else pure ``ARelL.cons
    let gs ← g.apply (← mkConstWithFreshMVarLevels l) { newGoals := .nonDependentFirst }
    let mut out := #[]
    for x in gs do
      unless ← x.isAssigned do
        let xt ← whnfR (← instantiateMVars (← x.getType))
        if xt.isAppOf ``ARelL then out := out ++ (← fieldsCore x)
        else out := out ++ (← pvCore x)
    return out.toList
  if let some gs ← tryTac g (← `(tactic| assumption)) then return gs
  return [g]
partial def pvCore (g : MVarId) : TacticM (List MVarId) := g.withContext do
  if let some gs ← tryTac g (← `(tactic| with_reducible assumption)) then return gs
  let ty ← whnfR (← instantiateMVars (← g.getType))
  if ty.isForall then
    let (h, g) ← g.intro (← mkFreshUserName `x)
    let pr ← g.withContext do isProp (← h.getType)
    let g ← if pr then parHyp g h else pure g
    return ← pvCore g
  if ty.isAppOf ``Iff then return ← runTac g (← `(tactic| pc))
  if ty.isAppOf ``ARelL then return ← fieldsCore g
  if ty.isAppOf ``fragsR then
    if let some gs ← tryTac g (← `(tactic| exact frags_nil_par)) then return gs
    if let some gs ← tryTac g (← `(tactic| refine frags_one_par ?_)) then return (← gs.mapM pvCore).flatten
    return [g]
  if ty.isAppOf ``PR then return ← pwCore g
  let some (a0, b0) := relArgs ty |
    if let some gs ← tryTac g (← `(tactic| first | rfl | trivial | assumption)) then return gs
    if ty.isAppOf ``Eq then
      if let some gs ← tryTac g (← `(tactic| pc)) then return gs
    return [g]
  let a ← pnorm a0
  let b ← pnorm b0
  let g ← g.change (mkApp2 ty.appFn!.appFn! a b)
  if let some gs ← tryTac g (← `(tactic| with_reducible assumption)) then return gs
  if a == b then
    if let some gs ← tryTac g (← `(tactic| first | rfl | exact none_vr | exact nil_vr | exact Par.srefl _ _)) then return gs
  let all (gs : List MVarId) : TacticM (List MVarId) := do
    let mut out := #[]
    for x in gs do
      unless ← x.isAssigned do
        out := out ++ (← pvCore x)
    return out.toList
  let goA (l : Name) : TacticM (List MVarId) := do
    all (← g.apply (← mkConstWithFreshMVarLevels l) { newGoals := .nonDependentFirst })
  let node (l : Name) : TacticM (List MVarId) := do
    let gs ← g.apply (mkConst l) { newGoals := .nonDependentFirst }
    let mut out := #[]
    for x in gs do
      unless ← x.isAssigned do
        let xt ← instantiateMVars (← x.getType)
        if xt.isAppOf ``Eq then
          if let some gs ← tryTac x (← `(tactic| first | rfl | assumption)) then out := out ++ gs else out := out.push x
        else out := out ++ (← pvCore x)
    return out.toList
  match a.getAppFn.constName? with
  | some ``Ast.node => node ``nd_vr
  | some ``OAst.mk => node ``ond_vr
  | some ``SAst.mk =>
    if a.appArg!.isAppOf ``Ast.node then node ``snd_vr' else goA ``sast_vr
  | some ``Ast.ident => goA ``rec_vr
  | some ``Ast.sstring => goA ``str_vr
  | some ``Option.some => goA ``some_vr
  | some ``Option.none => goA ``none_vr
  | some ``Prod.mk => goA ``pair_vr
  | some ``Step.cont => goA ``cont_vr
  | some ``Step.done => goA ``done_vr
  | some ``List.nil => goA ``nil_vr
  | some ``List.cons => goA ``cons_vr
  | some ``HAppend.hAppend => goA ``app_vr
  | some ``Option.toList => goA ``toList_vr
  | some ``Option.map => goA ``map_vr
  | some ``Option.getD => goA ``getD_vr
  | some ``joinSpan => goA ``sp_join
  | some ``Span.mk =>
    if let some gs ← tryTac g (← `(tactic| exact sp_zero)) then return gs
    goA ``span_mk_vr
  | some ``Prod.fst => goA ``fst_vr
  | some ``Prod.snd => goA ``snd_vr
  | some ``ite => goA ``ite_vr
  | some n =>
    if (← getMatcherInfo? n).isSome then return ← all (← splitMatch g a)
    if let some gs ← tryTac g (← `(tactic| first | assumption | rfl | trivial)) then return gs
    let l := sfx n "_vr"
    if (← getEnv).contains l then return ← goA l
    return [g]
  | none =>
    if let some gs ← tryTac g (← `(tactic| first | assumption | rfl | trivial | (exact Par.stxt _ (by assumption)) | (exact Par.vtxt _ (by assumption)) | (exact Par.vstr _ (by assumption)) | exact Par.srefl _ _)) then return gs
    return [g]
partial def pwCore (g : MVarId) : TacticM (List MVarId) := g.withContext do
  let ty ← whnfR (← instantiateMVars (← g.getType))
  if ty.isForall then
    let (h, g) ← g.intro (← mkFreshUserName `x)
    let pr ← g.withContext do isProp (← h.getType)
    let g ← if pr then parHyp g h else pure g
    return ← pwCore g
  unless ty.isAppOfArity ``PR 6 do return ← pvCore g
  let args := ty.getAppArgs
  let p ← whnfCore args[4]!
  let q ← whnfCore args[5]!
  let g ← g.change (mkAppN ty.getAppFn ((args.set! 4 p).set! 5 q))
  let all (gs : List MVarId) : TacticM (List MVarId) := do
    let mut out := #[]
    for x in gs do
      unless ← x.isAssigned do
        out := out ++ (← pwCore x)
    return out.toList
  let goA (l : Name) : TacticM (List MVarId) := do
    all (← g.apply (← mkConstWithFreshMVarLevels l) { newGoals := .nonDependentFirst })
  let env ← getEnv
  let binder (bv bp : Name) (p1 : Expr) : TacticM (List MVarId) := do
    let p1 ← whnfCore p1
    if let some key ← progKey p1 then
      let l := sfx key "_par"
      if env.contains l then
        let gs ← g.apply (← mkConstWithFreshMVarLevels bp) { newGoals := .nonDependentFirst }
        match gs with
        | g1 :: g2 :: _ =>
          let s ← saveState
          try
            let l1 ← g1.apply (← mkConstWithFreshMVarLevels l) { newGoals := .nonDependentFirst }
            let mut out := #[]
            for x in l1 do
              unless ← x.isAssigned do out := out ++ (← pwCore x)
            return out.toList ++ (← pwCore g2)
          catch e =>
            restoreState s
            throw e
        | _ => throwError "bind"
    goA bv
  match p.getAppFn.constName? with
  | some ``Bind.bind => binder ``bindV_par ``bind_par p.getAppArgs[4]!
  | some ``Prog.bind => binder ``bindV_par ``bind'_par p.getAppArgs[2]!
  | some ``Pure.pure => goA ``pure_par
  | some ``Prog.ret => goA ``ret_par
  | some ``Prog.throw => goA ``throw_par
  | some ``Prog.panic => goA ``panic_par
  | some ``ite => goA ``ite_par
  | some n =>
    if (← getMatcherInfo? n).isSome then return ← all (← splitMatch g p)
    if let some gs ← tryTac g (← `(tactic| assumption)) then return gs
    if let some key ← progKey p then
      let l := sfx key "_par"
      if env.contains l then return ← goA l
    return [g]
  | none =>
    if let some gs ← tryTac g (← `(tactic| assumption)) then return gs
    return [g]
end

elab "pv" : tactic => do replaceMainGoal (← pvCore (← getMainGoal))
elab "pw" : tactic => do replaceMainGoal (← pwCore (← getMainGoal))

end SqlParse
