import Verif.Proofs.Term
/-! Termination of the parser's combinators, and the tactic `term`, which goes through a program. -/
namespace SqlParse
variable {m : Bool} {P : Token → Prop} {α β σ : Type} {D : α → Prop} {E : β → Prop}

/-- The result is a function of the result of a program. -/
theorem map_tm {p : Prog α} {g : α → β} (h : Tm m P p D) (hE : ∀ a, E (g a) → D a) : Tm m P (p >>= fun a => pure (g a)) E :=
  bind_gen (m' := fun _ => false) (E' := fun a b => ¬ D a ∧ E b) (D := D) (E := E) (f := fun a => pure (g a)) h
    (fun _ _ h => by cases h) (fun _ _ hd hb => ⟨hd, hb⟩) (fun a => pure_tm fun h => h.1 (hE a h.2))

theorem tryP_gen {p : Prog α} (h : Tm m P p D) : Tm m P (.tryP p) (fun o => ∃ a, o = some a ∧ D a) := by
  intro R n k s hR hs ht hl
  have h1 := h R n k s hR hs ht hl
  unfold runWith
  split
  · next heq =>
    rw [heq] at h1
    rintro ⟨a, h2, h3⟩
    cases h2
    exact h1 h3
  · rintro ⟨a, h2, h3⟩; cases h2
  · trivial
  · next heq => rw [heq] at h1; exact h1

theorem when_tm {c : Bool} {p : Prog Unit} (h : c = true → Tm m P p Bot) : Tm m P (Prog.when c p) Bot := by
  unfold Prog.when
  split
  · next hc => exact h hc
  · exact ret_tm id
theorem optMap_tm {o : Option α} {f : α → Prog β} (h : ∀ a, o = some a → Tm m P (f a) Bot) : Tm m P (optMap o f) Bot := by
  cases o with
  | none => exact ret_tm id
  | some a => exact (map_tm (E := Bot) (h a rfl) fun _ h => h)
theorem optMap_none {f : α → Prog β} : Tm m P (optMap none f) IsSome := ret_tm id
theorem optIf_tm {c : Bool} {p : Prog β} (h : c = true → Tm m P p Bot) : Tm m P (optIf c p) Bot := by
  unfold optIf
  split
  · next hc => exact (map_tm (E := Bot) (h hc) fun _ h => h)
  · exact ret_tm id

theorem recover_tm {e : Token → Bool} : Tm m P (recover e) Bot := by
  unfold recover
  refine loop_tm fun br => ?_
  refine curT_sbind fun t _ => ?_
  refine ite_tm (fun _ => pure_tm id) fun _ => ?_
  refine ite_tm (fun _ => throw_tm) fun ht => ?_
  refine delim_stay.bind fun d => ?_
  refine ite_tm (fun _ => throw_tm) fun _ => ?_
  exact bind_pr (next_pr (ne_ne ht)) fun _ => pure_tm id

theorem recoveredEnd_tm {msg : String} {e : Token → Bool} {ok : Bool} : Tm m P (recoveredEnd msg e ok) Bot :=
  bind_tm (when_tm fun _ => recover_tm) fun _ => curT_stay.bind fun _ => when_tm fun _ => expectedError_stay.bind fun _ => recover_tm

theorem recoveredAcc_tm {msg : String} {e : Token → Bool} {p : Prog (Bool × σ)} (h : Tm m P p Bot) :
    Tm m P (recoveredAcc msg e p) Bot := bind_tm h fun _ => bind_tm recoveredEnd_tm fun _ => pure_tm id

theorem recovered_tm {msg : String} {e : Token → Bool} {p : Prog α} (h : Tm m P p Bot) :
    Tm m P (recovered msg e p) Bot := bind_tm (tryP_tm h) fun _ => bind_tm recoveredEnd_tm fun _ => pure_tm id

theorem accLoop_tm {body : σ → Prog (Step σ σ)} {x : σ} (h : ∀ x, Tm m Top (body x) IsCont) : Tm m P (accLoop body x) Bot := by
  unfold accLoop
  refine loop_tm fun x => map_tm (tryP_gen (h x)) ?_
  intro a ha
  cases a with
  | none => exact ha.elim
  | some a =>
    cases a with
    | cont y => exact ⟨_, rfl, trivial⟩
    | done y => exact ha.elim

theorem sepLoop_tm {more : Prog Bool} {item : Prog α} (hm : Tm m Top more IsTrue) (hi : Tm m Top item Bot) :
    Tm m P (sepLoop more item) Bot := by
  unfold sepLoop
  refine loop_tm fun acc => bind_tm hi fun a => map_tm hm ?_
  intro b hb
  cases b with
  | false => exact hb.elim
  | true => exact rfl

/-- The item makes progress. -/
theorem sepLoop_tm' {more : Prog Bool} {item : Prog α} (hm : Tm true Top more Bot) (hi : Tm m Top item Top) :
    Tm m P (sepLoop more item) Bot := by
  unfold sepLoop
  exact loop_tm fun acc => bind_pr hi fun a => bind_tm hm fun b => pure_tm id

/-! Tokens -/
theorem ckw_pr {k : Keyword} : Tm m P (ckw k) Top := by
  unfold ckw
  refine cur_sbind fun t sp _ => ?_
  simp only
  split
  · refine ite_tm (fun _ => capsWarn_stay.bind fun _ => consume_pr ?_) fun _ => expectedFailure_tm
    rintro _ rfl h; cases h
  · exact expectedFailure_tm
theorem ckwsTail_tm {sp : Span} {ks : List Keyword} : Tm m P (ckwsTail sp ks) Bot := by
  induction ks generalizing sp m P with
  | nil => exact ret_tm id
  | cons k ks ih => exact bind_pr ckw_pr fun _ => ih
theorem ckws_pr {k : Keyword} {ks : List Keyword} : Tm m P (ckws k ks) Top := bind_pr ckw_pr fun _ => ckwsTail_tm
theorem skw_po {k : Keyword} : Tm m P (skw k) IsSome := by
  unfold skw
  refine cur_sbind fun t sp _ => ?_
  simp only
  split
  · refine ite_tm (fun _ => capsWarn_stay.bind fun _ => bind_pr (consume_pr ?_) fun _ => pure_tm id) fun _ => pure_tm id
    rintro _ rfl h; cases h
  · exact pure_tm id
theorem ctk_tm {t : Token} : Tm m P (ctk t) Bot :=
  curT_sbind fun _ _ => ite_tm (fun _ => consume_tm) fun _ => expectedFailure_tm
theorem ctk_pr' {t : Token} (h : t ≠ .eof) : Tm m P (ctk t) Top :=
  curT_sbind fun _ _ => ite_tm (fun ht => consume_pr (eq_ne ht h)) fun _ => expectedFailure_tm
theorem stk_po' {t : Token} (h : t ≠ .eof) : Tm m P (stk t) IsSome :=
  curT_sbind fun _ _ => ite_tm (fun ht => bind_pr (consume_pr (eq_ne ht h)) fun _ => pure_tm id) fun _ => pure_tm id
theorem skips_pb' {t : Token} (h : t ≠ .eof) : Tm m P (skips t) IsTrue := by
  refine map_tm (stk_po' h) ?_
  intro a ha
  cases a with
  | none => cases ha
  | some a => trivial
theorem commaList_tm {item : Prog α} (hi : Tm m Top item Bot) : Tm m P (commaList item) Bot :=
  sepLoop_tm (skips_pb' nofun) hi
theorem recList_tm {msg : String} {e : Token → Bool} {item : Prog α} (hi : Tm m Top item Bot) : Tm m P (recList msg e item) Bot := by
  unfold recList
  refine loop_tm fun acc => bind_tm (recovered_tm hi) fun r => map_tm (skips_pb' nofun) ?_
  intro b hb
  cases b with
  | false => exact hb.elim
  | true => exact rfl
theorem manyOpt_tm {p : Prog (Option α)} (h : Tm m Top p IsSome) : Tm m P (manyOpt p) Bot := by
  unfold manyOpt
  refine loop_tm fun acc => map_tm h ?_
  intro b hb
  cases b with
  | none => exact hb.elim
  | some a => trivial
theorem ident_pr : Tm m P ident Top := by
  unfold ident
  refine cur_sbind fun t sp _ => ?_
  simp only
  split
  · refine isPg_stay.bind fun pg => ?_
    refine Stay.bind (Stay.ite err_stay (Stay.ite issueIf_stay (when_stay err_stay))) fun _ => ?_
    refine bind_pr (next_pr ?_) fun _ => pure_tm id
    rintro _ rfl h; cases h
  · refine isPg_stay.bind fun pg => ite_tm (fun _ => bind_pr (next_pr ?_) fun _ => pure_tm id) fun _ => expectedFailure_tm
    rintro _ rfl h; cases h
  · exact expectedFailure_tm
theorem tokenToIdent_stay {t : Token} {sp : Span} : Stay (tokenToIdent t sp) := by
  unfold tokenToIdent
  split
  · exact Stay.seq (Stay.ite err_stay (Stay.ite issueIf_stay Stay.ret)) fun _ => Stay.pure
  · exact expectedFailure_stay
theorem strVal_ne {t : Token} {v : List Char} (h : t.strVal? = some v) : ∀ t', t' = t → t' ≠ .eof := by
  rintro _ rfl rfl; cases h
theorem strPair_pr : Tm m P strPair Top := by
  unfold strPair
  refine cur_sbind fun t sp _ => ?_
  simp only
  split
  · next v hv =>
    refine bind_pr (next_pr (strVal_ne hv)) fun _ => loop_tm fun ab => ?_
    refine cur_sbind fun t' sp' _ => ?_
    simp only
    split
    · next v' hv' => exact bind_pr (next_pr (strVal_ne hv')) fun _ => pure_tm id
    · exact pure_tm id
  · exact expectedFailure_tm
theorem string_pr : Tm m P string Top := bind_pr strPair_pr fun _ => pure_tm id
theorem int_pr {max : Nat} : Tm m P (int max) Top := by
  unfold int
  refine cur_sbind fun t sp _ => ?_
  simp only
  split
  · refine (when_stay err_stay).bind fun _ => bind_pr (next_pr ?_) fun _ => pure_tm id
    rintro _ rfl h; cases h
  · exact expectedFailure_tm
theorem float_pr : Tm m P float Top := by
  unfold float
  refine cur_sbind fun t sp _ => ?_
  simp only
  split
  · refine bind_pr (next_pr ?_) fun _ => pure_tm id
    rintro _ rfl h; cases h
  · exact expectedFailure_tm
theorem qualifiedName_pr : Tm m P qualifiedName Top := by
  unfold qualifiedName
  refine bind_pr ident_pr fun i => loop_tm fun x => ?_
  exact bind_po (stk_po' nofun) (fun _ => bind_pr ident_pr fun _ => pure_tm id) (pure_tm id)
theorem kwNode_po {tbl : List (Keyword × Kind)} : Tm m P (kwNode tbl) IsSome := by
  refine curT_sbind fun t _ => ?_
  split
  · exact bind_pr ckw_pr fun _ => pure_tm id
  · exact pure_tm id
/-- A table without the keyword of tokens that are no words. -/
theorem consNode_po {tbl : List (Keyword × Kind)} (h : tableFind .NOT_A_KEYWORD tbl = none) : Tm m P (consNode tbl) IsSome := by
  refine curT_sbind fun t _ => ?_
  split
  · next K hK =>
    refine bind_pr (consume_pr ?_) fun _ => pure_tm id
    rintro _ rfl rfl
    rw [show Token.kw .eof = .NOT_A_KEYWORD from rfl, h] at hK
    cases hK
  · exact pure_tm id

theorem known_ne {t : Token} (h : ∀ t, P t → t ≠ .eof) (hp : P t) : ∀ t', t' = t → t' ≠ .eof := by
  rintro _ rfl; exact h _ hp
theorem tableFind_ne {tbl : List (Keyword × Kind)} {t : Token} {K : Kind} (hK : tableFind t.kw tbl = some K)
    (h : tableFind .NOT_A_KEYWORD tbl = none) : ∀ t', t' = t → t' ≠ .eof := by
  rintro _ rfl rfl
  rw [show Token.kw .eof = .NOT_A_KEYWORD from rfl, h] at hK
  cases hK

/-- the token is not the end of the input -/
macro "neof" : tactic => `(tactic| first
  | assumption
  | exact isKw_ne (by assumption)
  | (refine eq_ne (by assumption) ?_; intro h; cases h; done)
  | exact ne_ne (by assumption)
  | exact known_ne (by assumption) (by assumption)
  | exact tableFind_ne (by assumption) rfl
  | (refine eq_ne rfl ?_; intro h; cases h; done)
  | (intro _ h1 h2; subst h1; subst h2; simp_all [Token.isKw]))

/-- nothing is consumed -/
macro "stay" : tactic => `(tactic| repeat (first
  | exact Stay.pure | exact Stay.ret | exact Stay.throw | exact Stay.panic
  | exact cur_stay | exact curT_stay | exact curS_stay | exact err_stay | exact warn_stay | exact issueIf_stay
  | exact dialect_stay | exact isPg_stay | exact isMaria_stay | exact isSqlite_stay | exact delim_stay
  | exact setDelim_stay | exact permit_stay | exact setPermit_stay | exact arguments_stay | exact listHack_stay
  | exact expectedError_stay | exact expectedFailure_stay | exact errHere_stay | exact spanOf_stay | exact orExpected_stay
  | exact capsWarn_stay | exact tokenToIdent_stay
  | refine when_stay ?_ | refine Stay.seq ?_ (fun _ => ?_) | refine Stay.ite ?_ ?_ | split))

/-- the result is not one that needs progress -/
macro "noprog" : tactic => `(tactic| first
  | exact id
  | exact (fun h => h.elim)
  | exact (fun h => Bool.noConfusion h)
  | (split <;> first | exact id | exact (fun h => h.elim)))

open Lean Meta Elab Tactic

private def runTac (g : MVarId) (tac : TSyntax `tactic) : TacticM (List MVarId) := do
  let gs ← Tactic.run g (evalTactic tac)
  return gs

private def tryTac (g : MVarId) (tac : TSyntax `tactic) : TacticM (Option (List MVarId)) := do
  let s ← saveState
  try
    let gs ← Term.withoutErrToSorry (withoutRecover (runTac g tac))
    return some gs
  catch _ =>
    restoreState s
    return none

/-- Apply a rule whose first goal must be closed by a tactic. -/
private def closing (g : MVarId) (rule tac : TSyntax `tactic) : TacticM (Option (List MVarId)) := do
  let s ← saveState
  try
    let gs ← Term.withoutErrToSorry (withoutRecover (runTac g rule))
    match gs with
    | x :: gs =>
      let r ← Term.withoutErrToSorry (withoutRecover (runTac x tac))
      unless r.isEmpty do throwError "open"
      return some gs
    | [] => return some []
  catch _ =>
    restoreState s
    return none

/-- `true` when the hypothesis is worth keeping: it mentions the end of the input -/
private def mentionsEof (e : Expr) : Bool := (e.find? fun x => x.isConstOf ``Token.eof).isSome

partial def termCore (g : MVarId) : TacticM (List MVarId) := g.withContext do
  let ty ← instantiateMVars (← g.getType)
  let ty ← whnfR ty
  if ty.isForall && ty.getForallBody.isAppOf ``Tm then
    let (h, g) ← g.intro (← mkFreshUserName `x)
    let g ← g.withContext do
      let ht ← whnfR (← instantiateMVars (← h.getType))
      if (ht.isAppOf ``Not || ht.isArrow) && !mentionsEof ht then (try g.clear h catch _ => pure g) else pure g
    return ← termCore g
  unless ty.isAppOf ``Tm do
    if let some [] ← tryTac g (← `(tactic| rfl)) then return []
    if let some [] ← tryTac g (← `(tactic| neof)) then return []
    if let some [] ← tryTac g (← `(tactic| (intro h; cases h))) then return []
    return [g]
  let args := ty.getAppArgs
  -- α m P p D
  let p ← whnfCore args[3]!
  let m ← whnfR args[1]!
  let isBot := args[4]!.isAppOf ``Bot
  let fin := isBot && m.isConstOf ``Bool.true
  let g ← g.change (mkAppN ty.getAppFn (args.set! 3 p))
  let many (gs : List MVarId) : TacticM (List MVarId) := do
    let mut out := #[]
    for x in gs do
      unless ← x.isAssigned do
        out := out ++ (← termCore x)
    return out.toList
  let go (tac : TSyntax `tactic) : TacticM (List MVarId) := do many (← runTac g tac)
  let env ← getEnv
  match p.getAppFn.constName? with
  | some ``Bind.bind =>
    let p1 ← whnfCore p.getAppArgs[4]!
    let key? ← progKey p1
    let key := key?.getD `none
    let has (s : String) : Option Ident := if env.contains (sfx key s) then some (mkIdent (sfx key s)) else none
    if let some l := has "_sbind" then
      return ← many (← g.apply (mkConst l.getId))
    if key == ``consume || key == ``next || key == `SqlParse.takeArg || key == `SqlParse.stdin then
      let l := mkIdent (sfx key "_pr")
      if let some gs ← closing g (← `(tactic| refine bind_pr ($l ?_) ?_)) (← `(tactic| neof)) then return ← many gs
      let l := mkIdent (sfx key "_tm")
      return ← go (← `(tactic| refine bind_tm $l ?_))
    if let some l := has "_stay" then
      if let some gs ← tryTac g (← `(tactic| refine Stay.bind $l ?_)) then return ← many gs
    if let some l := has "_pr" then
      if let some gs ← tryTac g (← `(tactic| refine bind_pr $l ?_)) then return ← many gs
      if let some gs ← closing g (← `(tactic| refine bind_pr ($l ?_) ?_)) (← `(tactic| neof)) then return ← many gs
      if let some gs ← tryTac g (← `(tactic| refine bind_pr ($l ?_) ?_)) then return ← many gs
    if let some l := has "_pr'" then
      if let some gs ← tryTac g (← `(tactic| refine bind_pr ($l nofun) ?_)) then return ← many gs
    if let some l := has "_po" then
      if fin then
        if let some gs ← tryTac g (← `(tactic| refine bind_tm (Tm.bot $l) ?_)) then return ← many gs
        if let some gs ← tryTac g (← `(tactic| refine bind_tm (Tm.bot ($l rfl)) ?_)) then return ← many gs
      else
        if let some gs ← tryTac g (← `(tactic| refine bind_po $l ?_ ?_)) then return ← many gs
        if let some gs ← tryTac g (← `(tactic| refine bind_po ($l rfl) ?_ ?_)) then return ← many gs
    if let some l := has "_po'" then
      if fin then
        if let some gs ← tryTac g (← `(tactic| refine bind_tm (Tm.bot ($l nofun)) ?_)) then return ← many gs
      else
        if let some gs ← tryTac g (← `(tactic| refine bind_po ($l nofun) ?_ ?_)) then return ← many gs
    if let some l := has "_pb'" then
      if fin then
        if let some gs ← tryTac g (← `(tactic| refine bind_tm (Tm.bot ($l nofun)) ?_)) then return ← many gs
      else
        if let some gs ← tryTac g (← `(tactic| refine bind_pb ($l nofun) ?_ ?_)) then return ← many gs
    let isC := p1.isAppOf ``ite || (← match p1.getAppFn.constName? with | some n => pure (← getMatcherInfo? n).isSome | none => pure false)
    if isC || key == `SqlParse.when then
      if let some gs ← closing g (← `(tactic| refine Stay.bind ?_ ?_)) (← `(tactic| stay)) then return ← many gs
    if isC && !fin then
      let st ← saveState
      let r? ← (try
        match ← runTac g (← `(tactic| refine bind_pr ?_ ?_)) with
        | x :: gs =>
          let r ← termCore x
          unless r.isEmpty do throwError "open"
          pure (some gs)
        | [] => pure none
        catch _ => restoreState st; pure none)
      if let some gs := r? then return ← many gs
      restoreState st
    go (← `(tactic| refine bind_tm ?_ ?_))
  | some ``Pure.pure => go (← `(tactic| exact pure_tm (by noprog)))
  | some ``Prog.ret => go (← `(tactic| exact ret_tm (by noprog)))
  | some ``ite => go (← `(tactic| refine ite_tm ?_ ?_))
  | n? =>
    let isM ← match n? with
      | some n => pure (← getMatcherInfo? n).isSome
      | none => pure false
    if isM then do
      many (← runTac g (← `(tactic| split)))
    else
      if let some gs ← tryTac g (← `(tactic| assumption)) then return gs
      if let some gs ← tryTac g (← `(tactic| exact Tm.at (by assumption))) then return gs
      if let some gs ← tryTac g (← `(tactic| exact Tm.bot (by assumption))) then return gs
      if let some key ← progKey p then
        let has (s : String) : Option Ident := if env.contains (sfx key s) then some (mkIdent (sfx key s)) else none
        if let some l := has "_pr" then
          if isBot then
            if let some gs ← tryTac g (← `(tactic| refine Tm.bot $l)) then return ← many gs
            if let some gs ← tryTac g (← `(tactic| refine Tm.bot ($l ?_))) then return ← many gs
          else
            if let some gs ← tryTac g (← `(tactic| refine Tm.weaken $l (fun _ h => h) (fun _ _ => trivial))) then return ← many gs
            if let some gs ← tryTac g (← `(tactic| refine Tm.weaken ($l ?_) (fun _ h => h) (fun _ _ => trivial))) then return ← many gs
            if let some gs ← tryTac g (← `(tactic| refine Tm.weaken ($l ?_ ?_) (fun _ h => h) (fun _ _ => trivial))) then return ← many gs
        if let some l := has "_pr'" then
          if let some gs ← tryTac g (← `(tactic| refine Tm.weaken ($l nofun) (fun _ h => h) (fun _ _ => trivial))) then return ← many gs
        if let some l := has "_po" then
          if isBot then
            if let some gs ← tryTac g (← `(tactic| refine Tm.bot $l)) then return ← many gs
            if let some gs ← tryTac g (← `(tactic| refine Tm.bot ($l rfl))) then return ← many gs
          else
            if let some gs ← tryTac g (← `(tactic| refine $l)) then return ← many gs
            if let some gs ← tryTac g (← `(tactic| refine ($l rfl))) then return ← many gs
        if let some l := has "_pb'" then
          if isBot then
            if let some gs ← tryTac g (← `(tactic| refine Tm.bot ($l nofun))) then return ← many gs
          else
            if let some gs ← tryTac g (← `(tactic| refine $l nofun)) then return ← many gs
        if key == ``optMap then
          if let some gs ← tryTac g (← `(tactic| exact optMap_none)) then return gs
        if let some l := has "_tm" then
          return ← many (← g.apply (mkConst l.getId))
        if let some l := has "_stay" then
          if let some gs ← tryTac g (← `(tactic| exact Stay.tm $l)) then return gs
      return [g]

theorem Prog.throw_tm {α : Type} {D : α → Prop} : Tm m P (.throw : Prog α) D := SqlParse.throw_tm
theorem Prog.panic_tm {α : Type} {D : α → Prop} {msg : String} : Tm m P (.panic msg : Prog α) D := SqlParse.panic_tm

elab "term" : tactic => do
  let g ← getMainGoal
  let gs ← termCore g
  replaceMainGoal gs

theorem callExpression_tm {b : Bool} : Tm true P (.call (.expression b)) Bot := call_tm
theorem callCompoundQuery_tm : Tm true P (.call .compoundQuery) Bot := call_tm
theorem callStatement_tm : Tm true P (.call .statement) Bot := call_tm
theorem expr_tm : Tm true P expr Bot := call_tm

end SqlParse
