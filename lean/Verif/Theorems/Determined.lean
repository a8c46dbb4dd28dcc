import Verif.Theorems.Termination
/-! The rounds of Spec/Script.lean determine what `parse_statements` does: C01 (when it does not return), C41. -/
namespace SqlParse
variable {chk : Bool} {src : List Char} {old : List Issue} {opts : Opts} {α β σ : Type}

/-! ### Runs that finish, with some fuel -/

def Leads (p : Prog α) (t : St) (o : Out α) : Prop := o ≠ .oof ∧ ∃ n, p.run n t = o

theorem Leads.at {p : Prog α} {t : St} {o : Out α} (h : Leads p t o) (n : Nat) : OutLe (p.run n t) o := by
  obtain ⟨h0, m, h⟩ := h
  rcases Nat.le_total n m with hn | hn
  · have := run_le hn p t
    rwa [h] at this
  · have := run_le hn p t
    rw [h] at this
    rcases this with h1 | h1
    · exact absurd h1 h0
    · exact .inr h1.symm

theorem Leads.mono {p : Prog α} {t : St} {o : Out α} (h : Leads p t o) : ∃ n, ∀ m, n ≤ m → p.run m t = o := by
  obtain ⟨h0, n, h⟩ := h
  refine ⟨n, fun m hm => ?_⟩
  have := run_le hm p t
  rw [h] at this
  rcases this with h1 | h1
  · exact absurd h1 h0
  · exact h1.symm

theorem Leads.bind {p : Prog α} {f : α → Prog β} {t t1 : St} {a : α} {o : Out β} (h : Leads p t (.ok a t1)) (hf : Leads (f a) t1 o) :
    Leads (p >>= f) t o := by
  obtain ⟨n, h⟩ := h.mono
  have h0 := hf.1
  obtain ⟨m, hf⟩ := hf.mono
  refine ⟨h0, max n m, ?_⟩
  have h1 := h (max n m) (Nat.le_max_left ..)
  have h2 := hf (max n m) (Nat.le_max_right ..)
  exact (runWith_bind h1).trans h2

theorem Leads.bindErr {p : Prog α} {f : α → Prog β} {t t1 : St} (h : Leads p t (.err t1)) : Leads (p >>= f) t (.err t1) := by
  obtain ⟨h0, n, h⟩ := h
  exact ⟨nofun, n, runWith_bind_err h⟩

theorem Leads.ret {a : α} {t : St} : Leads (pure a : Prog α) t (.ok a t) := ⟨nofun, 0, rfl⟩

theorem Leads.tryOk {p : Prog α} {t t1 : St} {a : α} (h : Leads p t (.ok a t1)) : Leads (.tryP p) t (.ok (some a) t1) := by
  obtain ⟨-, n, h⟩ := h
  refine ⟨nofun, n, ?_⟩
  show runWith (runFn n) n (.tryP p) t = _
  unfold runWith
  rw [show runWith (runFn n) n p t = _ from h]

theorem Leads.tryErr {p : Prog α} {t t1 : St} (h : Leads p t (.err t1)) : Leads (.tryP p) t (.ok none t1) := by
  obtain ⟨-, n, h⟩ := h
  refine ⟨nofun, n, ?_⟩
  show runWith (runFn n) n (.tryP p) t = _
  unfold runWith
  rw [show runWith (runFn n) n p t = _ from h]

theorem Leads.loopCont {body : σ → Prog (Step σ β)} {x y : σ} {t t1 : St} {o : Out β} (h : Leads (body x) t (.ok (.cont y) t1))
    (hl : Leads (.loop body y) t1 o) : Leads (.loop body x) t o := by
  obtain ⟨n, h⟩ := h.mono
  have h0 := hl.1
  obtain ⟨m, hl⟩ := hl.mono
  refine ⟨h0, max n m + 1, ?_⟩
  have h1 := h (max n m + 1) (by omega)
  have h2 := hl (max n m) (by omega)
  have h3 : OutLe (loopN (fun x s => runWith (runFn (max n m)) (max n m) (body x) s) (max n m) y t1)
      (loopN (fun x s => runWith (runFn (max n m + 1)) (max n m + 1) (body x) s) (max n m) y t1) :=
    loopN_le (fun x s => runWith_le (runFn_le (by omega)) (by omega) (body x) s) (Nat.le_refl _) y t1
  have h2 : loopN (fun x s => runWith (runFn (max n m)) (max n m) (body x) s) (max n m) y t1 = o := h2
  rw [h2] at h3
  rcases h3 with h3 | h3
  · exact absurd h3 h0
  show loopN (fun x s => runWith (runFn (max n m + 1)) (max n m + 1) (body x) s) (max n m + 1) x t = o
  unfold loopN
  rw [show runWith (runFn (max n m + 1)) (max n m + 1) (body x) t = _ from h1]
  exact h3.symm

theorem Leads.loopDone {body : σ → Prog (Step σ β)} {x : σ} {t t1 : St} {b : β} (h : Leads (body x) t (.ok (.done b) t1)) :
    Leads (.loop body x) t (.ok b t1) := by
  obtain ⟨n, h⟩ := h.mono
  refine ⟨nofun, n + 1, ?_⟩
  show loopN (fun x s => runWith (runFn (n + 1)) (n + 1) (body x) s) (n + 1) x t = _
  unfold loopN
  rw [show runWith (runFn (n + 1)) (n + 1) (body x) t = _ from h (n + 1) (by omega)]

/-- A program that never finishes. -/
def Stuck (p : Prog α) (t : St) : Prop := ∀ n, p.run n t = .oof

theorem Stuck.bind {p : Prog α} {f : α → Prog β} {t : St} (h : Stuck p t) : Stuck (p >>= f) t := by
  intro n
  show runWith (runFn n) n (.bind p f) t = _
  unfold runWith
  rw [show runWith (runFn n) n p t = _ from h n]

theorem Stuck.loop {body : σ → Prog (Step σ β)} {x : σ} {t : St} (h : Stuck (body x) t) : Stuck (.loop body x) t := by
  intro n
  show loopN (fun x s => runWith (runFn n) n (body x) s) n x t = _
  cases n with
  | zero => rfl
  | succ n =>
    unfold loopN
    rw [show runWith (runFn (n + 1)) (n + 1) (body x) t = _ from h (n + 1)]

theorem Stuck.loopCont {body : σ → Prog (Step σ β)} {x y : σ} {t t1 : St} (h : Leads (body x) t (.ok (.cont y) t1))
    (hl : Stuck (.loop body y) t1) : Stuck (.loop body x) t := by
  intro n
  show loopN (fun x s => runWith (runFn n) n (body x) s) n x t = _
  cases n with
  | zero => rfl
  | succ n =>
    unfold loopN
    rcases h.at (n + 1) with h1 | h1
    · rw [show runWith (runFn (n + 1)) (n + 1) (body x) t = _ from h1]
    · rw [show runWith (runFn (n + 1)) (n + 1) (body x) t = _ from h1]
      have h2 : OutLe (loopN (fun x s => runWith (runFn (n + 1)) (n + 1) (body x) s) n y t1)
          (loopN (fun x s => runWith (runFn (n + 1)) (n + 1) (body x) s) (n + 1) y t1) :=
        loopN_le (fun _ _ => .refl _) (by omega) y t1
      rw [show loopN (fun x s => runWith (runFn (n + 1)) (n + 1) (body x) s) (n + 1) y t1 = _ from hl (n + 1)] at h2
      exact h2.elim id id

/-- A program that starts with `p`, which finishes or not, and may start with a first step. -/
theorem stuck_of_le {p q : Prog α} {t u : St} (h : ∀ n, OutLe (p.run n t) (q.run n u)) (hq : Stuck q u) : Stuck p t := by
  intro n
  have := h n
  rw [hq n] at this
  exact this.elim id id

/-! ### Steps -/

theorem leads_next {t t' : St} (h : Advance t t') : Leads next t (.ok () t') := ⟨nofun, 0, h⟩

theorem leads_consume {t t' : St} (h : Advance t t') : Leads consume t (.ok t.span t') :=
  Leads.bind (p := curS) ⟨nofun, 0, rfl⟩ (Leads.bind (leads_next h) .ret)

theorem leads_expectedError {t t' : St} {m : Wanted} (h : Reports .error (.expected m) t t') : Leads (expectedError m) t (.ok () t') :=
  Leads.bind (p := curS) ⟨nofun, 0, rfl⟩ ⟨nofun, 0, issue_reports.2 h⟩

theorem leads_skw {k : Keyword} {t t1 t' : St} (hk : t.token.isKw k = true) (hn : CapsNote t t1) (ha : Advance t1 t') :
    ∃ sp, Leads (skw k) t (.ok (some sp) t') := by
  obtain ⟨v, hv⟩ := isKw_iff hk
  have hc : Leads (capsWarn v t.span) t (.ok () t1) := by
    unfold CapsNote at hn
    rw [hv, inCapitals_eq] at hn
    unfold capsWarn Prog.when
    split at hn
    · next h =>
      rw [if_pos (by simpa using h.2)]
      refine ⟨nofun, 0, ?_⟩
      show (if t.opts.warnCaps then t.issue .warning (WarnFlag.msg v .caps) t.span [] else .ok () t) = _
      rw [if_pos h.1]
      exact issue_reports.2 hn
    · next h =>
      subst hn
      split
      · next h0 =>
        refine ⟨nofun, 0, ?_⟩
        show (if t1.opts.warnCaps then t1.issue .warning (WarnFlag.msg v .caps) t1.span [] else .ok () t1) = _
        rw [if_neg (fun e => h ⟨e, by simpa using h0⟩)]
      · exact .ret
  refine ⟨t1.span, Leads.bind (p := cur) (a := (t.token, t.span)) (t1 := t) ⟨nofun, 0, rfl⟩ ?_⟩
  rw [hv]
  show Leads (if k = k then (capsWarn v t.span >>= fun _ => consume >>= fun s => pure (some s)) else pure none) t _
  rw [if_pos rfl]
  exact hc.bind ((leads_consume ha).bind .ret)

theorem leads_skw_none {k : Keyword} {t : St} (hk : t.token.isKw k = false) : Leads (skw k) t (.ok none t) := by
  refine Leads.bind (p := cur) (a := (t.token, t.span)) (t1 := t) ⟨nofun, 0, rfl⟩ ?_
  show Leads (match t.token with
    | .ident v k' => if k' = k then (capsWarn v t.span >>= fun _ => consume >>= fun s => pure (some s)) else pure none
    | _ => pure none) t _
  split
  · next v k' hv =>
    rw [hv] at hk
    rw [if_neg (by simpa [Token.isKw] using hk)]
    exact .ret
  · exact .ret

def skipBody : Prog (Step Unit Bool) := do
  let t ← curT
  let d ← Prog.op .delim
  if t = d then do
    let _ ← consume
    return .cont ()
  else return .done (decide (t = .eof))

theorem leads_skipDelims_here {t : St} (h : t.token ≠ t.delim) : Leads skipDelims t (.ok (decide (t.token = .eof)) t) := by
  refine Leads.loopDone ?_
  refine Leads.bind (p := curT) (a := t.token) (t1 := t) ⟨nofun, 0, rfl⟩ (Leads.bind (p := .op .delim) (a := t.delim) (t1 := t) ⟨nofun, 0, rfl⟩ ?_)
  rw [if_neg h]
  exact .ret

theorem leads_skipDelims_step {t t' : St} (h : t.token = t.delim) (ha : Advance t t') :
    Leads skipBody t (.ok (.cont ()) t') := by
  refine Leads.bind (p := curT) (a := t.token) (t1 := t) ⟨nofun, 0, rfl⟩ (Leads.bind (p := .op .delim) (a := t.delim) (t1 := t) ⟨nofun, 0, rfl⟩ ?_)
  rw [if_pos h]
  exact (leads_consume ha).bind .ret

theorem skipDelims_eq (n : Nat) (t : St) :
    skipDelims.run n t = loopN (fun (_ : Unit) s => runWith (runFn n) n skipBody s) n () t := rfl

theorem skipDelims_le {t t' : St} (h : t.token = t.delim) (ha : Advance t t') (n : Nat) :
    OutLe (skipDelims.run n t) (skipDelims.run n t') := by
  rw [skipDelims_eq, skipDelims_eq]
  cases n with
  | zero => exact .inl rfl
  | succ n =>
    have h2 : OutLe (loopN (fun (_ : Unit) s => runWith (runFn (n + 1)) (n + 1) skipBody s) n () t')
        (loopN (fun (_ : Unit) s => runWith (runFn (n + 1)) (n + 1) skipBody s) (n + 1) () t') :=
      loopN_le (fun _ _ => .refl _) (by omega) () t'
    conv => lhs; unfold loopN
    rcases (leads_skipDelims_step h ha).at (n + 1) with h1 | h1
    · rw [show runWith (runFn (n + 1)) (n + 1) skipBody t = _ from h1]
      exact .inl rfl
    · rw [show runWith (runFn (n + 1)) (n + 1) skipBody t = _ from h1]
      exact h2

theorem bind_le {p : Prog α} {f : α → Prog β} {t u : St} {n : Nat} (h : OutLe (p.run n t) (p.run n u)) :
    OutLe ((p >>= f).run n t) ((p >>= f).run n u) := by
  show OutLe (runWith (runFn n) n (.bind p f) t) (runWith (runFn n) n (.bind p f) u)
  unfold runWith
  rcases h with h | h
  · rw [show runWith (runFn n) n p t = _ from h]; exact .inl rfl
  · rw [show runWith (runFn n) n p t = _ from h]; exact .refl _

theorem loop_le {body : σ → Prog (Step σ β)} {x : σ} {t u : St} {n : Nat} (h : OutLe ((body x).run n t) ((body x).run n u)) :
    OutLe ((Prog.loop body x).run n t) ((Prog.loop body x).run n u) := by
  show OutLe (loopN (fun x s => runWith (runFn n) n (body x) s) n x t) (loopN (fun x s => runWith (runFn n) n (body x) s) n x u)
  cases n with
  | zero => exact .inl rfl
  | succ n =>
    unfold loopN
    rcases h with h | h
    · rw [show runWith (runFn (n + 1)) (n + 1) (body x) t = _ from h]; exact .inl rfl
    · rw [show runWith (runFn (n + 1)) (n + 1) (body x) t = _ from h]; exact .refl _

theorem leads_bind_inv {p : Prog α} {f : α → Prog β} {t t2 : St} {b : β} (h : Leads (p >>= f) t (.ok b t2)) :
    ∃ a t1, Leads p t (.ok a t1) ∧ Leads (f a) t1 (.ok b t2) := by
  obtain ⟨-, n, h⟩ := h
  obtain ⟨a, t1, h1, h2⟩ := bind_run h
  exact ⟨a, t1, ⟨nofun, n, h1⟩, nofun, n, h2⟩

/-- Delimiters are skipped at the beginning of a round. -/
theorem leads_skip {acc : List SAst} {t t' t2 : St} {r : Step (List SAst) (List SAst)} (h : t.token = t.delim) (ha : Advance t t')
    (hg : Leads (statementsStep acc) t' (.ok r t2)) : Leads (statementsStep acc) t (.ok r t2) := by
  obtain ⟨b, t1, h1, h2⟩ := leads_bind_inv hg
  exact Leads.bind (Leads.loopCont (leads_skipDelims_step h ha) h1) h2

theorem leads_parses {s s' : St} {v : SAst} (h : ParsesTo s v s') : Leads (.tryP topStatement) s (.ok (some v) s') := by
  obtain ⟨n, h⟩ := h
  exact .tryOk (Leads.bind (p := .call .statement) ⟨nofun, n, h⟩ .ret)

theorem leads_fails {s s' : St} (h : FailsTo s s') : Leads (.tryP topStatement) s (.ok none s') := by
  obtain ⟨n, h⟩ := h
  rcases h with h | ⟨s1, h, hl⟩
  · exact .tryErr (.bindErr ⟨nofun, n, h⟩)
  · exact .tryErr (Leads.bind (p := .call .statement) ⟨nofun, n, h⟩ (Leads.bind (leads_expectedError hl) ⟨nofun, 0, rfl⟩))

theorem leads_skipTo {s s' : St} (h : SkipTo s s') : Leads skipToDelim s (.ok false s') := by
  induction h with
  | @here s t' h hd =>
    refine Leads.loopDone ?_
    refine Leads.bind (leads_next h) (Leads.bind (p := curT) (a := t'.token) (t1 := t') ⟨nofun, 0, rfl⟩
      (Leads.bind (p := .op .delim) (a := t'.delim) (t1 := t') ⟨nofun, 0, rfl⟩ ?_))
    rw [if_pos hd]
    exact .ret
  | @next s t1 s' h hd he _ ih =>
    refine Leads.loopCont ?_ ih
    refine Leads.bind (leads_next h) (Leads.bind (p := curT) (a := t1.token) (t1 := t1) ⟨nofun, 0, rfl⟩
      (Leads.bind (p := .op .delim) (a := t1.delim) (t1 := t1) ⟨nofun, 0, rfl⟩ ?_))
    rw [if_neg hd, if_neg he]
    exact .ret

theorem leads_skipToEnd {s s' : St} (h : SkipToEnd s s') : Leads skipToDelim s (.ok true s') := by
  induction h with
  | @here s t' h hd he =>
    refine Leads.loopDone ?_
    refine Leads.bind (leads_next h) (Leads.bind (p := curT) (a := t'.token) (t1 := t') ⟨nofun, 0, rfl⟩
      (Leads.bind (p := .op .delim) (a := t'.delim) (t1 := t') ⟨nofun, 0, rfl⟩ ?_))
    rw [if_neg hd, if_pos he]
    exact .ret
  | @next s t1 s' h hd he _ ih =>
    refine Leads.loopCont ?_ ih
    refine Leads.bind (leads_next h) (Leads.bind (p := curT) (a := t1.token) (t1 := t1) ⟨nofun, 0, rfl⟩
      (Leads.bind (p := .op .delim) (a := t1.delim) (t1 := t1) ⟨nofun, 0, rfl⟩ ?_))
    rw [if_neg hd, if_neg he]
    exact .ret

theorem leads_delim {t t' : St} {acc : List SAst} (hd : t.token = t.delim) (h : Advance t t') :
    Leads (afterDelim acc false) t (.ok acc t') := by
  refine Leads.bind (p := .op .delim) (a := t.delim) (t1 := t) ⟨nofun, 0, rfl⟩ (Leads.bind (a := some t.span) (t1 := t') (.tryOk ?_) .ret)
  refine Leads.bind (p := curT) (a := t.token) (t1 := t) ⟨nofun, 0, rfl⟩ ?_
  rw [if_pos hd]
  exact leads_consume h

/-- The delimiter, and the data of COPY. -/
theorem leads_terminate {s s' : St} {v : SAst} {out acc : List SAst} (hd : s.token = s.delim)
    (h : Terminate v s out s') : Leads (afterDelim (acc ++ [v]) v.readsStdin) s (.ok (acc ++ out) s') := by
  cases h with
  | plain hv h => rw [hv]; exact leads_delim hd h
  | copy hv h =>
    rw [hv]
    refine Leads.bind (p := .op .stdin) ⟨nofun, 0, readsData_run h⟩ ?_
    refine ⟨nofun, 0, ?_⟩
    show Out.ok (acc ++ [v] ++ [_]) s' = _
    rw [List.append_assoc]
    rfl

theorem skipTo_delim {s s' : St} (h : SkipTo s s') : s'.token = s'.delim := by
  induction h with
  | here h hd => exact hd
  | next h hd he _ ih => exact ih

/-- The beginning of a round that parses a statement. -/
theorem leads_start {t t1 : St} {acc : List SAst} {o : Option SAst} {r : Out (Step (List SAst) (List SAst))} (hs : Start t)
    (h : Leads (.tryP topStatement) t (.ok o t1)) (hf : Leads (finishStatement acc o) t1 r) : Leads (statementsStep acc) t r := by
  refine Leads.bind (leads_skipDelims_here hs.1) ?_
  rw [show decide (t.token = .eof) = false by simpa using hs.2.1]
  exact Leads.bind (leads_skw_none hs.2.2) (Leads.bind h hf)

/-- `o` is a COPY that reads from STDIN. -/
def optReads : Option SAst → Bool
  | some v => v.readsStdin
  | none => false

theorem leads_finish_at {t : St} {acc : List SAst} {o : Option SAst} {r : Out (Step (List SAst) (List SAst))} (hd : t.token = t.delim)
    (h : Leads (afterDelim (acc ++ o.toList) (optReads o) >>= fun acc' => pure (.cont acc')) t r) :
    Leads (finishStatement acc o) t r := by
  refine Leads.bind (p := curT) (a := t.token) (t1 := t) ⟨nofun, 0, rfl⟩ (Leads.bind (p := .op .delim) (a := t.delim) (t1 := t) ⟨nofun, 0, rfl⟩ ?_)
  rw [if_neg (by simpa using hd)]
  cases o <;> exact Leads.bind .ret h

theorem leads_finish_skip {t t1 t2 : St} {acc : List SAst} {o : Option SAst} {b : Bool} {r : Out (Step (List SAst) (List SAst))} (hd : t.token ≠ t.delim)
    (h1 : Leads (Prog.when o.isSome (expectedError (.tok t.delim))) t (.ok () t1)) (h2 : Leads skipToDelim t1 (.ok b t2))
    (h : Leads (if b = true then pure (.done (acc ++ o.toList)) else
      afterDelim (acc ++ o.toList) (optReads o) >>= fun acc' => pure (.cont acc')) t2 r) :
    Leads (finishStatement acc o) t r := by
  refine Leads.bind (p := curT) (a := t.token) (t1 := t) ⟨nofun, 0, rfl⟩ (Leads.bind (p := .op .delim) (a := t.delim) (t1 := t) ⟨nofun, 0, rfl⟩ ?_)
  rw [if_pos hd]
  cases o <;> exact Leads.bind (Leads.bind h1 h2) h

/-- A round that is not the skipping of a delimiter is one round of the loop. -/
theorem leads_round {s s' : St} {out : List SAst} (acc : List SAst) (h : Round s out s') :
    (s.token = s.delim ∧ out = [] ∧ Advance s s') ∨ Leads (statementsStep acc) s (.ok (.cont (acc ++ out)) s') := by
  cases h with
  | clean h =>
    cases h with
    | skip hd h => exact .inl ⟨hd, rfl, h⟩
    | @delimiter s1 s2 s3 _ hd hk h1 h2 h3 h4 =>
      right
      obtain ⟨sp, b1⟩ := leads_skw hk h1 h2
      have c1 : Leads (Prog.when (!(decide (s2.token = .doubleDollar) || decide (s2.token = .semiColon))) (warn "Unknown delimiter" s2.span)) s2
          (.ok () s3) := by
        unfold DelimiterNote at h3
        unfold Prog.when
        split at h3
        · next h =>
          subst h3
          rw [if_neg (by rcases h with h | h <;> simp [h])]
          exact .ret
        · next h =>
          rw [if_pos (by simp; exact ⟨fun e => h (.inr e), fun e => h (.inl e)⟩)]
          exact ⟨nofun, 0, issue_reports.2 h3⟩
      refine Leads.bind (leads_skipDelims_here hd) ?_
      have he : s.token ≠ .eof := by
        intro e; rw [e] at hk; cases hk
      rw [show decide (s.token = .eof) = false by simpa using he]
      refine Leads.bind b1 (Leads.bind (t1 := s') (a := ()) ?_ ?_)
      · exact Leads.bind (p := cur) (a := (s2.token, s2.span)) (t1 := s2) ⟨nofun, 0, rfl⟩ (Leads.bind c1
          (Leads.bind (p := .op (.setDelim s2.token)) (a := ()) (t1 := { s3 with delim := s2.token }) ⟨nofun, 0, rfl⟩ (leads_next h4)))
      · rw [List.append_nil]; exact .ret
    | stmt hst h hd ht =>
      exact .inr (leads_start hst (leads_parses h) (leads_finish_at hd (Leads.bind (leads_terminate hd ht) .ret)))
  | garbage hst h hd hl hk ht =>
    exact .inr (leads_start hst (leads_parses h) (leads_finish_skip hd (leads_expectedError hl) (leads_skipTo hk)
      ((leads_terminate (skipTo_delim hk) ht).bind .ret)))
  | failed hst h hd ha =>
    exact .inr (leads_start hst (leads_fails h) (leads_finish_at hd ((leads_delim hd ha).bind .ret)))
  | skipped hst h hd hk ha =>
    exact .inr (leads_start hst (leads_fails h) (leads_finish_skip hd .ret (leads_skipTo hk)
      ((leads_delim (skipTo_delim hk) ha).bind .ret)))

theorem leads_lastRound {s s' : St} {out acc : List SAst} (h : LastRound s out s') :
    Leads (statementsStep acc) s (.ok (.done (acc ++ out)) s') := by
  cases h with
  | eof hd he =>
    refine Leads.bind (leads_skipDelims_here hd) ?_
    rw [show decide (s.token = .eof) = true by simpa using he, List.append_nil]
    exact .ret
  | garbage hst h hd hl hk =>
    exact leads_start hst (leads_parses h) (leads_finish_skip hd (leads_expectedError hl) (leads_skipToEnd hk) .ret)
  | skipped hst h hd hk =>
    exact leads_start hst (leads_fails h) (leads_finish_skip hd .ret (leads_skipToEnd hk) .ret)

/-- Skipping a delimiter before a round changes nothing. -/
theorem skipDelims_ge {t t' : St} (h : t.token = t.delim) (ha : Advance t t') (n : Nat) :
    OutLe (skipDelims.run n t') (skipDelims.run (n + 1) t) := by
  rw [skipDelims_eq, skipDelims_eq]
  have h2 : OutLe (loopN (fun (_ : Unit) s => runWith (runFn n) n skipBody s) n () t')
      (loopN (fun (_ : Unit) s => runWith (runFn (n + 1)) (n + 1) skipBody s) n () t') :=
    loopN_le (fun _ s => runWith_le (runFn_le (by omega)) (by omega) skipBody s) (Nat.le_refl _) () t'
  conv => rhs; unfold loopN
  have h1 : runWith (runFn (n + 1)) (n + 1) skipBody t = .ok (.cont ()) t' := by
    change runWith (runFn (n + 1)) (n + 1) (if t.token = t.delim then (consume >>= fun _ => pure (Step.cont ())) else pure (Step.done (decide (t.token = .eof)))) t = _
    rw [if_pos h]
    have : runWith (runFn (n + 1)) (n + 1) consume t = .ok t.span t' :=
      runWith_bind (p := curS) rfl |>.trans ((runWith_bind (p := next) (a := ()) (show runWith _ _ next t = .ok () t' from ha)).trans rfl)
    exact runWith_bind this
  rw [h1]
  exact h2

theorem bind_ge {p : Prog α} {f : α → Prog β} {t u : St} {n m : Nat} (hn : n ≤ m) (h : OutLe (p.run n t) (p.run m u)) :
    OutLe ((p >>= f).run n t) ((p >>= f).run m u) := by
  show OutLe (runWith (runFn n) n (.bind p f) t) (runWith (runFn m) m (.bind p f) u)
  unfold runWith
  rcases h with h | h
  · rw [show runWith (runFn n) n p t = _ from h]; exact .inl rfl
  · rw [show runWith (runFn n) n p t = _ from h]
    cases he : runWith (runFn m) m p u with
    | ok a s => rw [show p.run m u = _ from he]; exact run_le hn (f a) s
    | err s => rw [show p.run m u = _ from he]; exact .inr rfl
    | panic e => rw [show p.run m u = _ from he]; exact .inr rfl
    | oof => rw [show p.run m u = _ from he]; exact .inl rfl

theorem loop_ge {body : σ → Prog (Step σ β)} {x : σ} {t u : St} {n m : Nat} (hn : n ≤ m) (h : OutLe ((body x).run n t) ((body x).run m u)) :
    OutLe ((Prog.loop body x).run n t) ((Prog.loop body x).run m u) := by
  show OutLe (loopN (fun x s => runWith (runFn n) n (body x) s) n x t) (loopN (fun x s => runWith (runFn m) m (body x) s) m x u)
  cases n with
  | zero => exact .inl rfl
  | succ n =>
    obtain ⟨m, rfl⟩ : ∃ k, m = k + 1 := ⟨m - 1, by omega⟩
    unfold loopN
    rcases h with h | h
    · rw [show runWith (runFn (n + 1)) (n + 1) (body x) t = _ from h]; exact .inl rfl
    · rw [show runWith (runFn (n + 1)) (n + 1) (body x) t = _ from h]
      cases he : runWith (runFn (m + 1)) (m + 1) (body x) u with
      | ok a s =>
        rw [show (body x).run (m + 1) u = _ from he]
        cases a with
        | cont y => exact loopN_le (fun x s => runWith_le (runFn_le hn) hn (body x) s) (by omega) y s
        | done b => exact .inr rfl
      | err s => rw [show (body x).run (m + 1) u = _ from he]; exact .inr rfl
      | panic e => rw [show (body x).run (m + 1) u = _ from he]; exact .inr rfl
      | oof => rw [show (body x).run (m + 1) u = _ from he]; exact .inl rfl

theorem leads_loop_skip {acc : List SAst} {t t' : St} {o : Out (List SAst)} (h : t.token = t.delim) (ha : Advance t t')
    (hg : Leads (.loop statementsStep acc) t' o) : Leads (.loop statementsStep acc) t o := by
  obtain ⟨h0, n, hg⟩ := hg
  have := loop_ge (body := statementsStep) (x := acc) (Nat.le_add_right n 1) (bind_ge (Nat.le_add_right n 1) (skipDelims_ge h ha n))
  rw [hg] at this
  exact ⟨h0, n + 1, (this.resolve_left h0).symm⟩

theorem stuck_loop_skip {acc : List SAst} {t t' : St} (h : t.token = t.delim) (ha : Advance t t')
    (hg : Stuck (.loop statementsStep acc) t') : Stuck (.loop statementsStep acc) t :=
  stuck_of_le (fun n => loop_le (bind_le (skipDelims_le h ha n))) hg

/-- Whatever the loop does after some rounds, it does from the beginning. -/
theorem leads_after {s s1 : St} {l1 acc : List SAst} {o : Out (List SAst)} (h : Rounds s l1 s1)
    (hl : Leads (.loop statementsStep (acc ++ l1)) s1 o) : Leads (.loop statementsStep acc) s o := by
  induction h generalizing acc with
  | nil => simpa using hl
  | @cons _ _ _ out l h _ ih =>
    rcases leads_round acc h with ⟨h2, rfl, h3⟩ | h2
    · exact leads_loop_skip h2 h3 (ih (by simpa using hl))
    · exact .loopCont h2 (ih (by simpa [List.append_assoc] using hl))

theorem leads_rounds {s s1 s' : St} {l1 l2 acc : List SAst} (h : Rounds s l1 s1) (hl : LastRound s1 l2 s') :
    Leads (.loop statementsStep acc) s (.ok (acc ++ (l1 ++ l2)) s') := by
  refine leads_after h (.loopDone ?_)
  rw [← List.append_assoc]
  exact leads_lastRound hl

theorem stuck_rounds {s s1 : St} {l1 acc : List SAst} (h : Rounds s l1 s1)
    (hl : Stuck (.loop statementsStep (acc ++ l1)) s1) : Stuck (.loop statementsStep acc) s := by
  induction h generalizing acc with
  | nil => simpa using hl
  | cons h _ ih =>
    rcases leads_round acc h with ⟨h2, rfl, h3⟩ | h2
    · exact stuck_loop_skip h2 h3 (ih (by simpa using hl))
    · exact .loopCont h2 (ih (by simpa [List.append_assoc] using hl))

/-- At the end of the source. -/
theorem eof_next {s : St} (hb : BInv s) (hp : s.peeked = none) (ht : s.token = .eof) :
    ∃ s', s.next = .ok () s' ∧ s'.token = .eof ∧ s'.delim = s.delim ∧ s'.next = .ok () s' := by
  obtain ⟨⟨pre, h1, h2⟩, -⟩ := hb.lex
  have h3 := hb.tok
  rw [ht] at h3
  have h4 := eof_end h3
  have h5 := hb.pos
  have h6 : s.lx.rest = [] := by
    have : blen s.lx.src = blen pre + blen s.lx.rest := by conv => lhs; rw [h1]; simp
    cases hr : s.lx.rest with
    | nil => rfl
    | cons c r => rw [hr] at this; have := utf8Size_pos c; simp at *; omega
  have h7 : ∀ (c : Bool) (lx : Lexer), lx.rest = [] → lx.nextToken c =
      .ok .eof ⟨blen lx.src, blen lx.src⟩ ⟨lx.src, blen lx.src, []⟩ := by
    rintro c ⟨a, b, r⟩ h
    have h : r = [] := h
    subst h
    rfl
  refine ⟨{ s with token := .eof, span := ⟨blen s.lx.src, blen s.lx.src⟩, lx := ⟨s.lx.src, blen s.lx.src, []⟩ }, ?_, rfl, rfl, ?_⟩
  · unfold St.next
    rw [hp, h7 _ _ h6]
  · unfold St.next
    simp only [hp]
    rw [h7 _ _ rfl]

theorem reports_goes {t : St} (hs : SInv chk src opts t) (l : Level) (m : Msg) : ∃ t', Reports l m t t' := by
  have hb := hs.base.tok.bounds
  obtain ⟨seg, h1⟩ := slice_isSome hb.1 hb.2.1 hb.2.2.1
  exact ⟨_, seg, slice_spanIs (by rw [hs.isrc, ← hs.src]; exact h1), rfl⟩

/-- DELIMITER at the end of the source: the call goes on forever. -/
theorem stuck_delimiterEnd {s : St} (hs : SInv chk src opts s) (h : DelimiterEnd s) (acc : List SAst) :
    Stuck (.loop statementsStep acc) s := by
  obtain ⟨h0, hk, s1, s2, h1, h2, h3⟩ := h
  obtain ⟨i2, -, -, -, e2⟩ := advance_inv (mayLog_inv hs h1.mayLog).1 h2
  obtain ⟨u, hu⟩ := reports_goes i2 .warning "Unknown delimiter"
  obtain ⟨i3, -, -, e3, -⟩ := logs_inv i2 hu.logs
  have e4 : u.peeked = none := by obtain ⟨seg, -, rfl⟩ := hu; exact e2
  obtain ⟨s3, a1, a2, a3, a4⟩ := eof_next (i3.setDelim s2.token).base e4 (e3.trans h3)
  rcases leads_round acc (.clean (.delimiter h0 hk h1 h2 (by unfold DelimiterNote; rw [if_neg (by rw [h3]; simp)]; exact hu) a1)) with ⟨h5, -⟩ | h5
  · exact absurd h5 h0
  refine .loopCont h5 (.loop (.bind ?_))
  intro n
  exact skipDelims_hangs a2 (a3.trans h3) a4

/-! ### The theorems -/

/-- **C01**, exactly: `parse_statements` does not return (nor panic) iff it comes, between two statements, to a keyword
DELIMITER that is the last token of the source. -/
theorem C01_many_hangs_iff :
    Api.many.Hangs chk src ⟨src, old⟩ opts ↔ ∃ s, Between chk src old opts s ∧ DelimiterEnd s := by
  constructor
  · intro h
    refine Classical.byContradiction fun hn => ?_
    exact C01_many_partial (chk := chk) (src := src) (old := old) (opts := opts) _ (Nat.le_refl _)
      (fun s hs hd => hn ⟨s, hs, hd⟩) (h _)
  · rintro ⟨s, ⟨s0, l, h1, h2⟩, hd⟩ n
    have hi := new_sinv h1
    have := stuck_rounds (acc := []) h2 (stuck_delimiterEnd (rounds_inv hi h2).1 hd _) n
    show (match St.new chk src ⟨src, old⟩ opts with
      | .ok _ s => (statements.run n s).res []
      | .err _ => .running
      | .panic m => .panic m
      | .oof => .running) = .running
    rw [h1]
    show Out.res [] (statements.run n s0) = _
    rw [show statements.run n s0 = .oof from this]
    rfl

/-- Non-vacuity: both sides hold for `DELIMITER`, and neither for a source that is parsed. -/
example : ∃ s, Between true c!"DELIMITER" [] {} s ∧ DelimiterEnd s := C01_many_hangs_iff.1 C01_violated
example : ¬ ∃ s, Between true c!"DELIMITER $$ SELECT 1 $$ garbage" [] {} s ∧ DelimiterEnd s := by
  intro h
  obtain ⟨a, is, ⟨n, h1⟩, -⟩ := returns_of_test (api := .many) (n := 40) (checked := true) (src := c!"DELIMITER $$ SELECT 1 $$ garbage")
    (iss := ⟨c!"DELIMITER $$ SELECT 1 $$ garbage", []⟩) (opts := {}) (f := fun a _ => decide (a.length = 1)) (by decide +kernel)
  have h2 := C01_many_hangs_iff.2 h n
  rw [h1] at h2
  cases h2

/-- **C41**: the statements `parse_statements` returns, and the issues it adds, are exactly those that rounds from the
beginning to the end of the source give: the rounds, each of which is skipping a delimiter, changing it, parsing one
statement or skipping what is not a statement, determine the result. -/
theorem C41_rounds_iff (l : List SAst) (is : List Issue) :
    Api.many.Returns chk src ⟨src, old⟩ opts l is ↔
      ∃ s new, St.new chk src ⟨src, old⟩ opts = .ok () s ∧ Finishes s l new ∧ is = old ++ new := by
  constructor
  · intro h
    obtain ⟨s, s1, s', l1, l2, h1, h2, h3, h4, h5⟩ := many_rounds h
    have hi := new_sinv h1
    obtain ⟨i1, k1, e1⟩ := rounds_inv hi h2
    obtain ⟨-, ⟨k2, e2⟩, -⟩ := lastRound_inv i1 h3
    have e3 : s.issues = old := (new_fields h1).1
    refine ⟨s, k1 ++ k2, h1, ⟨l1, l2, s1, s', h2, h3, h4, by rw [e2, e1]; simp⟩, ?_⟩
    rw [← h5, e2, e1, e3, List.append_assoc]
  · rintro ⟨s, new, h1, ⟨l1, l2, s1, s', h2, h3, rfl, h5⟩, rfl⟩
    obtain ⟨-, n, h7⟩ := leads_rounds (acc := []) h2 h3
    refine ⟨n, ?_⟩
    show (match St.new chk src ⟨src, old⟩ opts with
      | .ok _ s => (statements.run n s).res []
      | .err _ => .running
      | .panic m => .panic m
      | .oof => .running) = _
    rw [h1]
    show Out.res [] (statements.run n s) = _
    rw [show statements.run n s = _ from h7]
    show Res.ret _ s'.issues = _
    rw [h5, (new_fields h1).1]
    rfl

/-- Non-vacuity: a source with a change of the delimiter, two statements, and a text that is not a statement. -/
example : ∃ l s new, St.new true c!"DELIMITER $$ SELECT 1 $$ garbage $$ COMMIT $$" ⟨c!"DELIMITER $$ SELECT 1 $$ garbage $$ COMMIT $$", []⟩ {} = .ok () s ∧
    Finishes s l new ∧ l.length = 2 := by
  obtain ⟨a, is, h1, h2⟩ := returns_of_test (api := .many) (n := 40) (checked := true)
    (src := c!"DELIMITER $$ SELECT 1 $$ garbage $$ COMMIT $$")
    (iss := ⟨c!"DELIMITER $$ SELECT 1 $$ garbage $$ COMMIT $$", []⟩) (opts := {}) (f := fun a _ => decide (a.length = 2)) (by decide +kernel)
  obtain ⟨s, new, h3, h4, -⟩ := (C41_rounds_iff a is).1 h1
  exact ⟨a, s, new, h3, h4, by simpa using h2⟩

end SqlParse
