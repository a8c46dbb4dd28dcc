import Verif.Proofs.StreamCreate
/-! Statements on streams of tokens. -/
namespace SqlParse

section
variable {α β σ : Type} {e : Env} {ts ts1 ts2 r r1 r2 r3 tl : List Tk} {t : Token} {sp : Span}

theorem at_delim {is : List Issue} {s : St} {d : Token} (h : At e is s ts) : At { e with delim := d } is { s with delim := d } ts :=
  { opts := h.opts, quiet := h.quiet, delim := rfl, permit := h.permit, issues := h.issues, cur := h.cur, num := h.num }

theorem at_permit {is : List Issue} {s : St} {b : Bool} (h : At e is s ts) : At { e with permit := b } is { s with permit := b } ts :=
  { opts := h.opts, quiet := h.quiet, delim := h.delim, permit := rfl, issues := h.issues, cur := h.cur, num := h.num }

/-- The delimiter is `;` while `p` runs. -/
theorem p_semiDelim {p : Prog α} {a : α} (h : P e.inList p ts a r) : P e (do
    let d ← Prog.op .delim
    Prog.op (.setDelim .semiColon)
    let r ← p
    Prog.op (.setDelim d)
    return r) ts a r := by
  intro is s hs
  obtain ⟨s1, h1, h2⟩ := h is _ (at_delim hs)
  have h3 := at_delim (d := e.delim) h2
  refine ⟨_, ?_, h3⟩
  refine Yields.bind (.op (show _ = Out.ok s.delim s from rfl)) ?_
  rw [hs.delim]
  exact Yields.bind (.op (show _ = Out.ok () { s with delim := .semiColon } from rfl)) (Yields.bind h1 (Yields.bind (.op rfl) (.ret _ _)))

/-- Compound statements are permitted while `p` runs. -/
theorem p_permitted {p : Prog α} {g : α → Prog β} {a : α} {b : β} (h : P { e with permit := true } p ts a r1) (hg : P e (g a) r1 b r) : P e (do
    let old ← Prog.op .permit
    Prog.op (.setPermit true)
    let x ← p
    Prog.op (.setPermit old)
    g x) ts b r := by
  intro is s hs
  obtain ⟨s1, h1, h2⟩ := h is _ (at_permit hs)
  have h3 := at_permit (b := e.permit) h2
  obtain ⟨s2, h4, h5⟩ := hg is _ h3
  refine ⟨s2, ?_, h5⟩
  refine Yields.bind (.op (show _ = Out.ok s.permit s from rfl)) ?_
  rw [hs.permit]
  exact Yields.bind (.op (show _ = Out.ok () { s with permit := true } from rfl)) (Yields.bind h1 (Yields.bind (.op rfl) h4))

/-! ### First tokens -/

theorem QPart.first {a : Ast} (h : QPart e ts a r) : Next (fun t => t.isKw .SELECT = true ∨ t = .lParen) ts := by
  cases h with
  | select h =>
    obtain ⟨t, s, tl, rfl, hx⟩ := Next.elim h.first
    exact Or.inl hx
  | paren h => exact Or.inr rfl

theorem Comp.first {a : Ast} (h : Comp e ts a r) : Next (fun t => t.isKw .SELECT = true ∨ t = .lParen) ts := by
  cases h with
  | one h => exact h.first
  | union h => exact h.first

/-- A word. -/
abbrev Starts (k : Keyword) (ts : List Tk) : Prop := ∃ v s tl, ts = (.ident v k, s) :: tl

theorem starts_of {k : Keyword} (h : t.isKw k = true) : Starts k ((t, sp) :: tl) := by
  obtain ⟨v, rfl⟩ := isKw_iff h
  exact ⟨_, _, _, rfl⟩

theorem Kws.first {k : Keyword} {ks : List Keyword} {s : Span} (h : Kws (k :: ks) ts s r) : Starts k ts := by
  obtain ⟨t, a, tl, rfl, h1⟩ := h.elim
  exact starts_of h1

theorem Starts.notSemi {k : Keyword} (h : Starts k ts) : Next (· ≠ .semiColon) ts := by
  obtain ⟨v, s, tl, rfl⟩ := h
  show Token.ident v k ≠ .semiColon
  simp

theorem Del.first {a : Ast} (h : Del e ts a r) : Starts .DELETE ts := by cases h <;> exact starts_of ‹_›
theorem Upd.first {a : Ast} (h : Upd e ts a r) : Starts .UPDATE ts := by cases h <;> exact starts_of ‹_›
theorem Ren.first {a : Ast} (h : Ren e ts a r) : Starts .RENAME ts := by cases h; exact starts_of ‹_›
theorem Trunc.first {a : Ast} (h : Trunc e ts a r) : Starts .TRUNCATE ts := by cases h; exact starts_of ‹_›
theorem Drop.first {a : Ast} (h : Drop e ts a r) : Starts .DROP ts := by cases h; exact starts_of ‹_›
theorem SetS.first {a : Ast} (h : SetS e ts a r) : Starts .SET ts := by cases h; exact starts_of ‹_›
theorem Signal.first {a : Ast} (h : Signal e ts a r) : Starts .SIGNAL ts := by cases h; exact starts_of ‹_›
theorem Ret.first {a : Ast} (h : Ret e ts a r) : Starts .RETURN ts := by cases h; exact starts_of ‹_›
theorem CopyS.first {a : Ast} (h : CopyS e ts a r) : Starts .COPY ts := by cases h; exact starts_of ‹_›
theorem Alt.first {a : Ast} (h : Alt e ts a r) : Starts .ALTER ts := by cases h; exact starts_of ‹_›
theorem Block.first {l : List SAst} (h : Block e ts l r) : Starts .BEGIN ts := by cases h; exact starts_of ‹_›
theorem Ins.first {a : Ast} (h : Ins e ts a r) : Starts .INSERT ts ∨ Starts .REPLACE ts := by
  cases h with
  | mk h =>
    have hw := (lookup_isKw (by decide) h).1
    have hm := lookup_mem h
    simp only [insertTypeWords, List.mem_cons, Prod.mk.injEq, List.not_mem_nil, or_false] at hm
    rcases hm with ⟨h1, -⟩ | ⟨h1, -⟩
    · rw [h1] at hw; exact .inl (starts_of hw)
    · rw [h1] at hw; exact .inr (starts_of hw)

theorem Stm.first {v : SAst} (h : Stm e ts v r) : Next (· ≠ .semiColon) ts := by
  cases h with
  | query h =>
    obtain ⟨t, s, tl, rfl, hx⟩ := Next.elim h.first
    show t ≠ .semiColon
    rintro rfl
    rcases hx with hx | hx <;> cases hx
  | delete h => exact h.first.notSemi
  | update h => exact h.first.notSemi
  | insert h => rcases h.first with h | h <;> exact h.notSemi
  | rename h => exact h.first.notSemi
  | truncate h => exact h.first.notSemi
  | drop h => exact h.first.notSemi
  | set h => exact h.first.notSemi
  | signal h => exact h.first.notSemi
  | ret h => exact h.first.notSemi
  | copy h => exact h.first.notSemi
  | alter h => exact h.first.notSemi
  | start h => exact h.first.notSemi
  | commit h => exact h.first.notSemi
  | begin hp h => exact h.first.notSemi
  | «end» hp h => exact h.first.notSemi
  | block hp h => exact h.first.notSemi
  | create h => exact (starts_of h).notSemi
  | doBlock h => exact (starts_of h).notSemi
  | ifThen h => exact (starts_of h).notSemi
  | caseWhen h => exact (starts_of h).notSemi
  | caseOf h => exact (starts_of h).notSemi
  | withQuery hd h => exact (starts_of h).notSemi
  | trigger h => exact (starts_of h).notSemi
  | function h => exact (starts_of h).notSemi

/-! ### Dispatch -/

theorem p_statement {p : Prog (Option SAst)} {v : Option SAst} (hp : P e p ((t, sp) :: tl) v r) (h : ∀ {b}, e.permit = b → stmtDispatch t b = p) :
    P e (.call .statement) ((t, sp) :: tl) v r := by
  refine P.call (P.bind P.curT (P.bind P.permit ?_))
  rw [h rfl]
  exact hp

theorem p_noStmt (h : Next (NoStmt e) r) : P e (.call .statement) r none r := by
  obtain ⟨t, s, tl, rfl, h1, h2, h3⟩ := Next.elim h
  refine P.call (P.bind P.curT (P.bind P.permit ?_))
  have hE : (t.isKw .END && !e.permit) = false := by
    cases ht : t.isKw .END with
    | false => rfl
    | true => rw [h3 ht]; rfl
  unfold stmtDispatch
  rw [if_neg (by simp [h1 .CREATE (by decide)]), if_neg (by simp [h1 .DROP (by decide)]), if_neg (by simp [h1 .SELECT (by decide), h2]),
    if_neg (by simp [h1 .DELETE (by decide)]), if_neg (by simp [h1 .INSERT (by decide), h1 .REPLACE (by decide)]), if_neg (by simp [h1 .UPDATE (by decide)]),
    if_neg (by simp [h1 .SET (by decide)]), if_neg (by simp [h1 .SIGNAL (by decide)]), if_neg (by simp [h1 .BEGIN (by decide)]), if_neg (by simp [hE]),
    if_neg (by simp [h1 .START (by decide)]), if_neg (by simp [h1 .COMMIT (by decide)]), if_neg (by simp [h1 .IF (by decide)]), if_neg (by simp [h1 .RETURN (by decide)]),
    if_neg (by simp [h1 .ALTER (by decide)]), if_neg (by simp [h1 .CASE (by decide)]), if_neg (by simp [h1 .COPY (by decide)]), if_neg (by simp [h1 .DO (by decide)]),
    if_neg (by simp [h1 .TRUNCATE (by decide)]), if_neg (by simp [h1 .RENAME (by decide)]), if_neg (by simp [h1 .WITH (by decide)])]
  exact P.ret _

/-! ### Lists of statements -/

/-- Some `;`, then `ts`. -/
inductive Semis (data : Data) : List Tk → List Tk → Prop where
  | nil {ts : List Tk} : Semis data ts ts
  | cons {s : Span} {q ts : List Tk} (hd : data s = none) (h : Semis data q ts) : Semis data ((.semiColon, s) :: q) ts

theorem Semis.snoc {data : Data} {q : List Tk} (hd : data sp = none) (h : Semis data q ((.semiColon, sp) :: ts)) : Semis data q ts := by
  generalize hx : (Token.semiColon, sp) :: ts = x at h
  induction h with
  | nil => subst hx; exact .cons hd .nil
  | cons h1 h ih => exact .cons h1 (ih hx)

theorem p_skipSemis {q : List Tk} (h : Semis e.data q ts) (hn : Next (· ≠ .semiColon) ts) : P e skipSemis q () ts := by
  induction h with
  | nil => exact P.done (P.bind (n_skips_no hn) (P.ret _))
  | cons hd h ih => exact P.cont (P.bind (P.skips (by simp) (by simp [marker, Token.isKw]) (after_of _ hd)) (P.ret _)) (ih hn)

/-- The loop of `stmtListInner`. -/
def listFrom (acc : List SAst) : Prog (Bool × List SAst) :=
  .loop (σ := List SAst) (fun acc => do
    skipSemis
    let r ← .tryP (.call .statement)
    match r with
    | none => return .done (false, acc)
    | some none => return .done (true, acc)
    | some (some v) => do
      let t ← curT
      if t ≠ .semiColon then return .done (true, acc ++ [v])
      else if v.readsStdin then do
        let (d, sp) ← .op .stdin
        return .cont (acc ++ [v, snd% Statement_Stdin [d, sp]])
      else do
        let _ ← consume
        return .cont (acc ++ [v])) acc

def PStms (e : Env) (ts : List Tk) (l : List SAst) (r : List Tk) : Prop :=
  ∀ acc q, Semis e.data q ts → P e.inList (listFrom acc) q (true, acc ++ l) r

theorem ps_nil (h : Next (fun t => NoStmt e t ∧ t ≠ .semiColon) r) : PStms e r [] r := by
  intro acc q hq
  rw [List.append_nil]
  obtain ⟨t, s, tl, rfl, h1, h2⟩ := Next.elim h
  exact P.done (P.bind (p_skipSemis hq h2) (P.bind (p_noStmt (e := e.inList) (r := (t, s) :: tl) h1).tryP (P.ret _)))

theorem ps_last {v : SAst} (hf : Next (· ≠ .semiColon) ts) (h : P e.inList (.call .statement) ts (some v) r) (hr : Next (· ≠ .semiColon) r) :
    PStms e ts [v] r := by
  intro acc q hq
  obtain ⟨t, s, tl, rfl, h1⟩ := Next.elim hr
  exact P.done (P.bind (p_skipSemis hq hf) (P.bind h.tryP (P.bind P.curT (p_iteT h1 (P.ret _)))))

theorem ps_cons {v : SAst} {l : List SAst} (hf : Next (· ≠ .semiColon) ts) (h : P e.inList (.call .statement) ts (some v) ((.semiColon, sp) :: r1))
    (hc : v.readsStdin = false) (hd : e.data sp = none) (hl : PStms e r1 l r) : PStms e ts (v :: l) r := by
  intro acc q hq
  have := hl (acc ++ [v]) _ .nil
  rw [List.append_assoc] at this
  exact P.cont (P.bind (p_skipSemis hq hf) (P.bind h.tryP (P.bind P.curT (p_iteF (by simp) (p_iteF (by simp [hc]) (P.bind
    (P.consume (by simp) (by simp [marker, Token.isKw]) (after_of (data := e.inList.data) hd)) (P.ret _))))))) this

theorem ps_copy {v : SAst} {d : List Char} {dsp : Span} {l : List SAst} (hf : Next (· ≠ .semiColon) ts)
    (h : P e.inList (.call .statement) ts (some v) ((.semiColon, sp) :: r1))
    (hc : v.readsStdin = true) (hd : e.data sp = some (d, dsp)) (hl : PStms e r1 l r) :
    PStms e ts (v :: (snd% Statement_Stdin [d, dsp]) :: l) r := by
  intro acc q hq
  have := hl (acc ++ [v, snd% Statement_Stdin [d, dsp]]) _ .nil
  rw [List.append_assoc] at this
  exact P.cont (P.bind (p_skipSemis hq hf) (P.bind h.tryP (P.bind P.curT (p_iteF (by simp) (p_iteT hc (P.bind
    (P.stdin (.inl rfl) hd) (P.ret _))))))) this

theorem p_stmtList {l : List SAst} (h : PStms e ts l r) : P e stmtList ts (true, l) r := p_semiDelim (h [] _ .nil)

theorem p_listReq {l : List SAst} (h : PStms e ts l r) : P e stmtListReq ts l r := P.bind (p_stmtList h) (p_iteT rfl (P.ret _))

theorem p_handlers (h : Handlers e ts r) : P e exceptionWhens ts () r := by
  induction h with
  | nil h => exact P.done (P.bind (n_skw_no h) (P.ret _))
  | cons h hi h' ha hd hr ih =>
    exact P.cont (P.bind (P.skw h) (P.bind (p_ident hi) (P.bind (P.ckw h') (P.bind (ex_p ha) (P.bind (P.ctk (by simp) (by simp [marker, Token.isKw]) (after_of _ hd)) (P.ret _)))))) ih

theorem p_block {t' : Token} {s s' : Span} {l : List SAst} (h : t.isKw .BEGIN = true) (hl : PStms e ts l r1)
      (hx : Exception e r1 ((t', s') :: r)) (h' : t'.isKw .END = true) : P e parseBlock ((t, s) :: ts) l r := by
  cases hx with
  | none hn =>
    refine P.bind (P.ckw h) (P.bind (p_recoveredAcc (p_stmtList hl) ?_) (P.bind (n_skw_no hn) (P.bind p_when_no (P.bind (P.ckw h') (P.ret _)))))
    show isBlockEnd t' = true
    simp [isBlockEnd, h']
  | some hk hr =>
    refine P.bind (P.ckw h) (P.bind (p_recoveredAcc (p_stmtList hl) ?_) (P.bind (P.skw hk) (P.bind (p_handlers hr) (P.bind (P.ckw h') (P.ret _)))))
    show isBlockEnd _ = true
    simp [isBlockEnd, hk]

/-- The loop of IF. -/
def ifLoop (x : List SAst × Option Span) : Prog (Bool × List SAst × Option Span) :=
  accLoop (σ := List SAst × Option Span) (fun x => do
    let c ← ifCondition x.2
    let e ← skw .ELSEIF
    return (match e with
      | some s => .cont (x.1 ++ [c], some s)
      | none => .done (x.1 ++ [c], none))) x

def PBranches (e : Env) (o : Option Span) (ts : List Tk) (cs : List SAst) (r : List Tk) : Prop :=
  ∀ acc, P e (ifLoop (acc, o)) ts (true, (acc ++ cs, none)) r

theorem pb_one {o : Option Span} {c : Ast} {s : Span} {l : List SAst} (hc : Ex e false ts c ((t, s) :: r1)) (h : t.isKw .THEN = true)
    (hl : PStms e r1 l r) (hr : NotKw .ELSEIF r) : PBranches e o ts [snd% IfCondition [o, c, s, l]] r := by
  intro acc
  exact p_accDone (P.bind (P.bind (ex_p hc) (P.bind (P.ckw h) (P.bind (p_listReq hl) (P.ret _)))) (P.bind (n_skw_no hr) (P.ret _)))

theorem pb_cons {o : Option Span} {c : Ast} {t' : Token} {s s' : Span} {l cs : List SAst} (hc : Ex e false ts c ((t, s) :: r1))
    (h : t.isKw .THEN = true) (hl : PStms e r1 l ((t', s') :: r2)) (h' : t'.isKw .ELSEIF = true) (hr : PBranches e (some s') r2 cs r) :
    PBranches e o ts ((snd% IfCondition [o, c, s, l]) :: cs) r := by
  intro acc
  have := hr (acc ++ [snd% IfCondition [o, c, s, l]])
  rw [List.append_assoc] at this
  exact p_accCont (P.bind (P.bind (ex_p hc) (P.bind (P.ckw h) (P.bind (p_listReq hl) (P.ret _)))) (P.bind (P.skw h') (P.ret _))) this

theorem p_elseNone (h : NotKw .ELSE r) : P e elseStmts r none r := P.bind (n_skw_no h) (P.ret _)
theorem p_elseSome {s : Span} {l : List SAst} (h : t.isKw .ELSE = true) (hl : PStms e ts l r) : P e elseStmts ((t, s) :: ts) (some (s, l)) r :=
  P.bind (P.skw h) (p_optSome (P.bind (p_listReq hl) (P.ret _)))

theorem p_if {s f : Span} {cs : List SAst} {el : Option (Span × List SAst)} (h : t.isKw .IF = true) (hc : PBranches e none ts cs r1)
    (he : P e elseStmts r1 el r2) (hf : Kws [.END, .IF] r2 f r) : P e parseIf ((t, s) :: ts) (snd% If [s, cs, el, f]) r := by
  have hb : P e ifBody ts (true, cs, el) r2 := P.bind (hc []) (p_iteT rfl (P.bind he.tryP (P.ret _)))
  refine P.bind (P.ckw h) (P.bind (p_recoveredAcc hb ?_) (P.bind (p_ckws hf) (P.ret _)))
  obtain ⟨t', a, tl, rfl, h'⟩ := hf.elim
  exact h'

/-- The loop of CASE. -/
def caseLoop (acc : List SAst) : Prog (Bool × List SAst) :=
  accLoop (fun acc => do
    let w ← whenStatement
    let t ← curT
    return (if t.isKw .WHEN then .cont (acc ++ [w]) else .done (acc ++ [w]))) acc

def PCases (e : Env) (ts : List Tk) (ws : List SAst) (r : List Tk) : Prop := ∀ acc, P e (caseLoop acc) ts (true, acc ++ ws) r

theorem CaseBranches.first {ws : List SAst} (h : CaseBranches e ts ws r) : Next (fun t => t.isKw .WHEN = true) ts := by
  cases h with
  | one h => exact h
  | cons h => exact h

theorem pc_one {t' : Token} {c : Ast} {s s' : Span} {l : List SAst} (h : t.isKw .WHEN = true)
    (hc : Ex e false ts c ((t', s') :: r1)) (h' : t'.isKw .THEN = true) (hl : PStms e r1 l r) (hr : NotKw .WHEN r) :
    PCases e ((t, s) :: ts) [snd% WhenStatement [s, c, s', l]] r := by
  intro acc
  obtain ⟨t2, s2, tl, rfl, hx⟩ := Next.elim hr
  refine p_accDone (P.bind (P.bind (P.ckw h) (P.bind (ex_p hc) (P.bind (P.ckw h') (P.bind (p_listReq hl) (P.ret _))))) (P.bind P.curT ?_))
  rw [hx]
  exact P.ret _

theorem pc_cons {t' : Token} {c : Ast} {s s' : Span} {l ws : List SAst} (h : t.isKw .WHEN = true)
    (hc : Ex e false ts c ((t', s') :: r1)) (h' : t'.isKw .THEN = true) (hl : PStms e r1 l r2) (hf : Next (fun t => t.isKw .WHEN = true) r2)
    (hr : PCases e r2 ws r) : PCases e ((t, s) :: ts) ((snd% WhenStatement [s, c, s', l]) :: ws) r := by
  intro acc
  have hz := hr (acc ++ [snd% WhenStatement [s, c, s', l]])
  rw [List.append_assoc] at hz
  obtain ⟨t2, s2, tl, rfl, hx⟩ := Next.elim hf
  refine p_accCont (P.bind (P.bind (P.ckw h) (P.bind (ex_p hc) (P.bind (P.ckw h') (P.bind (p_listReq hl) (P.ret _))))) (P.bind P.curT ?_)) hz
  rw [hx]
  exact P.ret _

theorem p_caseRest {t' : Token} {s f : Span} {v : Option Ast} {ws : List SAst} {el : Option (Span × List SAst)} (hw : PCases e ts ws r1)
    (he : P e elseStmts r1 el ((t', f) :: r)) (h' : t'.isKw .END = true) : P e (do
  let (whens, els) ← recoveredAcc "'END'" (fun t => t.isKw .END) caseStatementBody
  let e ← ckw .END
  return snd% CaseStatement [s, v, whens, els, e]) ts (snd% CaseStatement [s, v, ws, el, f]) r := by
  have hb : P e caseStatementBody ts (true, ws, el) ((t', f) :: r) := P.bind (hw []) (p_iteT rfl (P.bind he.tryP (P.ret _)))
  exact P.bind (p_recoveredAcc hb h') (P.bind (P.ckw h') (P.ret _))

theorem p_caseWhen' {t' : Token} {s f : Span} {ws : List SAst} {el : Option (Span × List SAst)} (h : t.isKw .CASE = true)
    (hf : Next (fun t => t.isKw .WHEN = true) ts) (hw : PCases e ts ws r1) (he : P e elseStmts r1 el ((t', f) :: r)) (h' : t'.isKw .END = true) :
    P e parseCase ((t, s) :: ts) (snd% CaseStatement [s, (none : Option Ast), ws, el, f]) r := by
  have hr := p_caseRest (s := s) (v := none) hw he h'
  obtain ⟨t2, s2, tl, rfl, hx⟩ := Next.elim hf
  exact P.bind (P.ckw h) (P.bind P.curT (P.bind (p_optIfF (by simp [hx])) hr))

theorem p_caseOf' {t' : Token} {s f : Span} {r0 : List Tk} {v : Ast} {ws : List SAst} {el : Option (Span × List SAst)} (h : t.isKw .CASE = true)
    (hf : NotKw .WHEN ts) (hv : Ex e false ts v r0) (hw : PCases e r0 ws r1) (he : P e elseStmts r1 el ((t', f) :: r)) (h' : t'.isKw .END = true) :
    P e parseCase ((t, s) :: ts) (snd% CaseStatement [s, some v, ws, el, f]) r := by
  have hv' := ex_p hv
  obtain ⟨t2, s2, tl, rfl, hx⟩ := Next.elim hf
  exact P.bind (P.ckw h) (P.bind P.curT (P.bind (p_optIfT (by simp [hx]) hv') (p_caseRest hw he h')))

theorem p_withCheck {m : String} {v : SAst} (h : WithKind v) : P e (withCheck m v) ts () ts := by
  refine p_when_f ?_
  obtain ⟨k, hk, l, hv⟩ := h
  simp only [List.mem_cons, List.not_mem_nil, or_false] at hk
  rcases hk with rfl | rfl | rfl | rfl <;> simp [withAllowed, hv, Ast.kind?]

theorem p_withBlock {i : Ast} {s lp rp : Span} {v : SAst} (hi : Idn e ts i ((t, s) :: (.lParen, lp) :: r1))
    (h : t.isKw .AS = true) (hv : P e (.call .statement) r1 (some v) ((.rParen, rp) :: r)) (hk : WithKind v) :
    P e withBlock ts (snd% WithBlock [i, s, lp, v, rp]) r := by
  refine P.bind (p_ident hi) (P.bind (P.ckw h) (P.bind p_ctk_lParen (P.bind (p_recovered (a := some v) (r := (.rParen, rp) :: r) ?_ rfl)
    (P.bind p_ctk_rParen (P.bind (p_withCheck hk) (P.ret _))))))
  exact P.bind hv (P.ret _)

theorem p_with {s : Span} {bs : List SAst} {v : SAst} (hd : e.opts.dialect = .postgreSQL) (h : t.isKw .WITH = true)
    (hb : CommaL (P e withBlock) ts bs r1) (hv : P e (.call .statement) r1 (some v) r) (hk : WithKind v) :
    P e parseWith ((t, s) :: ts) (snd% WithQuery [s, bs, v]) r :=
  P.bind (P.ckw h) (P.bind (p_commaList hb) (P.bind hv (P.bind (p_withCheck hk) (P.bind P.isPg (P.bind (p_when_f (by simp [hd])) (P.ret _))))))

theorem p_trigger {t1 t2 t3 t4 : Token} {c s s2 s3 on fe : Span} {r4 r5 : List Tk} {os : List Ast} {ine : Option Span}
    {n tb : Ast} {T E : Kind} {v : SAst} (h : t.isKw .CREATE = true) (ho : CrOpts e ts os ((t1, s) :: r1)) (h1 : t1.isKw .TRIGGER = true)
    (hi : OptKws .IF [.NOT, .EXISTS] r1 ine r2) (hn : Idn e r2 n ((t2, s2) :: (t3, s3) :: (t4, on) :: r3))
    (h2 : triggerTimeTable.lookup t2.kw = some T) (h3 : triggerEventTable.lookup t3.kw = some E) (h4 : t4.isKw .ON = true)
    (ht : Idn e r3 tb r4) (hf : Kws [.FOR, .EACH, .ROW] r4 fe r5) (hv : P { e with permit := true } (.call .statement) r5 (some v) r) :
    P e parseCreate ((t, c) :: ts) (snd% CreateTrigger [c, os, s, ine, n, Ast.node T [.span s2], Ast.node E [.span s3], on, tb, fe, v]) r := by
  refine p_create h ho ?_
  obtain ⟨v', rfl⟩ := isKw_iff h1
  refine P.bind P.curT ?_
  branch
  refine P.bind (P.ckw h1) (P.bind (p_ifNotExists hi) (P.bind (p_ident hn) (P.bind (p_kwNode (by decide) h2) (P.bind (P.ret _) (P.bind (p_kwNode (by decide) h3)
    (P.bind (P.ret _) (P.bind (P.ckw h4) (P.bind (p_ident ht) (P.bind (p_ckws hf) ?_)))))))))
  exact p_permitted (P.bind hv (P.ret _)) (P.ret _)

theorem p_function {t1 t2 : Token} {c s lp rp rs : Span} {r4 r5 r6 r7 : List Tk} {os cs : List Ast} {ine : Option Span}
    {n rt : Ast} {ps : List (Option Ast × Ast × Ast)} {b : Option SAst} (h : t.isKw .CREATE = true) (ho : CrOpts e ts os ((t1, s) :: r1))
    (h1 : t1.isKw .FUNCTION = true) (hi : OptKws .IF [.NOT, .EXISTS] r1 ine r2) (hn : Idn e r2 n ((.lParen, lp) :: r3))
    (hp : CommaL (Param e) r3 ps ((.rParen, rp) :: (t2, rs) :: r4)) (h2 : t2.isKw .RETURNS = true) (hr : DT e true r4 rt r5)
    (hb : FnBody e r5 r6) (hc : Chars r6 cs r7) (hs : P e (isMaria >>= fun m => optIf m statementReq) r7 b r) :
    P e parseCreate ((t, c) :: ts) (snd% CreateFunction [c, os, s, ine, n, ps, rs, rt, cs, b]) r := by
  refine p_create h ho ?_
  obtain ⟨v', rfl⟩ := isKw_iff h1
  refine P.bind P.curT ?_
  branch
  refine P.bind (P.ckw h1) (P.bind (p_ifNotExists hi) (P.bind (p_ident hn) (P.bind p_ctk_lParen (P.bind (p_parenItems (CommaL.map p_param hp))
    (P.bind p_ctk_rParen (P.bind (P.ckw h2) (P.bind (dt_p hr) (P.bind (p_fnBody hb) (P.bind (p_chars hc) ?_)))))))))
  exact p_assoc (P.bind hs (P.ret _))

theorem p_do {s d d' : Span} {l : List SAst} (h : t.isKw .DO = true) (hn : e.data d = none) (hn' : e.data d' = none)
    (hb : P e parseBlock ts l ((.doubleDollar, d') :: r)) :
    P e parseDo ((t, s) :: (.doubleDollar, d) :: ts) (snd% Statement_Do [l]) r :=
  P.bind (P.ckw h) (P.bind (P.ctk (by simp) (by simp [marker, Token.isKw]) (after_of _ hn)) (P.bind hb (P.bind (P.ctk (by simp) (by simp [marker, Token.isKw]) (after_of _ hn')) (P.ret _))))

/-! ### From the parser of a kind of statement to `parse_statement` -/

theorem s_of {k : Keyword} {p : Prog Ast} {a : Ast} (hf : Starts k ts) (h : P e p ts a r) (hd : ∀ v b, stmtDispatch (.ident v k) b = stmt p) :
    P e (.call .statement) ts (some ⟨a⟩) r := by
  obtain ⟨v, s, tl, rfl⟩ := hf
  exact p_statement (P.bind h (P.ret _)) (fun {b} _ => hd v b)

theorem o_of {k : Keyword} {p : Prog SAst} {a : SAst} (hf : Starts k ts) (h : P e p ts a r) (hd : ∀ v b, stmtDispatch (.ident v k) b = ostmt p) :
    P e (.call .statement) ts (some a) r := by
  obtain ⟨v, s, tl, rfl⟩ := hf
  exact p_statement (P.bind h (P.ret _)) (fun {b} _ => hd v b)

theorem s_query {a : Ast} (h : Comp e ts a r) : P e (.call .statement) ts (some ⟨a⟩) r := by
  have hp := comp_p h
  obtain ⟨t, s, tl, rfl, hx⟩ := Next.elim h.first
  rcases hx with hx | rfl
  · obtain ⟨v, rfl⟩ := isKw_iff hx
    exact p_statement (P.bind hp (P.ret _)) (fun _ => rfl)
  · exact p_statement (P.bind hp (P.ret _)) (fun _ => rfl)

theorem s_insert {a : Ast} (h : Ins e ts a r) : P e (.call .statement) ts (some ⟨a⟩) r := by
  rcases h.first with hf | hf
  · exact s_of hf (p_ins h) (fun _ _ => rfl)
  · exact s_of hf (p_ins h) (fun _ _ => rfl)

theorem s_create {c : Span} {os : List Ast} {a : Ast} (h : t.isKw .CREATE = true) (ho : CrOpts e ts os r1) (hw : CrWhat e c os r1 a r) :
    P e (.call .statement) ((t, c) :: ts) (some ⟨a⟩) r := o_of (starts_of h) (p_create h ho (p_crWhat hw)) (fun _ _ => rfl)

theorem s_start {s : Span} (h : Kws [.START, .TRANSACTION] ts s r) : P e (.call .statement) ts (some (snd% Statement_StartTransaction [s])) r := by
  have hc := p_ckws (e := e) h
  obtain ⟨v, s', tl, rfl⟩ := h.first
  exact p_statement (P.bind hc (P.ret _)) (fun _ => rfl)

theorem s_commit {s : Span} (h : Kws [.COMMIT] ts s r) : P e (.call .statement) ts (some (snd% Statement_Commit [s])) r := by
  obtain ⟨t, rfl, h1⟩ := h.elim1
  obtain ⟨v, rfl⟩ := isKw_iff h1
  exact p_statement (P.bind (P.ckw h1) (P.ret _)) (fun _ => rfl)

theorem s_begin {s : Span} (hp : e.permit = false) (h : Kws [.BEGIN] ts s r) : P e (.call .statement) ts (some (snd% Statement_Begin [s])) r := by
  obtain ⟨t, rfl, h1⟩ := h.elim1
  obtain ⟨v, rfl⟩ := isKw_iff h1
  exact p_statement (p := beginStmt) (P.bind P.permit (p_iteF (by simp [hp]) (P.bind (P.ckw h1) (P.ret _)))) (fun _ => rfl)

theorem s_end {s : Span} (hp : e.permit = false) (h : Kws [.END] ts s r) : P e (.call .statement) ts (some (snd% Statement_End [s])) r := by
  obtain ⟨t, rfl, h1⟩ := h.elim1
  obtain ⟨v, rfl⟩ := isKw_iff h1
  refine p_statement (p := do
    let s ← ckw .END
    return some (snd% Statement_End [s])) (P.bind (P.ckw h1) (P.ret _)) (fun {b} hb => ?_)
  rw [hp] at hb
  subst hb
  rfl

theorem s_block {l : List SAst} (hp : e.permit = true) (hf : Starts .BEGIN ts) (h : P e parseBlock ts l r) :
    P e (.call .statement) ts (some (snd% Statement_Block [l])) r := by
  obtain ⟨v, s', tl, rfl⟩ := hf
  exact p_statement (p := beginStmt) (P.bind P.permit (p_iteT hp (P.bind h (P.ret _)))) (fun _ => rfl)

end

/-! ### All statements -/

mutual
theorem stm_p {e : Env} {ts r : List Tk} {v : SAst} : Stm e ts v r → P e (.call .statement) ts (some v) r
  | .query h => s_query h
  | .delete h => s_of h.first (p_del h) (fun _ _ => rfl)
  | .update h => s_of h.first (p_upd h) (fun _ _ => rfl)
  | .insert h => s_insert h
  | .rename h => s_of h.first (p_ren h) (fun _ _ => rfl)
  | .truncate h => s_of h.first (p_trunc h) (fun _ _ => rfl)
  | .drop h => s_of h.first (p_drop h) (fun _ _ => rfl)
  | .set h => s_of h.first (p_set h) (fun _ _ => rfl)
  | .signal h => s_of h.first (p_signal h) (fun _ _ => rfl)
  | .ret h => s_of h.first (p_ret h) (fun _ _ => rfl)
  | .copy h => s_of h.first (p_copy h) (fun _ _ => rfl)
  | .alter h => s_of h.first (p_alt h) (fun _ _ => rfl)
  | .create h ho hw => s_create h ho hw
  | .start h => s_start h
  | .commit h => s_commit h
  | .begin hp h => s_begin hp h
  | .end hp h => s_end hp h
  | .block hp h => s_block hp h.first (block_p h)
  | .doBlock h hn hb hn' => o_of (starts_of h) (p_do h hn hn' (block_p hb)) (fun _ _ => rfl)
  | .ifThen h hc he hf => o_of (starts_of h) (p_if h (branches_p hc) (else_p he) hf) (fun _ _ => rfl)
  | .caseWhen h hw he h' => o_of (starts_of h) (p_caseWhen' h hw.first (cases_p hw) (else_p he) h') (fun _ _ => rfl)
  | .caseOf h hn hv hw he h' => o_of (starts_of h) (p_caseOf' h hn hv (cases_p hw) (else_p he) h') (fun _ _ => rfl)
  | .withQuery hd h hb hv hk => o_of (starts_of h) (p_with hd h (withs_p hb) (stm_p hv) hk) (fun _ _ => rfl)
  | .trigger h ho h1 hi hn h2 h3 h4 ht hf hv => o_of (starts_of h) (p_trigger h ho h1 hi hn h2 h3 h4 ht hf (stm_p hv)) (fun _ _ => rfl)
  | .function h ho h1 hi hn hp h2 hr hb hc hs => o_of (starts_of h) (p_function h ho h1 hi hn hp h2 hr hb hc (fn_p hs)) (fun _ _ => rfl)

theorem fn_p {e : Env} {ts r : List Tk} {b : Option SAst} : FnStmt e ts b r → P e (isMaria >>= fun m => optIf m statementReq) ts b r
  | .none hd => P.bind P.isMaria (p_optIfF (decide_eq_false hd))
  | .some hd h => P.bind P.isMaria (p_optIfT (decide_eq_true hd) (P.bind (stm_p h) (P.ret _)))

theorem stms_p {e : Env} {ts r : List Tk} {l : List SAst} : Stms e ts l r → PStms e ts l r
  | .semi hd h => fun acc _ hq => stms_p h acc _ (hq.snoc hd)
  | .nil h => ps_nil h
  | .last h hr => ps_last h.first (stm_p h) hr
  | .cons h hc hd hl => ps_cons h.first (stm_p h) (by rw [← takesData_eq]; exact hc) hd (stms_p hl)
  | .copy h hc hd hl => ps_copy h.first (stm_p h) (by rw [← takesData_eq]; exact hc) hd (stms_p hl)

theorem block_p {e : Env} {ts r : List Tk} {l : List SAst} : Block e ts l r → P e parseBlock ts l r
  | .mk h hl hx h' => p_block h (stms_p hl) hx h'

theorem branches_p {e : Env} {o : Option Span} {ts r : List Tk} {l : List SAst} : Branches e o ts l r → PBranches e o ts l r
  | .one hc h hl hr => pb_one hc h (stms_p hl) hr
  | .cons hc h hl h' hr => pb_cons hc h (stms_p hl) h' (branches_p hr)

theorem cases_p {e : Env} {ts r : List Tk} {l : List SAst} : CaseBranches e ts l r → PCases e ts l r
  | .one h hc h' hl hr => pc_one h hc h' (stms_p hl) hr
  | .cons h hc h' hl hr => pc_cons h hc h' (stms_p hl) hr.first (cases_p hr)

theorem else_p {e : Env} {ts r : List Tk} {o : Option (Span × List SAst)} : ElseS e ts o r → P e elseStmts ts o r
  | .none h => p_elseNone h
  | .some h hl => p_elseSome h (stms_p hl)

theorem withs_p {e : Env} {ts r : List Tk} {l : List SAst} : WithBlocks e ts l r → CommaL (P e withBlock) ts l r
  | .one hi h hv hk hr => .one (p_withBlock hi h (stm_p hv) hk) hr
  | .cons hi h hv hk hl => .cons (p_withBlock hi h (stm_p hv) hk) (withs_p hl)
end

end SqlParse
