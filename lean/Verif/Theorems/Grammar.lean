import Verif.Spec.GrammarScript
import Verif.Spec.Api
import Verif.Theorems.Flags
import Verif.Proofs.Laid
import Verif.Proofs.StreamStmt
/-! C38: every sentence of the grammar is parsed to its AST, without issues. -/
namespace SqlParse

/-! ### From text to streams of tokens -/

/-- No data. -/
def noData : Data := fun _ => none

theorem noData_after (p : Tk) : noData.after p = none := by unfold Data.after; split <;> rfl

theorem written_laid {chk : Bool} {o : Nat} {l : List Char} {toks : List Tk} (h : Written chk o l toks) :
    Laid chk noData o l (toks ++ [(.eof, ⟨o + blen l, o + blen l⟩)]) := by
  induction h with
  | nil o u h => exact .eof o u h
  | cons o u w rest t toks ht hs hf h ih =>
    have := Laid.tok (checked := chk) o _ u w rest rest t _ ht hs hf (.none _ _ (noData_after _)) ih
    simpa [Nat.add_assoc] using this

theorem gap_le {data : Data} {p : Tk} {o o' : Nat} {l l' : List Char} (h : Gap data p o l o' l') : o ≤ o' := by
  cases h <;> omega

/-- The tokens begin at increasing positions. -/
def Increasing : List Tk → Prop
  | [] => True
  | p :: ts => (∀ q ∈ ts, p.2.start < q.2.start) ∧ Increasing ts

theorem laid_increasing {chk : Bool} {data : Data} {o : Nat} {l : List Char} {ts : List Tk} (h : Laid chk data o l ts) :
    (∀ q ∈ ts, o ≤ q.2.start) ∧ Increasing ts := by
  induction h with
  | eof => simp [Increasing]
  | tok o o' u w rest rest' t toks ht hs hf hg h ih =>
    have := blen_pos_of_ne (reads_cons hf ht)
    have := gap_le hg
    obtain ⟨h1, h2⟩ := ih
    refine ⟨?_, ?_, h2⟩
    · intro q hq
      rcases List.mem_cons.1 hq with rfl | hq
      · simp
      · have := h1 q hq; omega
    · intro q hq
      have := h1 q hq
      simp only; omega

theorem numbered_suffix {o : Opts} {args : Span → Bool} (pre suf : List Tk) (hi : Increasing (pre ++ suf)) :
    Numbered o args (markerNo o args (pre ++ suf)) (pre.filter fun p => argTk o args p).length suf := by
  induction suf generalizing pre with
  | nil => trivial
  | cons p suf ih =>
    have ih := ih (pre ++ [p]) (by simpa using hi)
    simp only [List.append_assoc, List.singleton_append] at ih
    simp only [Numbered]
    have hpre : ∀ q ∈ pre, q.2.start < p.2.start := by
      clear ih
      induction pre with
      | nil => simp
      | cons a pre ih =>
        intro q hq
        rcases List.mem_cons.1 hq with rfl | hq
        · exact hi.1 p (by simp)
        · exact ih hi.2 q hq
    have hsuf : ∀ q ∈ suf, p.2.start < q.2.start := by
      clear ih hpre
      induction pre with
      | nil => exact hi.1
      | cons a pre ih => exact ih hi.2
    split
    · next hm =>
      refine ⟨?_, by simpa [hm] using ih⟩
      unfold markerNo
      rw [List.filter_append, List.length_append]
      have e1 : (p :: suf).filter (fun q => argTk o args q && decide (q.2.start < p.2.start)) = [] := by
        rw [List.filter_eq_nil_iff]
        intro q hq
        rcases List.mem_cons.1 hq with rfl | hq
        · simp
        · have := hsuf q hq
          simp; omega
      rw [e1]
      simp only [List.length_nil, Nat.add_zero]
      congr 1
      apply List.filter_congr
      intro q hq
      simp [hpre q hq]
    · next hm => simpa [hm] using ih

theorem numbered_noStyle {o : Opts} {args : Span → Bool} {f : Span → Nat} {k : Nat} {ts : List Tk} (h : Numbered o args f k ts) :
    Numbered o.noStyle args f k ts := by
  induction ts generalizing k with
  | nil => trivial
  | cons p ts ih =>
    unfold Numbered at h ⊢
    rw [show argTk o.noStyle args p = argTk o args p from rfl]
    split
    · next hm => rw [if_pos hm] at h; exact ⟨h.1, ih h.2⟩
    · next hm => rw [if_neg hm] at h; exact ih h

/-- The first state. -/
theorem start_at {chk : Bool} {data : Data} {args : Span → Bool} {src : List Char} {ts : List Tk} {iss : Issues} {opts : Opts} (h : Laid chk data 0 src ts)
    (hu : opts.warnUnquoted = false) (hc : opts.warnCaps = false) :
    ∃ s, St.new chk src iss opts = .ok () s ∧ At (Env.start opts data args ts) iss.issues s ts := by
  have ho : opts = opts.noStyle := by cases opts; cases hu; cases hc; rfl
  have hn := numbered_suffix (o := opts) (args := args) [] ts (laid_increasing h).2
  simp only [List.nil_append, List.filter_nil, List.length_nil] at hn
  have hn := numbered_noStyle hn
  have hf := laid_feed h [] rfl (.eof, ⟨0, 0⟩) ⟨src, 0, src⟩ (by simp [After, Data.after])
  unfold St.new Lexer.new
  cases hf with
  | eof ha h' =>
    simp only [After, Data.after] at ha
    simp at ha
    subst ha
    rw [h']
    exact ⟨_, rfl, ⟨ho, ⟨rfl, rfl⟩, rfl, rfl, rfl, _, rfl, by simp [Ahead]⟩, hn⟩
  | cons ha ht h' hf =>
    simp only [After, Data.after] at ha
    simp at ha
    subst ha
    rw [h']
    exact ⟨_, rfl, ⟨ho, ⟨rfl, rfl⟩, rfl, rfl, rfl, _, rfl, by simp [Ahead, ht]; exact hf⟩, hn⟩

theorem env_start_eof {opts : Opts} {data : Data} {args : Span → Bool} {toks : List Tk} {sp : Span} :
    Env.start opts data args (toks ++ [(.eof, sp)]) = Env.start opts data args toks := by
  unfold Env.start
  congr 1
  funext q
  simp [markerNo, argTk, marker, Token.isKw]

/-! ### The entry points -/

theorem at_token {e : Env} {is : List Issue} {s : St} {t : Token} {sp : Span} {tl : List Tk} (h : At e is s ((t, sp) :: tl)) :
    s.token = t := by
  obtain ⟨tl', h1, -⟩ := h.cur
  cases h1
  rfl

theorem p_single {e : Env} {ts : List Tk} {v : SAst} {sp : Span} (h : Stm e ts v [(.eof, sp)]) :
    P e singleStatement ts (some v) [(.eof, sp)] := by
  refine P.bind (P.tryP (stm_p h)) ?_
  refine P.bind P.curT ?_
  exact P.bind (p_when_no (e := e)) (P.ret _)

/-- No statement begins with this token: then the parser does not succeed there. -/
theorem stm_not_noStmt {e : Env} {is : List Issue} {s : St} {ts r : List Tk} {v : SAst} (hs : At e is s ts) (h : Stm e ts v r)
    (hn : Next (NoStmt e) ts) : False := by
  obtain ⟨s1, ⟨n1, h1⟩, -⟩ := (stm_p h) is s hs
  obtain ⟨s2, ⟨n2, h2⟩, -⟩ := (p_noStmt hn) is s hs
  have e1 := run_mono h1 (Nat.le_max_left n1 n2)
  have e2 := run_mono h2 (Nat.le_max_right n1 n2)
  rw [e1] at e2
  cases e2

theorem noStmt_kw {e : Env} {t : Token} (h : t.isKw .DELIMITER = true) : NoStmt e t := by
  obtain ⟨v, rfl⟩ := isKw_iff h
  refine ⟨?_, by simp, by rintro h; cases h⟩
  show ∀ k ∈ stmtWords, decide (Keyword.DELIMITER = k) = false
  decide

theorem noStmt_delim {e : Env} (hd : e.delim = .semiColon ∨ e.delim = .doubleDollar) : NoStmt e e.delim := by
  rcases hd with hd | hd <;> rw [hd] <;> exact ⟨fun _ _ => rfl, by simp, by rintro h; cases h⟩

theorem p_setDelimiter {e : Env} {d : Token} {s : Span} {ts : List Tk} (hd : d = .semiColon ∨ d = .doubleDollar) (hn : e.data s = none) :
    ∀ is st, At e is st ((d, s) :: ts) → ∃ st', Yields setDelimiter st () st' ∧ At { e with delim := d } is st' ts := by
  intro is st hs
  have hne : d ≠ .eof := by rcases hd with rfl | rfl <;> simp
  have hm : marker e.opts d = false := by rcases hd with rfl | rfl <;> rfl
  have hw : Prog.when (!(decide (d = .doubleDollar) || decide (d = .semiColon))) (warn "Unknown delimiter" s) = .ret () := by
    rcases hd with rfl | rfl <;> rfl
  obtain ⟨s1, h1, h2⟩ := (P.next (c := { e with delim := d }) hne hm (after_of e.data hn)) is _ (at_delim hs)
  refine ⟨s1, ?_, h2⟩
  refine Yields.bind (s1 := st) (a := (d, s)) ?_ ?_
  · obtain ⟨tl, h5, -⟩ := hs.cur
    cases h5
    exact .op rfl
  · show Yields (Prog.when _ _ >>= _) _ _ _
    rw [hw]
    exact Yields.bind (.ret _ _) (Yields.bind (.op rfl) h1)

/-- What a round does after skipping delimiters. -/
def stepRest (acc : List SAst) (eof : Bool) : Prog (Step (List SAst) (List SAst)) :=
  if eof then return .done acc
  else do
    let dk ← skw .DELIMITER
    match dk with
    | some _ => do
      setDelimiter
      return .cont acc
    | none => do
      let r ← Prog.tryP topStatement
      finishStatement acc r

theorem step_eq (acc : List SAst) : statementsStep acc = skipDelims >>= stepRest acc := rfl

/-- From `s` on the loop returns `l`, after what it has already, and adds no issue. -/
def Goes (is : List Issue) (s : St) (l : List SAst) : Prop :=
  ∃ b s1, Yields skipDelims s b s1 ∧ ∀ acc, ∃ x s2 s', Yields (stepRest acc b) s1 x s2 ∧ s'.issues = is ∧
    ((x = .done (acc ++ l) ∧ s2 = s') ∨ ∃ acc', x = .cont acc' ∧ Yields (.loop statementsStep acc') s2 (acc ++ l) s')

theorem Goes.loop {is : List Issue} {s : St} {l : List SAst} (h : Goes is s l) (acc : List SAst) :
    ∃ s', Yields (.loop statementsStep acc) s (acc ++ l) s' ∧ s'.issues = is := by
  obtain ⟨b, s1, h1, h2⟩ := h
  obtain ⟨x, s2, s', h3, h4, ⟨rfl, rfl⟩ | ⟨acc', rfl, h5⟩⟩ := h2 acc
  · exact ⟨_, Yields.done (by rw [step_eq]; exact h1.bind h3), h4⟩
  · exact ⟨_, Yields.cont (by rw [step_eq]; exact h1.bind h3) h5, h4⟩

theorem p_noDelims {e : Env} {t : Token} {sp : Span} {tl : List Tk} (h : t ≠ e.delim) :
    P e skipDelims ((t, sp) :: tl) (decide (t = .eof)) ((t, sp) :: tl) := by
  refine P.done (P.bind P.curT (P.bind P.delim ?_))
  exact p_iteF (by simpa using h) (P.ret _)

theorem p_top {e : Env} {ts r : List Tk} {v : SAst} (h : Stm e ts v r) : P e topStatement ts v r :=
  P.bind (stm_p h) (P.ret _)

theorem p_finish {e : Env} {r : List Tk} {v : SAst} {s : Span} {acc : List SAst} (hc : v.readsStdin = false)
    (hd : e.delim = .semiColon ∨ e.delim = .doubleDollar) (hs : e.data s = none) :
    P e (finishStatement acc (some v)) ((e.delim, s) :: r) (.cont (acc ++ [v])) r := by
  have hne : e.delim ≠ .eof := by rcases hd with h | h <;> rw [h] <;> simp
  have hm : marker e.opts e.delim = false := by rcases hd with h | h <;> rw [h] <;> rfl
  refine P.bind P.curT (P.bind P.delim ?_)
  refine P.bind (a := false) (ts1 := (e.delim, s) :: r) (p_iteF (by simp) (P.ret _)) ?_
  refine P.bind (a := acc ++ [v]) (ts1 := r) ?_ (P.ret _)
  unfold afterDelim
  simp only [hc]
  refine P.bind P.delim ?_
  exact P.bind (P.tryP (P.ctk hne hm (after_of _ hs))) (P.ret _)

/-- Reading the data. -/
theorem p_finishCopy {e : Env} {r : List Tk} {v : SAst} {s sp : Span} {d : List Char} {acc : List SAst} (hc : v.readsStdin = true)
    (hd : e.delim = .semiColon ∨ e.delim = .doubleDollar) (hs : e.data s = some (d, sp)) :
    P e (finishStatement acc (some v)) ((e.delim, s) :: r) (.cont (acc ++ [v, ⟨.node .Statement_Stdin [.str d, .span sp]⟩])) r := by
  refine P.bind P.curT (P.bind P.delim ?_)
  refine P.bind (a := false) (ts1 := (e.delim, s) :: r) (p_iteF (by simp) (P.ret _)) ?_
  refine P.bind (a := acc ++ [v, ⟨.node .Statement_Stdin [.str d, .span sp]⟩]) (ts1 := r) ?_ (P.ret _)
  unfold afterDelim
  simp only [hc]
  have : acc ++ [v, (⟨.node .Statement_Stdin [.str d, .span sp]⟩ : SAst)] = acc ++ (some v).toList ++ [snd% Statement_Stdin [d, sp]] := by
    simp only [Option.toList, List.append_assoc, List.cons_append, List.nil_append]; rfl
  rw [this]
  exact P.bind (P.stdin hd hs) (P.ret _)

/-- What is known when a statement begins here. -/
theorem stm_begins {e : Env} {is : List Issue} {s : St} {t : Token} {sp : Span} {tl r : List Tk} {v : SAst}
    (hd : e.delim = .semiColon ∨ e.delim = .doubleDollar) (ha : At e is s ((t, sp) :: tl)) (h : Stm e ((t, sp) :: tl) v r) :
    t ≠ e.delim ∧ t ≠ .eof ∧ t.isKw .DELIMITER = false := by
  refine ⟨?_, ?_, ?_⟩
  · rintro rfl
    exact stm_not_noStmt ha h (noStmt_delim hd)
  · rintro rfl
    exact stm_not_noStmt ha h ⟨fun _ _ => rfl, by simp, by rintro h; cases h⟩
  · cases hk : t.isKw .DELIMITER with
    | false => rfl
    | true => exact (stm_not_noStmt ha h (noStmt_kw hk)).elim

/-- The rounds on a script. -/
theorem scr_goes {e : Env} {ts : List Tk} {l : List SAst} (h : Scr e ts l) :
    (e.delim = .semiColon ∨ e.delim = .doubleDollar) → ∀ is s, At e is s ts → Goes is s l := by
  induction h with
  | @eof e sp =>
    intro hd is s hs
    have hne : Token.eof ≠ e.delim := by rcases hd with h | h <;> rw [h] <;> simp
    obtain ⟨s1, h1, h2⟩ := (p_noDelims hne) is s hs
    exact ⟨_, s1, h1, fun acc => ⟨.done acc, s1, s1, .ret _ _, h2.issues, .inl ⟨by simp, rfl⟩⟩⟩
  | @skip e sp ts l hn h ih =>
    intro hd is s hs
    have hne : e.delim ≠ .eof := by rcases hd with h | h <;> rw [h] <;> simp
    have hm : marker e.opts e.delim = false := by rcases hd with h | h <;> rw [h] <;> rfl
    have hb : P e (do
        let t ← curT
        let d ← Prog.op .delim
        if t = d then do
          let _ ← consume
          return .cont ()
        else return .done (decide (t = .eof)) : Prog (Step Unit Bool)) ((e.delim, sp) :: ts) (.cont ()) ts :=
      P.bind P.curT (P.bind P.delim (p_iteT rfl (P.bind (P.consume hne hm (after_of _ hn)) (P.ret _))))
    obtain ⟨s0, g1, g2⟩ := hb is s hs
    obtain ⟨b, s1, h1, h2⟩ := ih hd is s0 g2
    exact ⟨b, s1, Yields.cont (y := ()) g1 h1, h2⟩
  | @delimiter e t d s s' ts l h hd' hn hs ih =>
    intro hd is st ha
    have hne : t ≠ e.delim := by
      rintro rfl
      rcases hd with hd | hd <;> rw [hd] at h <;> cases h
    obtain ⟨s1, h1, h2⟩ := (p_noDelims hne) is st ha
    obtain ⟨s2, h3, h4⟩ := (P.skw h (by decide)) is s1 h2
    obtain ⟨s3, h5, h6⟩ := p_setDelimiter hd' hn is s2 h4
    refine ⟨_, s1, h1, fun acc => ?_⟩
    obtain ⟨s4, h7, h8⟩ := (ih hd' is s3 h6).loop acc
    refine ⟨.cont acc, s3, s4, ?_, h8, .inr ⟨acc, rfl, h7⟩⟩
    unfold stepRest
    rw [if_neg (by have := isKw_ne_eof h; simpa using this)]
    exact Yields.bind h3 (Yields.bind h5 (.ret _ _))
  | @stmt e ts r s v l h hc hn hs ih =>
    intro hd is st ha
    obtain ⟨tl, h0, -⟩ := ha.cur
    generalize st.token = t at h0
    generalize st.span = sp at h0
    subst h0
    obtain ⟨hne, hne', hk⟩ := stm_begins hd ha h
    obtain ⟨s1, h1, h2⟩ := (p_noDelims hne) is st ha
    refine ⟨_, s1, h1, fun acc => ?_⟩
    have hb : P e (stepRest acc (decide (t = .eof))) ((t, sp) :: tl) (.cont (acc ++ [v])) r := by
      unfold stepRest
      rw [if_neg (by simpa using hne')]
      exact P.bind (P.skw_no hk) (P.bind (P.tryP (p_top h)) (p_finish (acc := acc) (by rw [← takesData_eq]; exact hc) hd hn))
    obtain ⟨s2, h3, h4⟩ := hb is s1 h2
    obtain ⟨s4, h7, h8⟩ := (ih hd is s2 h4).loop (acc ++ [v])
    exact ⟨.cont (acc ++ [v]), s2, s4, h3, h8, .inr ⟨_, rfl, by simpa using h7⟩⟩
  | @copy e ts r s sp' d v l h hc hn hs ih =>
    intro hd is st ha
    obtain ⟨tl, h0, -⟩ := ha.cur
    generalize st.token = t at h0
    generalize st.span = sp at h0
    subst h0
    obtain ⟨hne, hne', hk⟩ := stm_begins hd ha h
    obtain ⟨s1, h1, h2⟩ := (p_noDelims hne) is st ha
    refine ⟨_, s1, h1, fun acc => ?_⟩
    have hb : P e (stepRest acc (decide (t = .eof))) ((t, sp) :: tl) (.cont (acc ++ [v, ⟨.node .Statement_Stdin [.str d, .span sp']⟩])) r := by
      unfold stepRest
      rw [if_neg (by simpa using hne')]
      exact P.bind (P.skw_no hk) (P.bind (P.tryP (p_top h)) (p_finishCopy (acc := acc) (by rw [← takesData_eq]; exact hc) hd hn))
    obtain ⟨s2, h3, h4⟩ := hb is s1 h2
    obtain ⟨s4, h7, h8⟩ := (ih hd is s2 h4).loop (acc ++ [v, ⟨.node .Statement_Stdin [.str d, .span sp']⟩])
    exact ⟨.cont _, s2, s4, h3, h8, .inr ⟨_, rfl, by simpa using h7⟩⟩

theorem returns_one {chk : Bool} {src : List Char} {iss : Issues} {opts : Opts} {v : Option SAst} {s s' : St}
    (hn : St.new chk src iss opts = .ok () s) (h : Yields singleStatement s v s') :
    Api.one.Returns chk src iss opts v s'.issues := by
  obtain ⟨n, h⟩ := h
  refine ⟨n, ?_⟩
  simp only [Api.run, parseStatement, runApi, hn, h, Out.res]

theorem returns_many {chk : Bool} {src : List Char} {iss : Issues} {opts : Opts} {l : List SAst} {s s' : St}
    (hn : St.new chk src iss opts = .ok () s) (h : Yields statements s l s') :
    Api.many.Returns chk src iss opts l s'.issues := by
  obtain ⟨n, h⟩ := h
  refine ⟨n, ?_⟩
  simp only [Api.run, parseStatements, runApi, hn, h, Out.res]

/-- Every marker is an argument. -/
def allArgs : Span → Bool := fun _ => true

/-- There are no arguments. -/
def noArgs : Span → Bool := fun _ => false

/-- A script without data. -/
theorem isScript_written {chk : Bool} {args : Span → Bool} {opts : Opts} {src : List Char} {toks : List Tk} {l : List SAst} (hw : Written chk 0 src toks)
    (h : Scr (Env.start opts noData args toks) (toks ++ [eofTk src]) l) : IsScript chk opts src l := by
  have hl := written_laid hw
  simp only [Nat.zero_add] at hl
  refine ⟨_, args, _, hl, ?_⟩
  rw [env_start_eof]
  exact h

/-- A statement without data. -/
theorem isStatement_written {chk : Bool} {args : Span → Bool} {opts : Opts} {src : List Char} {toks : List Tk} {v : SAst} (hw : Written chk 0 src toks)
    (h : Stm (Env.start opts noData args toks) (toks ++ [eofTk src]) v [eofTk src]) : IsStatement chk opts src v := by
  have hl := written_laid hw
  simp only [Nat.zero_add] at hl
  refine ⟨_, args, _, hl, ?_⟩
  rw [env_start_eof]
  exact h

/-! ### The theorems -/

/-- **C38** for `parse_statement`: if the source is written token by token and the tokens are a statement of the grammar
with AST `v`, then `v` is returned and no issue is added.  (The two warnings about style are switched off.) -/
theorem C38_statement (chk : Bool) (src : List Char) (iss : Issues) (opts : Opts) (v : SAst)
    (hu : opts.warnUnquoted = false) (hc : opts.warnCaps = false) (h : IsStatement chk opts src v) :
    Api.one.Returns chk src iss opts (some v) iss.issues := by
  obtain ⟨data, args, ts, hw, h⟩ := h
  obtain ⟨s, h1, h2⟩ := start_at (args := args) (iss := iss) hw hu hc
  obtain ⟨s', h3, h4⟩ := (p_single h) _ _ h2
  rw [← h4.issues]
  exact returns_one h1 h3

/-- **C38** for `parse_statements`: the same for a script, that is, statements each one followed by the
delimiter, and COPY statements also by their data. -/
theorem C38_script (chk : Bool) (src : List Char) (iss : Issues) (opts : Opts) (l : List SAst)
    (hu : opts.warnUnquoted = false) (hc : opts.warnCaps = false) (h : IsScript chk opts src l) :
    Api.many.Returns chk src iss opts l iss.issues := by
  obtain ⟨data, args, ts, hw, h⟩ := h
  obtain ⟨s, h1, h2⟩ := start_at (args := args) (iss := iss) hw hu hc
  obtain ⟨s', h3, h4⟩ := (scr_goes h (.inl rfl) _ _ h2).loop []
  rw [← h4]
  exact returns_many h1 h3

theorem noStyle_eq (o : Opts) : o.noStyle = o.withWarnings false false := rfl

theorem with_self (o : Opts) : o.withWarnings o.warnUnquoted o.warnCaps = o := rfl

/-- **C38** with any values of the two flags: the statement is parsed to its AST, and all issues are about style, of the
kinds that are switched on. -/
theorem C38_statement_style (chk : Bool) (src : List Char) (old : List Issue) (opts : Opts) (v : SAst) (h : IsStatement chk opts src v) :
    ∃ y, Api.one.Returns chk src ⟨src, old⟩ opts (some v) (old ++ y) ∧ ∀ i ∈ y, i.isStyle opts.warnUnquoted opts.warnCaps := by
  have := C38_statement chk src ⟨src, old⟩ (opts.withWarnings false false) v rfl rfl h
  obtain ⟨x, y, h1, h2, h3⟩ := C14_style .one chk src old opts opts.warnUnquoted opts.warnCaps _ _ this
  have hx : x = [] := by simpa using h1
  subst hx
  rw [with_self] at h3
  exact ⟨y, h3, h2.nil_left⟩

/-- **C38** for scripts, with any values of the two flags. -/
theorem C38_script_style (chk : Bool) (src : List Char) (old : List Issue) (opts : Opts) (l : List SAst) (h : IsScript chk opts src l) :
    ∃ y, Api.many.Returns chk src ⟨src, old⟩ opts l (old ++ y) ∧ ∀ i ∈ y, i.isStyle opts.warnUnquoted opts.warnCaps := by
  have := C38_script chk src ⟨src, old⟩ (opts.withWarnings false false) l rfl rfl h
  obtain ⟨x, y, h1, h2, h3⟩ := C14_style .many chk src old opts opts.warnUnquoted opts.warnCaps _ _ this
  have hx : x = [] := by simpa using h1
  subst hx
  rw [with_self] at h3
  exact ⟨y, h3, h2.nil_left⟩

end SqlParse
