import Verif.Proofs.Kw
import Verif.Proofs.SafeRules
import Verif.Model.Statement
import Lean.Elab.Tactic
/-! `SafeT` for the helper functions of parser.rs, and the tactic `walk` that goes through a program. -/
namespace SqlParse
variable {C : Ctx} {P : Token → Prop} {α β σ : Type}

/-! ### Issues -/

theorem good_slice {sp : Span} (h : GoodSpan C sp) : ∃ seg, slice C.src sp.start sp.stop = some seg := by
  have := slice_isSome h.b1 h.b2 h.le
  exact this

theorem mkFrags_good {frs : List (String × Span)} (h : ∀ f ∈ frs, good C f.2) : ∃ fs, mkFrags C.src frs = some fs := by
  induction frs with
  | nil => exact ⟨[], rfl⟩
  | cons a r ih =>
    obtain ⟨fs, h1⟩ := ih (fun f hf => h f (by simp [hf]))
    obtain ⟨seg, h2⟩ := good_slice (h a (by simp))
    exact ⟨⟨a.1, a.2, seg⟩ :: fs, by obtain ⟨m, sp⟩ := a; simp only [mkFrags]; rw [h2, h1]⟩

/-- An issue with the message `m` at `sp` would be right. -/
def Right (C : Ctx) (l : Level) (m : Msg) (sp : Span) : Prop :=
  ∀ seg fs, slice C.src sp.start sp.stop = some seg → Issue.Truth C.chk C.src C.opts ⟨l, m, sp, seg, fs⟩

/-- An issue with the message `m` at `sp` is reported. -/
def Said (C : Ctx) (m : Msg) (sp : Span) : Prop := ∃ i, C.said i ∧ i.span = sp ∧ i.message = m

theorem issue_post {s : St} (hs : Inv C s) {l : Level} {m : Msg} {sp : Span} {frs : List (String × Span)}
    (h : good C sp) (hf : ∀ f ∈ frs, good C f.2) (ht : Right C l m sp) :
    Post C s (fun _ => (l = .error → C.E) ∧ Said C m sp) (s.issue l m sp frs) := by
  obtain ⟨seg, h1⟩ := good_slice h
  obtain ⟨fs, h2⟩ := mkFrags_good hf
  have hg := issue_good hs.base l m sp frs
  have hi := hs.isrc
  unfold St.issue at hg ⊢
  rw [hi, h1, h2] at hg ⊢
  intro hfut
  refine ⟨⟨hg.1, hs.src, rfl, hs.opts, hs.chk, hs.lo, ?_, hs.arg, hs.pw, hs.mark, ?_⟩, ⟨?_, ?_⟩, rfl, .inl rfl⟩
  · have := hs.n0; simp; omega
  · intro htr i hi
    have := hs.n0
    simp only [List.drop_append, Nat.sub_eq_zero_of_le this, List.drop_zero] at hi
    rcases List.mem_append.1 hi with hi | hi
    · exact hs.says htr i hi
    · simp at hi; subst hi; exact ht seg fs h1
  · rintro rfl
    apply hfut.err
    refine ⟨⟨.error, m, sp, seg, fs⟩, ?_, rfl⟩
    have := hs.n0
    simp [List.drop_append, Nat.sub_eq_zero_of_le this]
  · refine ⟨⟨l, m, sp, seg, fs⟩, hfut.say _ ?_, rfl, rfl⟩
    have := hs.n0
    simp [List.drop_append, Nat.sub_eq_zero_of_le this]

theorem errM_safe {m : Msg} {sp : Span} {frs : List (String × Span)} (h : good C sp) (hf : ∀ f ∈ frs, good C f.2)
    (ht : Right C .error m sp) : SafeT P C (err m sp frs) (fun _ => C.E ∧ Said C m sp) := by
  intro R n h1 h2 s hs _
  have := issue_post (l := .error) (m := m) hs h hf ht
  revert this
  show Post C s _ (s.issue .error m sp frs) → Post C s _ (s.issue .error m sp frs)
  cases s.issue .error m sp frs with
  | ok a s' => intro h hf; obtain ⟨a1, a2, a3⟩ := h hf; exact ⟨a1, ⟨a2.1 rfl, a2.2⟩, a3⟩
  | err s' => exact id
  | panic m => exact id
  | oof => exact id

theorem plain_ordinary {o : Opts} {m : String}
    (h : m ∉ blameTexts ++ postgresOnlyTexts ++ mariaOnlyTexts ++ notPostgresTexts ++ notMariaTexts) : PlainTrue o m := by
  simp only [List.mem_append, not_or] at h
  exact ⟨h.1.1.1.1, fun e => absurd e h.1.1.1.2, fun e => absurd e h.1.1.2, fun e => absurd e h.1.2, fun e => absurd e h.2⟩

theorem plain_dialect {o : Opts} {m : String} (h : m ∉ blameTexts) (h1 : m ∈ postgresOnlyTexts → o.dialect ≠ .postgreSQL)
    (h2 : m ∈ mariaOnlyTexts → o.dialect ≠ .mariaDB) (h3 : m ∈ notPostgresTexts → o.dialect = .postgreSQL)
    (h4 : m ∈ notMariaTexts → o.dialect = .mariaDB) : PlainTrue o m := ⟨h, h1, h2, h3, h4⟩

/-- Proves `PlainTrue`. -/
macro "plain" : tactic => `(tactic| first
  | assumption
  | (refine plain_ordinary ?_; simp [blameTexts, postgresOnlyTexts, mariaOnlyTexts, notPostgresTexts, notMariaTexts]; done)
  | (refine plain_dialect ?_ ?_ ?_ ?_ ?_
     focus (simp [blameTexts]; done)
     all_goals intro hplain
     all_goals
      first
        | (simp [postgresOnlyTexts, mariaOnlyTexts, notPostgresTexts, notMariaTexts] at hplain; done)
        | (clear hplain; simp_all; done)))

theorem err_safe {m : String} {sp : Span} {frs : List (String × Span)} (h : good C sp) (hf : ∀ f ∈ frs, good C f.2)
    (hm : PlainTrue C.opts m := by plain) :
    SafeT P C (err m sp frs) (fun _ => C.E) :=
  (errM_safe (m := m) h hf (fun _ _ _ => hm)).imp (fun _ h => h.1)

theorem err_bind {m : String} {sp : Span} {f : Unit → Prog β} {Q : β → Prop} (h : good C sp)
    (hf : C.E → Safe C (f ()) Q) (hm : PlainTrue C.opts m := by plain) : SafeT P C (err m sp >>= f) Q :=
  bind_safe (err_safe h (by simp)) (fun _ hE => hf hE)

theorem warn_safe {m : String} {sp : Span} (h : good C sp) (hm : PlainTrue C.opts m := by plain) : SafeT P C (warn m sp) (good C) := by
  intro R n h1 h2 s hs _
  have := issue_post (l := .warning) (m := .plain m) (frs := []) hs h (by simp) (fun _ _ _ => hm)
  revert this
  show Post C s _ (s.issue .warning m sp []) → Post C s _ (s.issue .warning m sp [])
  cases s.issue .warning m sp [] with
  | ok a s' => intro h hf; obtain ⟨a1, a2, a3⟩ := h hf; exact ⟨a1, trivial, a3⟩
  | err s' => exact id
  | panic m => exact id
  | oof => exact id

theorem issueIf_safe {fl : WarnFlag} {l : Level} {v : List Char} {sp : Span} (h : good C sp)
    (ht : C.opts.flag fl = true → Right C l (fl.msg v) sp) :
    SafeT P C (issueIf fl l v sp) (fun _ => C.opts.flag fl = true → Said C (fl.msg v) sp) := by
  intro R n h1 h2 s hs _
  show Post C s _ (if s.opts.flag fl then s.issue l (fl.msg v) sp [] else .ok () s)
  split
  · next hfl =>
    rw [hs.opts] at hfl
    have := issue_post (l := l) (m := fl.msg v) (frs := []) hs h (by simp) (ht hfl)
    revert this
    cases s.issue l (fl.msg v) sp [] with
    | ok a s' => intro h hf; obtain ⟨a1, a2, a3⟩ := h hf; exact ⟨a1, fun _ => a2.2, a3⟩
    | err s' => exact id
    | panic m => exact id
    | oof => exact id
  · next hfl =>
    rw [hs.opts] at hfl
    exact fun _ => ⟨hs, fun h => absurd h hfl, rfl, .inl rfl⟩

/-! ### Control -/

theorem when_safeR {c : Bool} {p : Prog Unit} {R : Prop} (h : c = true → SafeT P C p (fun _ => R)) :
    SafeT P C (Prog.when c p) (fun _ => c = true → R) := by
  unfold Prog.when
  split
  · exact (h ‹_›).imp (fun _ hr _ => hr)
  · exact ret_safe (fun h => absurd h ‹_›)

theorem when_safe {c : Bool} {p : Prog Unit} (h : c = true → SafeT P C p (good C)) : SafeT P C (Prog.when c p) (good C) := by
  unfold Prog.when
  split
  · exact h ‹_›
  · exact ret_safe trivial

theorem when_bind {c : Bool} {p : Prog Unit} {f : Unit → Prog β} {Q : β → Prop} (h : c = true → SafeT P C p (fun _ => C.E))
    (hf : (c = true → C.E) → Safe C (f ()) Q) : SafeT P C (Prog.when c p >>= f) Q :=
  bind_safe (when_safeR h) (fun _ => hf)

/-- `Prog.when` with a body that says nothing -/
theorem when_bind' {c : Bool} {p : Prog Unit} {f : Unit → Prog β} {Q : β → Prop} (h : c = true → SafeT P C p (fun _ => True))
    (hf : Safe C (f ()) Q) : SafeT P C (Prog.when c p >>= f) Q :=
  bind_safe (when_safeR h) (fun _ _ => hf)

theorem optMap_safe [HasGood α] [HasGood β] {o : Option α} {f : α → Prog β} (ho : good C o)
    (h : ∀ a, good C a → SafeT P C (f a) (good C)) : SafeT P C (optMap o f) (good C) := by
  cases o with
  | none => exact ret_safe trivial
  | some a => exact bind'_safe (h a ho) (fun b hb => ret_safe hb)

theorem optIf_safe [HasGood β] {c : Bool} {p : Prog β} (h : c = true → SafeT P C p (good C)) :
    SafeT P C (optIf c p) (good C) := by
  unfold optIf
  split
  · exact bind'_safe (h ‹_›) (fun b hb => ret_safe hb)
  · exact ret_safe trivial

theorem expectedErrorW_safe {w : Wanted} (hw : ∀ t, P t → w.Missed t) : SafeT P C (expectedError w) (fun _ => C.E) := by
  intro R n h1 h2 s hs hP
  show Post C s _ (runWith R n (err (.expected w) s.span) s)
  refine Post.cond (runWith_good h1 n _ s hs.base) hs.base hs.src ?_
  intro hfut
  have ht := hs.base.tok
  rw [hs.src, hs.chk] at ht
  refine ((errM_safe (P := P) (m := .expected w) (spanGood hs hfut) (by simp) ?_).imp (fun _ h => h.1)) R n h1 h2 s hs hP
  intro seg fs _
  exact ⟨rfl, s.token, ht.isToken, hw _ hP⟩

/-- "Expected `m` here" is true of every token that satisfies `P`. -/
structure LitOK (P : Token → Prop) (m : String) : Prop where
  missed : ∀ t, P t → Wanted.Missed t (.lit m)

theorem isKw_ident_ne {t : Token} {k : Keyword} (h : t.isKw k = false) : ∀ v, t ≠ .ident v k := by
  rintro v rfl; simp [Token.isKw] at h

theorem LitOK.intro {m : String} (h : ∀ t, P t → (∀ k ∈ (namedWords.lookup m).getD [], t.isKw k = false) ∧
    (∀ u ∈ (namedTokens.lookup m).getD [], t ≠ u) ∧ t.ofKind m = false) : LitOK P m :=
  ⟨fun t ht => ⟨fun k hk => isKw_ident_ne ((h t ht).1 k hk), (h t ht).2.1, (h t ht).2.2⟩⟩

/-- A text that names nothing. -/
theorem LitOK.silent {m : String} (h1 : namedWords.lookup m = none) (h2 : namedTokens.lookup m = none)
    (h3 : ∀ t, Token.ofKind m t = false) : LitOK P m :=
  LitOK.intro fun t _ => ⟨by simp [h1], by simp [h2], h3 t⟩

/-- "Expected `m` here" is true of every token that does not end a recovery. -/
abbrev EndOK (e : Token → Bool) (m : String) : Prop := LitOK (fun t => e t = false) m

/-- Proves `LitOK`. -/
macro "lit" : tactic => `(tactic| first
  | assumption
  | (intro h; cases h; done)
  | ((try intro _)
     refine LitOK.intro (fun t ht => ?_)
     (try dsimp only at ht)
     (try subst ht)
     (try simp [isRParen, isRParenComma, isBlockEnd, isCreatable] at ht)
     refine ⟨?_, ?_, ?_⟩
     focus ((try simp [namedWords, List.lookup]) <;> (try simp_all [hintUseTable, hintTypeTable, indexTypeTable, triggerTimeTable, triggerEventTable, algorithmTable,
       insertTypeTable, signalTable, or_imp, forall_and]) <;> done)
     focus ((try simp [namedTokens, List.lookup]) <;> (try simp_all) <;> done)
     focus ((try simp [Token.ofKind]) <;> (try (cases t <;> simp_all [Token.ofKind])) <;> done)))

theorem expectedError_safe {m : String} (hw : LitOK P m := by lit) : SafeT P C (expectedError m) (fun _ => C.E) :=
  expectedErrorW_safe (w := m) hw.missed

theorem expectedError_bind {m : String} {f : Unit → Prog β} {Q : β → Prop}
    (hf : C.E → Safe C (f ()) Q) (hw : LitOK P m := by lit) : SafeT P C (expectedError m >>= f) Q :=
  bind_safe (expectedError_safe hw) (fun _ hE => hf hE)

theorem expectedFailure_safe {m : String} {Q : α → Prop} (hw : LitOK P m := by lit) : SafeT P C (expectedFailure m) Q :=
  expectedError_bind (fun hE => throw_safe hE) hw

theorem expectedFailureW_safe {w : Wanted} {Q : α → Prop} (hw : ∀ t, P t → w.Missed t) : SafeT P C (expectedFailure w) Q :=
  bind_safe (expectedErrorW_safe hw) (fun _ hE => throw_safe hE)

theorem errHere_safe {m : String} {Q : α → Prop} (hm : PlainTrue C.opts m := by plain) : SafeT P C (errHere m) Q :=
  curS_bind (fun _ hsp => err_bind hsp (fun hE => throw_safe hE))

theorem orExpected_safe [HasGood α] {o : Option α} {m : String} (h : good C o) (hw : o = none → LitOK P m := by lit) :
    SafeT P C (orExpected o m) (good C) := by
  cases o with
  | none => exact expectedFailure_safe (hw rfl)
  | some a => exact ret_safe h

theorem orExpected_bind [HasGood α] {o : Option α} {m : String} {f : α → Prog β} {Q : β → Prop} (h : good C o)
    (hw : o = none → LitOK P m := by lit) (hf : ∀ a, o = some a → good C a → Safe C (f a) Q) : SafeT P C (orExpected o m >>= f) Q := by
  refine bind_safe (Q1 := fun a => o = some a ∧ good C a) ?_ (fun a ha => hf a ha.1 ha.2)
  cases o with
  | none => exact expectedFailure_safe (hw rfl)
  | some a => exact ret_safe ⟨rfl, h⟩

/-! ### Recovery -/

theorem recover_safe {e : Token → Bool} (hE : C.E) : SafeT P C (recover e) (fun _ => True) := by
  refine loop_inv (I := fun _ => True) ?_ trivial
  intro br _
  refine curT_bind (fun t _ => ite_safe (fun _ => pure_safe trivial) (fun _ => ite_safe (fun _ => throw_safe hE) (fun _ => ?_)))
  refine delim_bind (fun d => ite_safe (fun _ => throw_safe hE) (fun _ => ?_))
  exact bind_good next_safe (fun _ _ => pure_safe trivial)

theorem recoveredEnd_safe {m : String} {e : Token → Bool} {ok : Bool} (h : ok = false → C.E)
    (he : EndOK e m := by lit) : SafeT P C (recoveredEnd m e ok) (fun _ => True) := by
  refine when_bind' (fun hc => recover_safe (h (by simpa using hc))) ?_
  refine curT_bind (fun t _ => (when_safeR (R := True) ?_).imp (fun _ _ => trivial))
  intro ht
  exact expectedError_bind (fun hE => recover_safe hE) ⟨fun _ e => he.missed _ (by subst e; simpa using ht)⟩

/-- What an accumulating closure guarantees. -/
def AccPost [HasGood σ] (C : Ctx) (r : Bool × σ) : Prop := good C r.2 ∧ (r.1 = false → C.E)

theorem recoveredAcc_safe [HasGood σ] {m : String} {e : Token → Bool} {p : Prog (Bool × σ)} (h : SafeT P C p (AccPost C))
    (he : EndOK e m := by lit) : SafeT P C (recoveredAcc m e p) (good C) :=
  bind_safe h (fun _ hr => bind_safe (recoveredEnd_safe hr.2 he) (fun _ _ => pure_safe hr.1))

theorem recovered_safe {m : String} {e : Token → Bool} {p : Prog α} {Q : α → Prop} (h : SafeT P C p Q)
    (he : EndOK e m := by lit) : SafeT P C (recovered m e p) (fun o => match o with | some a => Q a | none => C.E) :=
  bind_safe (tryP'_safe h) (fun r hr => bind_safe (recoveredEnd_safe (by
    intro hs; cases r with
    | none => exact hr
    | some a => simp at hs) he) (fun _ _ => pure_safe hr))

theorem recovered_bind [HasGood α] {m : String} {e : Token → Bool} {p : Prog α} {f : Option α → Prog β} {Q : β → Prop}
    (h : SafeT P C p (good C)) (hf : ∀ o, good C o → (o = none → C.E) → Safe C (f o) Q) (he : EndOK e m := by lit) :
    SafeT P C (recovered m e p >>= f) Q :=
  bind_safe (recovered_safe h he) (fun o ho => hf o (by cases o with | none => trivial | some a => exact ho)
    (by rintro rfl; exact ho))

theorem accLoop_safe [HasGood σ] {body : σ → Prog (Step σ σ)} {x : σ} (h : ∀ x, good C x → Safe C (body x) (good C))
    (hx : good C x) : SafeT P C (accLoop body x) (AccPost C) := by
  refine loop_inv (I := good C) ?_ hx
  intro x hx
  refine bind_safe (tryP'_safe (h x hx)) ?_
  intro r hr
  refine pure_safe ?_
  cases r with
  | none => exact ⟨hx, fun _ => hr⟩
  | some r =>
    cases r with
    | cont y => exact hr
    | done y => exact ⟨hr, by simp⟩

/-! ### Lists -/

theorem good_append [HasGood α] {l l' : List α} (h : ∀ a ∈ l, good C a) (h' : ∀ a ∈ l', good C a) :
    ∀ a ∈ l ++ l', good C a := by
  intro a ha
  rcases List.mem_append.1 ha with h1 | h1
  · exact h a h1
  · exact h' a h1

theorem good_toList [HasGood α] {o : Option α} (h : good C o) : ∀ a ∈ o.toList, good C a := by
  cases o with
  | none => simp
  | some b => intro a ha; simp at ha; subst ha; exact h

/-- Goodness of lists, whatever the instance (there is a special one for texts). -/
abbrev GoodList [HasGood α] (C : Ctx) (l : List α) : Prop := ∀ a ∈ l, good C a

theorem sepLoop_safe [HasGood α] {more : Prog Bool} {item : Prog α} (hm : Safe C more (good C)) (hi : Safe C item (good C)) :
    SafeT P C (sepLoop more item) (GoodList C) := by
  refine loop_inv (I := GoodList C) ?_ (by simp [GoodList])
  intro acc hacc
  refine bind_good hi (fun a ha => bind_good hm (fun m _ => pure_safe ?_))
  have : ∀ b ∈ acc ++ [a], good C b := good_append hacc (by simpa using ha)
  cases m <;> exact this

theorem TokOK.slice {chk : Bool} {src : List Char} {t : Token} {sp : Span} (h : TokOK chk src t sp) :
    ∃ w rest, slice src sp.start sp.stop = some w ∧ Lexeme chk t w rest := by
  obtain ⟨a, w, b, h1, h2, h3, h4, -⟩ := h
  refine ⟨w, b, ?_, h4⟩
  rw [h1, h2, h3]; exact slice_mid a w b

theorem kw_slice {v : List Char} {k : Keyword} {sp : Span} {chk : Bool} {src : List Char} (h : TokOK chk src (.ident v k) sp)
    (hk : k ≠ .QUOTED_IDENTIFIER) : slice src sp.start sp.stop = some v ∧ v ≠ [] ∧ k = Keyword.ofStr (upper v) := by
  obtain ⟨w, rest, h1, h2⟩ := h.slice
  rcases h2 with h2 | h2
  · exact ⟨by rw [h1, h2.1], h2.2.1, h2.2.2.2.2.2⟩
  · exact absurd h2.2.2 hk

theorem capsWarn_safe {v : List Char} {k : Keyword} {sp : Span} (h : good C sp) (ht : TokOK C.chk C.src (.ident v k) sp)
    (hk : k.isWord = true) : SafeT P C (capsWarn v sp) (good C) := by
  refine (when_safeR (R := True) (fun hu => (issueIf_safe h ?_).imp (fun _ _ => trivial))).imp (fun _ _ => trivial)
  intro hfl seg fs hseg
  obtain ⟨h1, h2, h3⟩ := kw_slice ht (isWord_ne hk).2
  rw [h1] at hseg
  cases hseg
  refine ⟨hfl, rfl, rfl, ?_, h3 ▸ (isWord_ne hk).1, k, ht.isToken⟩
  simpa [allUpper] using hu

/-- after `capsWarn` the token is still the same -/
theorem capsWarn_bind {v : List Char} {k : Keyword} {sp : Span} {f : Unit → Prog β} {Q : β → Prop} (h : good C sp)
    (ht : TokOK C.chk C.src (.ident v k) sp) (hk : k.isWord = true)
    (hf : Safe C (f ()) Q) : SafeT P C (capsWarn v sp >>= f) Q :=
  bind_good (capsWarn_safe h ht hk) (fun _ _ => hf)

theorem ckw_safe' {k : Keyword} (hw : k.isWord = true := by first | rfl | assumption) : SafeT P C (ckw k) (fun sp => good C sp ∧ ∃ v sp', TokOK C.chk C.src (.ident v k) sp') := by
  refine cur_bind (fun t sp _ ht hsp => ?_)
  dsimp only
  split
  · refine ite_safe (fun hk => capsWarn_bind hsp ht (hk ▸ hw) (consume_safe.imp (fun _ h => ⟨h, _, sp, by subst hk; exact ht⟩)))
      (fun hk => expectedFailureW_safe ?_)
    rintro _ rfl v he
    cases he; exact hk rfl
  · next hn => exact expectedFailureW_safe (by rintro _ rfl v he; exact hn _ _ he)

theorem ckw_safe {k : Keyword} (hw : k.isWord = true := by first | rfl | assumption) : SafeT P C (ckw k) (good C) := (ckw_safe' hw).imp (fun _ h => h.1)

theorem ckwsTail_safe {sp : Span} {ks : List Keyword} (h : good C sp) (hw : ks.all Keyword.isWord = true) :
    SafeT P C (ckwsTail sp ks) (good C) := by
  induction ks generalizing P sp with
  | nil => exact ret_safe h
  | cons k ks ih =>
    simp only [List.all_cons, Bool.and_eq_true] at hw
    exact bind_good (ckw_safe hw.1) (fun s hs => ih (joinSpan_good hs h) hw.2)

theorem ckws_safe {k : Keyword} {ks : List Keyword} (hw : (k :: ks).all Keyword.isWord = true := by first | rfl | assumption) :
    SafeT P C (ckws k ks) (good C) := by
  simp only [List.all_cons, Bool.and_eq_true] at hw
  exact bind_good (ckw_safe hw.1) (fun _ h => ckwsTail_safe h hw.2)

theorem skw_safe {k : Keyword} (hw : k.isWord = true := by first | rfl | assumption) : SafeT P C (skw k) (good C) := by
  refine cur_bind (fun t sp _ ht hsp => ?_)
  dsimp only
  split
  · exact ite_safe (fun hk => capsWarn_bind hsp ht (hk ▸ hw) (bind_good consume_safe (fun _ h => pure_safe h))) (fun _ => pure_safe trivial)
  · exact pure_safe trivial

theorem ctk_safe {t : Token} : SafeT P C (ctk t) (good C) :=
  curT_bind (fun _ _ => ite_safe (fun _ => consume_safe) (fun h => expectedFailureW_safe (by rintro _ rfl; exact h)))

theorem stk_safe {t : Token} : SafeT P C (stk t) (good C) :=
  curT_bind (fun _ _ => ite_safe (fun _ => bind_good consume_safe (fun _ h => pure_safe h)) (fun _ => pure_safe trivial))

theorem skips_safe {t : Token} : SafeT P C (skips t) (good C) :=
  bind_good stk_safe (fun _ _ => pure_safe trivial)

theorem commaList_safe [HasGood α] {item : Prog α} (hi : Safe C item (good C)) : SafeT P C (commaList item) (GoodList C) :=
  sepLoop_safe skips_safe hi

theorem recList_safe [HasGood α] {m : String} {e : Token → Bool} {item : Prog α} (hi : Safe C item (good C))
    (he : EndOK e m := by lit) : SafeT P C (recList m e item) (GoodList C) := by
  refine loop_inv (I := GoodList C) ?_ (by simp [GoodList])
  intro acc hacc
  refine recovered_bind hi (fun o ho _ => bind_good skips_safe (fun m _ => pure_safe ?_)) he
  have : ∀ b ∈ acc ++ o.toList, good C b := good_append hacc (good_toList ho)
  cases m <;> exact this

theorem manyOpt_safe [HasGood α] {p : Prog (Option α)} (h : Safe C p (good C)) : SafeT P C (manyOpt p) (GoodList C) := by
  refine loop_inv (I := GoodList C) ?_ (by simp [GoodList])
  intro acc hacc
  refine bind_good h (fun o ho => pure_safe ?_)
  cases o with
  | none => exact hacc
  | some a => exact good_append hacc (by intro b hb; simp at hb; subst hb; exact ho)

/-! ### Identifiers, strings, numbers -/

theorem tok_ident {v : List Char} {k : Keyword} {sp : Span} (h : TokOK C.chk C.src (.ident v k) sp)
    (hk : k.reserved = true → C.E) : IdentOK C v sp := by
  obtain ⟨w, rest, h1, h2⟩ := h.slice
  rcases h2 with h2 | h2
  · cases hr : k.reserved with
    | true => exact .inl (hk hr)
    | false => exact .inr ⟨w, h1, .inl ⟨h2.1, by rw [← h2.2.2.2.2.2, hr]⟩⟩
  · exact .inr ⟨w, h1, .inr (.inl h2.1)⟩

theorem ident_good {v : List Char} {sp : Span} (h : good C sp) (hi : IdentOK C v sp) (hw : Warned C v sp) : good C (Ast.ident v sp) :=
  ⟨.ident h hi hw, sp, rfl⟩

/-- Text that is longer than `v` is not `v`. -/
theorem warned_quoted {v w : List Char} {sp : Span} (h : slice C.src sp.start sp.stop = some w) (hw : w.length ≠ v.length) :
    Warned C v sp := by
  intro _ _ h1
  rw [h] at h1
  cases h1
  exact absurd rfl hw

theorem warned_tok {v : List Char} {k : Keyword} {sp : Span} (ht : TokOK C.chk C.src (.ident v k) sp)
    (h : k ≠ .QUOTED_IDENTIFIER → C.opts.warnUnquoted = true → Said C (.unquoted v) sp ∨ Said C (.reserved v) sp) : Warned C v sp := by
  obtain ⟨w, rest, h1, h2⟩ := ht.slice
  rcases h2 with h2 | h2
  · intro hf hv _
    have hk : k ≠ .QUOTED_IDENTIFIER := by rw [h2.2.2.2.2.2]; exact ofStr_ne_quoted _
    rcases h hk hf with ⟨i, g1, g2, g3⟩ | ⟨i, g1, g2, g3⟩
    · exact ⟨i, g1, g2, .inl g3⟩
    · exact ⟨i, g1, g2, .inr g3⟩
  · exact warned_quoted h1 (by rw [h2.1]; simp; omega)

theorem right_reserved {v : List Char} {k : Keyword} {sp : Span} (ht : TokOK C.chk C.src (.ident v k) sp) (hk : k.reserved = true) :
    Right C .error (.reserved v) sp := by
  intro seg fs hseg
  obtain ⟨h1, h2, h3⟩ := kw_slice ht (by rintro rfl; exact absurd hk (by decide +kernel))
  rw [h1] at hseg; cases hseg
  exact ⟨rfl, rfl, h3 ▸ hk, k, ht.isToken⟩

theorem right_unquoted {v : List Char} {k : Keyword} {sp : Span} {l : Level} (ht : TokOK C.chk C.src (.ident v k) sp)
    (hr : ¬k.reserved = true) (hk : k ≠ .QUOTED_IDENTIFIER) (hf : C.opts.flag .unquoted = true) : Right C l (.unquoted v) sp := by
  intro seg fs hseg
  obtain ⟨h1, h2, h3⟩ := kw_slice ht hk
  rw [h1] at hseg; cases hseg
  exact ⟨hf, rfl, by rw [← h3]; simpa using hr, k, ht.isToken⟩

/-- What the reports about an identifier guarantee. -/
def Noted (C : Ctx) (v : List Char) (k : Keyword) (sp : Span) : Prop :=
  (k.reserved = true → C.E) ∧
  (k ≠ .QUOTED_IDENTIFIER → C.opts.warnUnquoted = true → Said C (.unquoted v) sp ∨ Said C (.reserved v) sp)

theorem sstring_good {v : List Char} {sp : Span} (h : good C sp) : good C (Ast.sstring v sp) := ⟨.sstring h, sp, rfl⟩

theorem tokenToIdent_safe {t : Token} {sp : Span} (ht : TokOK C.chk C.src t sp) (h : good C sp) (hid : ∃ v k, t = .ident v k) :
    SafeT P C (tokenToIdent t sp) (good C) := by
  unfold tokenToIdent
  split
  · next v k =>
    refine bind_safe (Q1 := fun _ => Noted C v k sp) ?_
      (fun _ hk => pure_safe (ident_good h (tok_ident ht hk.1) (warned_tok ht hk.2)))
    split
    · next hr => exact (errM_safe h (by simp) (right_reserved ht hr)).imp (fun _ hE => ⟨fun _ => hE.1, fun _ _ => .inr hE.2⟩)
    · next hr =>
      split
      · next hk => exact (issueIf_safe h (right_unquoted ht hr hk)).imp (fun _ hS => ⟨fun h => absurd h hr, fun _ hf => .inl (hS hf)⟩)
      · next hk => exact ret_safe ⟨fun h => absurd h hr, fun h => absurd h hk⟩
  · next hn => obtain ⟨v, k, e⟩ := hid; exact absurd e (hn v k)

theorem ident_safe : SafeT P C ident (good C) := by
  refine cur_bind (fun t sp hP ht h => ?_)
  clear hP
  dsimp only
  split
  · next v k =>
    refine isPg_bind (fun pg hpg => ?_)
    refine bind_safe (Q1 := fun _ => Noted C v k sp) ?_
      (fun _ hk => bind_good next_safe (fun _ _ => pure_safe (ident_good h (tok_ident ht hk.1) (warned_tok ht hk.2))))
    split
    · next hr => exact (errM_safe h (by simp) (right_reserved ht hr)).imp (fun _ hE => ⟨fun _ => hE.1, fun _ _ => .inr hE.2⟩)
    · next hr =>
      split
      · next hk => exact (issueIf_safe h (right_unquoted ht hr hk)).imp (fun _ hS => ⟨fun h => absurd h hr, fun _ hf => .inl (hS hf)⟩)
      · next hk =>
        exact (when_safeR (R := True) (fun _ => (err_safe h (by simp)).imp (fun _ _ => trivial))).imp
          (fun _ _ => ⟨fun h => absurd h hr, fun h => absurd h hk⟩)
  · next v =>
    refine isPg_bind (fun pg hpg => ite_safe (fun hp => ?_) (fun _ => expectedFailure_safe))
    obtain ⟨w, rest, h1, h2⟩ := ht.slice
    refine bind_good next_safe (fun _ _ => pure_safe (ident_good h (.inr ⟨w, h1, .inr (.inr ⟨h2.1, hpg.1 hp⟩)⟩)
      (warned_quoted h1 (by rw [h2.1]; simp; omega))))
  · exact expectedFailure_safe

theorem strPair_safe : SafeT P C strPair (fun r => good C r.2) := by
  refine cur_bind (fun t sp hP ht h => ?_)
  clear hP
  dsimp only
  split
  · refine bind_good next_safe (fun _ _ => loop_inv (I := fun r => good C r.2) ?_ h)
    intro ab hab
    refine cur_bind (fun t' sp' _ ht' h' => ?_)
    dsimp only
    split
    · exact bind_good next_safe (fun _ _ => pure_safe (joinSpan_good hab h'))
    · exact pure_safe hab
  · next hn => exact expectedFailure_safe (.intro fun t' e => by subst e; cases t' <;> simp_all [Token.strVal?, namedWords, namedTokens, List.lookup, Token.ofKind])

theorem string_safe : SafeT P C string (good C) :=
  bind_safe strPair_safe (fun _ h => pure_safe (sstring_good h))

theorem int_safe {max : Nat} (hmax : max ≤ u64Max := by decide) : SafeT P C (int max) (good C) := by
  refine cur_bind (fun t sp hP ht h => ?_)
  clear hP
  dsimp only
  split
  · next v =>
    refine when_bind (fun _ => err_safe h (by simp)) (fun hE => bind_good next_safe (fun _ _ => pure_safe ?_))
    refine ⟨h, ?_⟩
    by_cases hm : max < decVal v
    · exact .inl (hE (by simpa using hm))
    · obtain ⟨w, rest, h1, h2⟩ := ht.slice
      refine .inr ⟨w, h1, ?_⟩
      rw [h2.1]
      exact ⟨h2.2.1, h2.2.2.1, by simp [hm], by simp only [hm, if_false]; unfold u64Max at hmax; omega⟩
  · exact expectedFailure_safe

theorem float_safe : SafeT P C float (good C) := by
  refine cur_bind (fun t sp hP ht h => ?_)
  clear hP
  dsimp only
  split
  · exact bind_good next_safe (fun _ _ => pure_safe ⟨trivial, h⟩)
  · exact expectedFailure_safe

/-! ### Tables -/

def plainTable (tbl : List (Keyword × Kind)) : Bool :=
  tbl.all fun p => p.1.isWord && decide (nodeTag p.2 = .plain) && (kindOmit p.2).isEmpty && !kindIsBlock p.2

theorem tableFind_plain {tbl : List (Keyword × Kind)} (h : plainTable tbl = true) {k : Keyword} {f : Kind}
    (hf : tableFind k tbl = some f) : (nodeTag f = .plain ∧ kindOmit f = [] ∧ kindIsBlock f = false) ∧ k.isWord = true := by
  induction tbl with
  | nil => simp [tableFind] at hf
  | cons p r ih =>
    simp only [plainTable, List.all_cons, Bool.and_eq_true] at h
    obtain ⟨k', f'⟩ := p
    simp only [tableFind] at hf
    split at hf
    · next hk =>
      simp at hf; subst hf
      simp [List.isEmpty_iff, and_assoc] at h
      exact ⟨⟨h.2.1, h.2.2.1, h.2.2.2.1⟩, hk ▸ h.1⟩
    · exact ih h.2 hf

theorem NodeOK.plain {k : Kind} {fs : List Ast} (h : nodeTag k = .plain) : NodeOK C k fs := by
  unfold NodeOK; rw [h]; trivial

theorem spanNode_good {k : Kind} {sp : Span} (h : nodeTag k = .plain ∧ kindOmit k = [] ∧ kindIsBlock k = false) (hs : good C sp) :
    good C (Ast.node k [.span sp]) := by
  have hf : FL C (kindOmit k) 0 [toF sp] (if (kindOmit k).contains 0 then Mode.may else Mode.must.join .may) :=
    FL.cons hs (FL.nil C _ _)
  refine nd_good _ hf ?_ (.plain h.1)
  rw [h.2.1]
  simp only [Mode.node, h.2.2]
  rfl

theorem nullNode_good {k : Kind} (h : nodeTag k = .plain ∧ kindOmit k = [] ∧ kindIsBlock k = false) :
    good C (OAst.mk (Ast.node k [])) := by
  refine ond_good _ (FL.nil C _ _) ?_ (.plain h.1)
  simp only [Mode.node, h.2.2]
  rfl

theorem kwNode_safe {tbl : List (Keyword × Kind)} (h : plainTable tbl = true) : SafeT P C (kwNode tbl) (good C) := by
  refine curT_bind (fun t _ => ?_)
  split
  · next K hK => exact bind_good (ckw_safe (tableFind_plain h hK).2) (fun s hs => pure_safe (spanNode_good (tableFind_plain h hK).1 hs))
  · exact pure_safe trivial

theorem tableFind_none {tbl : List (Keyword × Kind)} {t : Token} (h : tableFind t.kw tbl = none) :
    ∀ p ∈ tbl, t.isKw p.1 = false := by
  induction tbl with
  | nil => simp
  | cons a r ih =>
    obtain ⟨k, f⟩ := a
    simp only [tableFind] at h
    split at h
    · cases h
    · next hk =>
      intro p hp
      rcases List.mem_cons.1 hp with rfl | hp
      · cases t <;> simp_all [Token.isKw, Token.kw]
      · exact ih h p hp

theorem kwNode_bind {tbl : List (Keyword × Kind)} {f : Option Ast → Prog β} {Q : β → Prop} (h : plainTable tbl = true)
    (hs' : ∀ a, good C a → Safe C (f (some a)) Q)
    (hn : ∀ t, P t → (∀ p ∈ tbl, t.isKw p.1 = false) → SafeT (fun t' => t' = t) C (f none) Q) : SafeT P C (kwNode tbl >>= f) Q := by
  intro R n h1 h2 s hs hP
  have hrun : runWith R n (kwNode tbl) s = runWith R n (match tableFind s.token.kw tbl with
    | some K => do
      let sp ← ckw s.token.kw
      return some (.node K [.span sp])
    | none => return none) s := rfl
  cases hf : tableFind s.token.kw tbl with
  | none =>
    rw [hf] at hrun
    show Post C s Q (runWith R n (.bind (kwNode tbl) f) s)
    unfold runWith
    rw [hrun]
    exact hn s.token hP (tableFind_none hf) R n h1 h2 s hs rfl
  | some K =>
    refine bind_safe (P := fun t => tableFind t.kw tbl = some K) (Q1 := fun o => ∃ a, o = some a ∧ good C a) ?_ ?_ R n h1 h2 s hs hf
    · refine curT_bind (fun t ht => ?_)
      rw [ht]
      exact bind_good (ckw_safe (tableFind_plain h ht).2) (fun s hs => pure_safe ⟨_, rfl, spanNode_good (tableFind_plain h ht).1 hs⟩)
    · rintro _ ⟨a, rfl, ha⟩
      exact hs' a ha

theorem kwReq_bind {tbl : List (Keyword × Kind)} {m : String} {f : Ast → Prog β} {Q : β → Prop} (h : plainTable tbl = true)
    (hs : ∀ a, good C a → Safe C (f a) Q) (hw : LitOK (fun t => ∀ p ∈ tbl, t.isKw p.1 = false) m := by lit) :
    SafeT P C (kwNode tbl >>= fun o => orExpected o m >>= f) Q :=
  kwNode_bind h (fun _ ha => orExpected_bind ha (fun h => by cases h) (fun b e _ => by cases e; exact hs _ ha))
    (fun t _ ht => orExpected_bind trivial (fun _ => ⟨fun t' e => hw.missed _ (by subst e; exact ht)⟩) (fun _ e => by cases e))

theorem consNode_safe {tbl : List (Keyword × Kind)} (h : plainTable tbl = true) : SafeT P C (consNode tbl) (good C) := by
  refine curT_bind (fun t _ => ?_)
  split
  · next K hK => exact bind_good consume_safe (fun s hs => pure_safe (spanNode_good (tableFind_plain h hK).1 hs))
  · exact pure_safe trivial

theorem consNode_bind {tbl : List (Keyword × Kind)} {f : Option Ast → Prog β} {Q : β → Prop} (h : plainTable tbl = true)
    (hs' : ∀ a, good C a → Safe C (f (some a)) Q)
    (hn : ∀ t, P t → (∀ p ∈ tbl, t.isKw p.1 = false) → SafeT (fun t' => t' = t) C (f none) Q) : SafeT P C (consNode tbl >>= f) Q := by
  intro R n h1 h2 s hs hP
  have hrun : runWith R n (consNode tbl) s = runWith R n (match tableFind s.token.kw tbl with
    | some K => do
      let sp ← consume
      return some (.node K [.span sp])
    | none => return none) s := rfl
  cases hf : tableFind s.token.kw tbl with
  | none =>
    rw [hf] at hrun
    show Post C s Q (runWith R n (.bind (consNode tbl) f) s)
    unfold runWith
    rw [hrun]
    exact hn s.token hP (tableFind_none hf) R n h1 h2 s hs rfl
  | some K =>
    refine bind_safe (P := fun t => tableFind t.kw tbl = some K) (Q1 := fun o => ∃ a, o = some a ∧ good C a) ?_ ?_ R n h1 h2 s hs hf
    · refine curT_bind (fun t ht => ?_)
      rw [ht]
      exact bind_good (consume_safe) (fun s hs => pure_safe ⟨_, rfl, spanNode_good (tableFind_plain h ht).1 hs⟩)
    · rintro _ ⟨a, rfl, ha⟩
      exact hs' a ha

/-! ### Spans of ASTs -/

mutual
theorem spanRes_good : ∀ (a : Ast), AllOK C a → ∀ sp, a.spanRes = .some sp → GoodSpan C sp
  | .span s, h, sp, hs => by simp [Ast.spanRes] at hs; subst hs; exact h _ (.refl _)
  | .str _, _, sp, hs => by simp [Ast.spanRes] at hs
  | .nat _, _, sp, hs => by simp [Ast.spanRes] at hs
  | .bool _, _, sp, hs => by simp [Ast.spanRes] at hs
  | .ident _ s, h, sp, hs => by simp [Ast.spanRes] at hs; subst hs; exact (h _ (.refl _)).1
  | .sstring _ s, h, sp, hs => by simp [Ast.spanRes] at hs; subst hs; exact h _ (.refl _)
  | .binop _, _, sp, hs => by simp [Ast.spanRes] at hs
  | .unop _, _, sp, hs => by simp [Ast.spanRes] at hs
  | .none, _, sp, hs => by simp [Ast.spanRes] at hs
  | .some a, h, sp, hs => spanRes_good a (fun b hb => h b (.some _ _ hb)) sp (by simpa [Ast.spanRes] using hs)
  | .list l, h, sp, hs => spanResList_good l (fun a ha b hb => h b (.list _ _ _ ha hb)) [] 0 sp
      (by simpa [Ast.spanRes] using hs)
  | .node k fs, h, sp, hs => spanResList_good fs (fun a ha b hb => h b (.node _ _ _ _ ha hb)) (kindOmit k) 0 sp (by
      simp only [Ast.spanRes] at hs
      revert hs
      cases spanResList (kindOmit k) 0 fs with
      | none => intro h; simp at h; split at h <;> cases h
      | some s => exact id
      | panic => intro h; simp at h)
theorem spanResList_good : ∀ (l : List Ast), (∀ a ∈ l, AllOK C a) → ∀ om i sp, spanResList om i l = .some sp → GoodSpan C sp
  | [], _, _, _, sp, hs => by simp [spanResList] at hs
  | a :: l, h, om, i, sp, hs => by
    have h1 := spanRes_good a (h a (by simp))
    have h2 := spanResList_good l (fun b hb => h b (by simp [hb])) om (i + 1)
    simp only [spanResList] at hs
    split at hs
    · exact h2 _ hs
    · revert hs h1 h2
      cases a.spanRes <;> cases spanResList om (i + 1) l <;> intro h1 h2 hs <;> simp [SpanRes.join] at hs
      · subst hs; exact h2 _ rfl
      · subst hs; exact h1 _ rfl
      · subst hs; exact joinSpan_good (h1 _ rfl) (h2 _ rfl)
end

theorem spanOf_safe [ToF α] [HasGood α] [v : Val α] {a : α} (h : good C a) (hm : v.mode.le .must = true) :
    SafeT P C (spanOf a) (good C) := by
  obtain ⟨sp, h1⟩ := Mode.le_holds hm (v.law h)
  have h2 := spanRes_good _ (v.allOK h) sp h1
  unfold spanOf
  rw [h1]
  exact ret_safe h2

/-- There is a WITH keyword in the source. -/
def WithTok (C : Ctx) : Prop := ∃ v sp, IsToken C.chk C.src (.ident v .WITH) sp

/-- The span of a statement. -/
theorem spanOfStmt_safe [ToF α] [HasGood α] [v : Val α] {a : α} (h : good C a) (hm : v.mode.le .stmt = true) (hw : WithTok C) :
    SafeT P C (spanOf a) (good C) := by
  have h1 := Mode.le_holds hm (v.law h)
  have h2 := spanRes_good _ (v.allOK h)
  unfold spanOf
  revert h1 h2
  cases (toF a).spanRes with
  | none => intro h1; exact absurd rfl h1
  | some s => intro _ h2; exact ret_safe (h2 s rfl)
  | panic => intro _ _ _ _ _ _ _ _ _ _; exact .inl ⟨rfl, hw⟩

theorem spanOf_list [ToF α] [HasGood α] [v : Val α] {l : List α} (h : GoodList C l) (hl : l ≠ []) (hm : v.mode.le .must = true) :
    SafeT P C (@spanOf (List α) instToFList l) (good C) := by
  have h2 := spanRes_good (C := C) (Ast.list (l.map toF)) (.list (by
    intro b hb
    obtain ⟨x, hx, rfl⟩ := List.mem_map.1 hb
    exact v.allOK (h x hx)))
  have h1 : ∃ sp, (Ast.list (l.map toF)).spanRes = .some sp := by
    cases l with
    | nil => exact absurd rfl hl
    | cons a l =>
      obtain ⟨sp, hsp⟩ := Mode.le_holds hm (v.law (h a (by simp)))
      have h3 := list_law (v := v) l (fun b hb => h b (by simp [hb])) 1
      have h3 : (spanResList [] 1 (l.map toF)) ≠ .panic := by
        revert hm h3
        cases v.mode <;> simp [Mode.le, Mode.opt, Mode.Holds]
      simp only [Ast.spanRes, List.map_cons, spanResList, hsp]
      simp only [List.contains_nil, Bool.false_eq_true, if_false]
      revert h3
      cases spanResList [] 1 (l.map toF) <;> simp [SpanRes.join]
  obtain ⟨sp, hsp⟩ := h1
  unfold spanOf
  show SafeT P C (match (Ast.list (l.map toF)).spanRes with | .some s => .ret s | .none => .panic "no span" | .panic => .panic "Span of block") _
  rw [hsp]
  exact ret_safe (h2 sp hsp)

end SqlParse
