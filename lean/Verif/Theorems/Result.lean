import Verif.Proofs.SafeApi
import Verif.Proofs.Examples
/-! C02, C10 to C13, C16, C17, C25, C26, C28, C30, C34, C36: what a returned AST looks like. -/
namespace SqlParse

/-- The context that is right about a finished call. -/
def finalCtx (chk : Bool) (src : List Char) (opts : Opts) (old new : List Issue) (L : List Span) : Ctx :=
  { src := src, opts := opts, chk := chk, n0 := old.length, E := HasError new, lo := 0, hi := blen src,
    argOK := fun i sp => L[i]? = some sp, said := (· ∈ new), tr := True }

/-- The context that says nothing. -/
def trivCtx (chk : Bool) (src : List Char) (opts : Opts) (old : List Issue) : Ctx :=
  { src := src, opts := opts, chk := chk, n0 := old.length, E := True, lo := 0, hi := blen src,
    argOK := fun _ _ => True, said := fun _ => True, tr := False }

theorem new_inv {chk : Bool} {src : List Char} {old : List Issue} {opts : Opts} {s : St} {C : Ctx}
    (h : St.new chk src ⟨src, old⟩ opts = .ok () s) (h1 : C.src = src) (h2 : C.opts = opts) (h3 : C.chk = chk)
    (h4 : C.n0 = old.length) (h5 : C.lo = 0) : Inv C s := by
  obtain ⟨g1, g2, g3, g4, g5, g6, g7, g8, g9, g10, g11⟩ := new_binv h
  exact ⟨g1, g2.trans h1.symm, g3.trans h1.symm, g7.trans h2.symm, g9.trans h3.symm, by omega, by rw [h4, g4]; simp,
    by rw [g5, g10]; rfl, by rw [g10]; simp, by rw [g10]; simp, by rw [h4, g4]; simp⟩

/-- What we know of the result of each entry point. -/
def ApiPost (C : Ctx) : {α : Type} → Api α → α → St → Prop
  | _, .one, o, s => good C o ∧ (o = none → C.E) ∧ (C.E ∨ s.token = .eof)
  | _, .many, l, _ => ∃ m, AccOK C l m

theorem api_W {C : Ctx} (hsrc : blen C.src ≤ C.hi) {α : Type} (api : Api α) :
    SafeW C (fun _ => True) api.prog (ApiPost C api) := by
  cases api with
  | one => exact singleStatement_W
  | many => exact statements_W hsrc

theorem statements_noErr {C : Ctx} (hsrc : blen C.src ≤ C.hi) {n : Nat} {s s' : St} (hs : Inv C s) {α : Type} (api : Api α)
    (h : api.prog.run n s = .err s') : Fut C s' → C.E := by
  have := api_W hsrc api n s hs trivial
  rw [show runWith (runFn n) n api.prog s = .err s' from h] at this
  exact fun hf => (this hf).2

/-- Neither entry point fails with `Err`. -/
theorem api_noErr {α : Type} (api : Api α) : NoErr api.prog := by
  cases api with
  | one =>
    refine (NoErr.tryP _).bind (fun r => ?_)
    have he : ∀ m, NoErr (expectedError m) := by
      intro m
      refine NoErr.curS.bind (fun _ => ?_)
      intro R n s s'
      show St.issue _ _ _ _ _ ≠ _
      unfold St.issue
      split <;> simp
    split
    · refine NoErr.curT.bind (fun t => NoErr.bind ?_ (fun _ => .pure _))
      unfold Prog.when
      exact .ite (he _) (.pure _)
    · exact (he _).bind (fun _ => .pure _)
    · exact .pure _
  | many =>
    have hi : ∀ l m sp fr, NoErr (.op (.issue l m sp fr)) := by
      intro l m sp fr R n s s'
      show St.issue _ _ _ _ _ ≠ _
      unfold St.issue
      split <;> simp
    have he : ∀ m, NoErr (expectedError m) := fun m => NoErr.curS.bind (fun _ => hi _ _ _ _)
    have hop : ∀ {α : Type} (o : Op α), (∀ s, ∃ a s', o.run s = .ok a s') → NoErr (.op o) := by
      intro α o h R n s s'
      obtain ⟨a, s1, h⟩ := h s
      rw [runWith_op, h]; simp
    have hd : NoErr (.op .delim) := hop _ (fun s => ⟨_, _, rfl⟩)
    have hw : ∀ {c p}, NoErr p → NoErr (Prog.when c p) := by
      intro c p h
      unfold Prog.when
      exact .ite h (.pure _)
    have hif : ∀ f l v sp, NoErr (issueIf f l v sp) := by
      intro f l v sp R n s s'
      show Op.run _ s ≠ _
      simp only [Op.run]
      split
      · unfold St.issue
        split <;> simp
      · simp
    refine .loop (fun acc => ?_)
    refine NoErr.bind (.loop (fun _ => NoErr.curT.bind (fun t => hd.bind (fun d => .ite (NoErr.consume.bind (fun _ => .pure _)) (.pure _))))) (fun b => ?_)
    refine .ite (.pure _) (NoErr.bind ?_ (fun dk => ?_))
    · refine NoErr.cur.bind (fun p => ?_)
      split
      · split
        · exact .ite ((hw (hif _ _ _ _)).bind (fun _ => NoErr.consume.bind (fun _ => .pure _))) (.pure _)
        · exact .pure _
    · split
      · refine NoErr.bind (NoErr.cur.bind (fun p => ?_)) (fun _ => .pure _)
        exact (hw (hi _ _ _ _)).bind (fun _ => (hop _ (fun s => ⟨_, _, rfl⟩)).bind (fun _ => NoErr.next))
      · refine (NoErr.tryP _).bind (fun r => NoErr.curT.bind (fun t => hd.bind (fun d => NoErr.bind ?_ (fun b => ?_))))
        · refine .ite ((hw (he _)).bind (fun _ => ?_)) (.pure _)
          exact .loop (fun _ => NoErr.next.bind (fun _ => NoErr.curT.bind (fun _ => hd.bind (fun _ => .ite (.pure _) (.ite (.pure _) (.pure _))))))
        · refine .ite (.pure _) (NoErr.bind (.ite (NoErr.stdin.bind (fun _ => .pure _)) ?_) (fun _ => .pure _))
          refine hd.bind (fun d => (NoErr.tryP _).bind (fun r => ?_))
          split
          · exact .pure _
          · intro R n s s'; simp [runWith]

/-- Everything we know about a finished call. -/
theorem master {α : Type} {api : Api α} {chk : Bool} {src : List Char} {old : List Issue} {opts : Opts} {a : α}
    {is : List Issue} (h : api.Returns chk src ⟨src, old⟩ opts a is) :
    ∃ new s', is = old ++ new ∧ s'.issues = is ∧ (∃ n s, St.new chk src ⟨src, old⟩ opts = .ok () s ∧ api.prog.run n s = .ok a s') ∧
      Inv (finalCtx chk src opts old new s'.argLog) s' ∧ ApiPost (finalCtx chk src opts old new s'.argLog) api a s' := by
  obtain ⟨n, h⟩ := h
  rw [Api.run_eq] at h
  obtain ⟨new, h1, -⟩ := runApi_good h
  obtain ⟨s, h2, h3⟩ := runApi_ret h
  rcases h3 with ⟨s', h3, h4⟩ | ⟨s', h3, -⟩
  · let C := finalCtx chk src opts old new s'.argLog
    have hs : Inv C s := new_inv h2 rfl rfl rfl rfl rfl
    have hw := api_W (C := C) (Nat.le_refl _) api n s hs trivial
    have hr : runWith (runFn n) n api.prog s = .ok a s' := h3
    have hg := runWith_good (runFn_good n) n api.prog s hs.base
    rw [hr] at hw hg
    have hf : Fut C s' := by
      refine ⟨?_, ?_, fun i sp h => h, ?_⟩
      rotate_right
      · intro i hi
        show i ∈ new
        rw [← h4, h1] at hi
        simpa [C, finalCtx] using hi
      · intro he
        show HasError new
        unfold HasErr at he
        rw [← h4, h1] at he
        simpa [C, finalCtx] using he
      · have := hg.1.tok.bounds.2.2.2
        rw [hg.2.src, hs.src] at this
        exact this
    exact ⟨new, s', h1, h4.symm, ⟨n, s, h2, h3⟩, hw hf⟩
  · exact absurd h3 (api_noErr api _ _ _ _)

/-- The returned statements are good. -/
theorem master_good {α : Type} {api : Api α} {chk : Bool} {src : List Char} {old : List Issue} {opts : Opts} {a : α}
    {is : List Issue} (h : api.Returns chk src ⟨src, old⟩ opts a is) :
    ∃ new L, is = old ++ new ∧ L.Pairwise (fun a b => a.stop ≤ b.start) ∧
      (∀ sp ∈ L, ∃ t, isMarker opts t ∧ TokOK chk src t sp) ∧
      ∀ v ∈ api.stmts a, good (finalCtx chk src opts old new L) v := by
  obtain ⟨new, s', h1, -, -, h2, h3⟩ := master h
  refine ⟨new, s'.argLog, h1, h2.pw, fun sp hsp => (h2.mark sp hsp).2, ?_⟩
  cases api with
  | one =>
    intro v hv
    cases a with
    | none => cases hv
    | some w => simp [Api.stmts] at hv; subst hv; exact h3.1
  | many =>
    obtain ⟨m, h3⟩ := h3
    exact h3.1

theorem HasError_append {l l' : List Issue} : HasError (l ++ l') ↔ HasError l ∨ HasError l' := by
  simp [HasError, or_and_right, exists_or]

/-- **C02**: the only panics. -/
theorem C02_panics {α : Type} (api : Api α) (chk : Bool) (src : List Char) (old : List Issue) (opts : Opts) (m : String)
    (h : api.Panics chk src ⟨src, old⟩ opts m) :
    /- asking for the span of an empty block in a WITH query -/
    (m = "Span of block" ∧ ∃ v sp, IsToken chk src (.ident v .WITH) sp) ∨
    /- lexing a token that is a hex literal, or (when compiled with overflow checks) an argument with a huge number -/
    ∃ lx blanks l, Reach chk src lx ∧ lx.rest = blanks ++ l ∧ Skipped blanks l ∧
      ((m = "not yet implemented: Hex literal" ∧ HexAt l) ∨
        (m = "attempt to multiply with overflow" ∧ chk = true ∧ HugeArgAt l)) := by
  obtain ⟨n, h⟩ := h
  rw [Api.run_eq] at h
  have hlex : ∀ lx, LexInv chk lx → lx.src = src → lx.nextToken chk = .panic m → ∃ lx blanks l, Reach chk src lx ∧
      lx.rest = blanks ++ l ∧ Skipped blanks l ∧
      ((m = "not yet implemented: Hex literal" ∧ HexAt l) ∨
        (m = "attempt to multiply with overflow" ∧ chk = true ∧ HugeArgAt l)) := by
    intro lx hlx hs hp
    obtain ⟨⟨pre, h1, h2⟩, hr⟩ := hlx
    have := nextToken_spec chk lx pre h1 h2
    rw [hp] at this
    obtain ⟨ts, l', g1, g2, g3⟩ := this
    refine ⟨lx, ts, l', hs ▸ hr, g1, g2, ?_⟩
    exact g3
  unfold runApi at h
  rcases new_cases chk src ⟨src, old⟩ opts with ⟨m', h1, h2⟩ | ⟨t, sp, lx, h1, h2⟩
  · rw [h1] at h
    cases h
    exact .inr (hlex _ (lexInv_new chk src) rfl h2)
  · have h2' := h2
    rw [h2] at h
    let C : Ctx := trivCtx chk src opts old
    have hs : Inv C _ := new_inv h2' rfl rfl rfl rfl rfl
    have hw := api_W (C := C) (Nat.le_refl _) api n _ hs trivial
    simp only [Prog.run] at h
    revert h hw
    generalize runWith (runFn n) n api.prog _ = r
    intro h hw
    revert h hw
    cases r with
    | panic m' =>
      intro h hw
      cases h
      rcases hw ⟨trivial, Nat.le_refl _, fun _ _ => trivial, fun _ => trivial⟩ with h | ⟨lx, h1, h2, h3⟩
      · exact .inl h
      · exact .inr (hlex lx h1 h2 h3)
    | _ => intro h; cases h

/-- Non-vacuity: each situation occurs. -/
example : Api.one.Panics true c!"SELECT x'00'" ⟨c!"SELECT x'00'", []⟩ {} "not yet implemented: Hex literal" :=
  panics_of_test (n := 20) (by decide +kernel)
example : Api.one.Panics true c!"SELECT $99999999999999999999" ⟨c!"SELECT $99999999999999999999", []⟩ {}
    "attempt to multiply with overflow" :=
  panics_of_test (n := 20) (by decide +kernel)
/-- A WITH query with an empty block. -/
def exWith : List Char := c!"WITH a AS (DO $$ BEGIN EXCEPTION END $$) SELECT 1"
example : Api.one.Panics true exWith ⟨exWith, []⟩ { dialect := .postgreSQL } "Span of block" :=
  panics_of_test (n := 20) (by decide +kernel)

/-- **C10** (for `parse_statement`): if nothing is returned, an Error issue is added. -/
theorem C10_none_is_reported (chk : Bool) (src : List Char) (old : List Issue) (opts : Opts) (is : List Issue)
    (h : Api.one.Returns chk src ⟨src, old⟩ opts none is) : ∃ new, is = old ++ new ∧ HasError new := by
  obtain ⟨new, s', h1, -, -, -, h3⟩ := master h
  exact ⟨new, h1, h3.2.1 rfl⟩

/-- Non-vacuity: nothing is returned. -/
example : ∃ a is, Api.one.Returns true c!"DROP x é" ⟨c!"DROP x é", [exIssue]⟩ {} a is ∧ Option.isNone a = true :=
  returns_of_test (n := 20) (f := fun a _ => Option.isNone a) (by decide +kernel)

/-- **C11**: if no Error issue is added, there are no placeholders in the returned AST. -/
theorem C11_no_placeholder {α : Type} (api : Api α) (chk : Bool) (src : List Char) (old new : List Issue) (opts : Opts) (a : α)
    (h : api.Returns chk src ⟨src, old⟩ opts a (old ++ new)) (hE : ¬ HasError new) :
    ∀ v ∈ api.stmts a, ∀ k fs, v.ast.Has (.node k fs) → isPlaceholder k = false := by
  obtain ⟨new', L, h1, -, -, h2⟩ := master_good h
  have : new' = new := by simpa using h1.symm
  subst this
  intro v hv k fs hk
  have := (h2 v hv).1 _ hk
  revert this
  show NodeOK _ _ _ → _
  cases k <;> first | (intro _; rfl) | (intro h; exact absurd h hE)

/-- Non-vacuity: a function call is parsed without error. -/
example : Parses Api.one c!"SELECT COUNT(*) FROM /*é*/ t" {} (fun b => (match b with | .node .Invalid _ => false | .node _ _ => true | _ => false) = true) :=
  parses_of_test (n := 20) (f := fun b => match b with | .node .Invalid _ => false | .node _ _ => true | _ => false) (by decide +kernel)

/-- **C12**: if `parse_statement` adds no Error issue, it returned a statement and stopped at the end of the source:
the last token it looked at is the end-of-file token. -/
theorem C12_all_input_consumed (chk : Bool) (src : List Char) (old new : List Issue) (opts : Opts) (a : Option SAst)
    (h : Api.one.Returns chk src ⟨src, old⟩ opts a (old ++ new)) (hE : ¬ HasError new) :
    ∃ v, a = some v ∧ ∃ n s s', St.new chk src ⟨src, old⟩ opts = .ok () s ∧ singleStatement.run n s = .ok (some v) s' ∧
      s'.issues = old ++ new ∧ s'.token = .eof ∧ s'.span = ⟨blen src, blen src⟩ := by
  obtain ⟨new', s', h1, h2, ⟨n, s, h3, h4⟩, h5, h6, h7, h8⟩ := master h
  have : new' = new := by simpa using h1.symm
  subst this
  cases a with
  | none => exact absurd (h7 rfl) hE
  | some v =>
    have he := h8.resolve_left hE
    refine ⟨v, rfl, n, s, s', h3, h4, h2, he, ?_⟩
    obtain ⟨a, w, b, g1, g2, g3, g4, g5, -⟩ := h5.base.tok
    rw [he] at g4
    obtain ⟨rfl, rfl⟩ := g4
    have hs : s'.lx.src = src := h5.src
    rw [hs] at g1
    cases hsp : s'.span
    rw [hsp] at g2 g3
    simp at g1 g2 g3 ⊢
    subst g1
    omega

/-- Non-vacuity. -/
example : Parses Api.one c!"SELECT 1 FROM /*é*/ t" {} (fun b => (b.kind? == some .Select) = true) :=
  parses_of_test (n := 20) (f := fun b => b.kind? == some .Select) (by decide +kernel)

theorem goodSpan_valid {C : Ctx} {sp : Span} (h : GoodSpan C sp) : SpanValid C.src sp := by
  obtain ⟨w, hw⟩ := slice_isSome h.b1 h.b2 h.le
  exact ⟨w, slice_spanIs hw⟩

theorem Ast.Has.trans {a b c : Ast} (h1 : a.Has b) (h2 : b.Has c) : a.Has c := by
  induction h1 with
  | refl => exact h2
  | some _ _ _ ih => exact .some _ _ (ih h2)
  | list _ _ _ hm _ ih => exact .list _ _ _ hm (ih h2)
  | node _ _ _ _ hm _ ih => exact .node _ _ _ _ hm (ih h2)

theorem AllOK.of_has {C : Ctx} {a b : Ast} (h : AllOK C a) (hb : a.Has b) : AllOK C b :=
  fun c hc => h c (hb.trans hc)

/-- **C13**: every span stored in a returned AST, and the span of every part of it, is a range of the source on
character boundaries. -/
theorem C13_spans_valid {α : Type} (api : Api α) (chk : Bool) (src : List Char) (old : List Issue) (opts : Opts) (a : α)
    (is : List Issue) (h : api.Returns chk src ⟨src, old⟩ opts a is) : ∀ v ∈ api.stmts a,
      (∀ sp, v.ast.HasSpan sp → SpanValid src sp) ∧
      (∀ b sp, v.ast.Has b → b.spanRes = .some sp → SpanValid src sp) := by
  obtain ⟨new, L, h1, -, -, h2⟩ := master_good h
  intro v hv
  have hg := (h2 v hv).1
  refine ⟨fun sp hsp => ?_, fun b sp hb hs => ?_⟩
  · exact goodSpan_valid (hasSpan_good hg hsp)
  · exact goodSpan_valid (spanRes_good b (hg.of_has hb) sp hs)

/-- Non-vacuity: a span in an AST with characters of more than one byte. -/
example : Parses Api.many c!"SELECT 'ö' FROM /*é*/ `t`;" {} (fun b => (match b with | .ident _ sp => decide (sp = ⟨24, 27⟩) | _ => false) = true) :=
  parses_of_test (n := 20) (f := fun b => match b with | .ident _ sp => decide (sp = ⟨24, 27⟩) | _ => false) (by decide +kernel)

theorem tokOK_nonempty {chk : Bool} {src : List Char} {t : Token} {sp : Span} (h : TokOK chk src t sp) (ht : t ≠ .eof) :
    sp.start < sp.stop := by
  obtain ⟨a, w, b, g1, g2, g3, g4, g5, -⟩ := h
  have : w ≠ [] := fun hw => ht (g5.2 hw)
  have := blen_pos_of_ne this
  omega

theorem marker_ne_eof {o : Opts} {t : Token} (h : isMarker o t) : t ≠ .eof := by
  rintro rfl
  rcases h with ⟨h, -⟩ | ⟨h, -⟩ | ⟨h, -⟩
  · cases h
  · cases h
  · cases h

/-- **C16**: there is a list of tokens of the source (argument markers and `_LIST_` words), in source order, such that
every argument number of the AST is the index of its token in that list. -/
theorem C16_positional {α : Type} (api : Api α) (chk : Bool) (src : List Char) (old : List Issue) (opts : Opts) (a : α)
    (is : List Issue) (h : api.Returns chk src ⟨src, old⟩ opts a is) :
    ∃ L : List Span, L.Pairwise (fun a b => a.stop ≤ b.start) ∧
      (∀ sp ∈ L, sp.start < sp.stop ∧ ∃ t, isMarker opts t ∧ IsToken chk src t sp) ∧
      ∀ v ∈ api.stmts a, ∀ i sp, ((v.ast.HasArg i sp ∧ opts.arguments ≠ .dollar) ∨ v.ast.HasListHack i sp) →
        L[i]? = some sp := by
  obtain ⟨new, L, h1, h2, h3, h4⟩ := master_good h
  refine ⟨L, h2, ?_, ?_⟩
  · intro sp hsp
    obtain ⟨t, g1, g2⟩ := h3 sp hsp
    exact ⟨tokOK_nonempty g2 (marker_ne_eof g1), t, g1, g2.isToken⟩
  · intro v hv i sp hi
    rcases hi with ⟨hi, hd⟩ | hi
    · rcases (h4 v hv).1 _ hi with ⟨g1, -⟩ | ⟨-, g2⟩
      · exact absurd g1 hd
      · exact g2
    · exact ((h4 v hv).1 _ hi).1

/-- **C16** (consequence): two arguments have the same number only if they are the same token, and numbers increase in
source order - across all statements of a call. -/
theorem C16_order {α : Type} (api : Api α) (chk : Bool) (src : List Char) (old : List Issue) (opts : Opts) (a : α)
    (is : List Issue) (h : api.Returns chk src ⟨src, old⟩ opts a is) (v w : SAst) (hv : v ∈ api.stmts a)
    (hw : w ∈ api.stmts a) (i j : Nat) (sp sq : Span)
    (hi : (v.ast.HasArg i sp ∧ opts.arguments ≠ .dollar) ∨ v.ast.HasListHack i sp)
    (hj : (w.ast.HasArg j sq ∧ opts.arguments ≠ .dollar) ∨ w.ast.HasListHack j sq) :
    (i = j ↔ sp = sq) ∧ (i < j ↔ sp.stop ≤ sq.start) := by
  obtain ⟨L, h1, h2, h3⟩ := C16_positional api chk src old opts a is h
  have hi := h3 v hv i sp hi
  have hj := h3 w hw j sq hj
  have hlt : ∀ (i j : Nat) (sp sq : Span), L[i]? = some sp → L[j]? = some sq → i < j → sp.stop ≤ sq.start := by
    intro i j sp sq hi hj hij
    obtain ⟨a1, a2⟩ := List.getElem?_eq_some_iff.1 hi
    obtain ⟨b1, b2⟩ := List.getElem?_eq_some_iff.1 hj
    have := (List.pairwise_iff_getElem.1 h1) i j a1 b1 hij
    rwa [a2, b2] at this
  have hpos : ∀ (i : Nat) (sp : Span), L[i]? = some sp → sp.start < sp.stop := fun i sp hi =>
    (h2 sp (List.mem_of_getElem? hi)).1
  have hsp := hpos i sp hi
  have hsq := hpos j sq hj
  constructor
  · constructor
    · rintro rfl; rw [hi] at hj; cases hj; rfl
    · rintro rfl
      rcases Nat.lt_trichotomy i j with hh | hh | hh
      · have := hlt _ _ _ _ hi hj hh; omega
      · exact hh
      · have := hlt _ _ _ _ hj hi hh; omega
  · constructor
    · exact hlt _ _ _ _ hi hj
    · intro hle
      rcases Nat.lt_trichotomy i j with hh | hh | hh
      · exact hh
      · subst hh; rw [hi] at hj; cases hj; omega
      · have := hlt _ _ _ _ hj hi hh; omega

/-- Non-vacuity: argument number 2, in the second statement. -/
example : Parses Api.many c!"SELECT ? + ?; SELECT ?;" { arguments := .questionMark }
    (fun b => (match b with | .node .Arg [.nat i, .span sp] => decide (i = 2 ∧ sp = ⟨21, 22⟩) | _ => false) = true) :=
  parses_of_test (n := 20) (f := fun b => match b with | .node .Arg [.nat i, .span sp] => decide (i = 2 ∧ sp = ⟨21, 22⟩) | _ => false)
    (by decide +kernel)

theorem decFold_ge (ds : List Char) (a : Nat) : a ≤ ds.foldl (fun n c => n * 10 + digVal c) a := by
  induction ds generalizing a with
  | nil => simp
  | cons c cs ih => exact Nat.le_trans (show a ≤ a * 10 + digVal c by omega) (ih _)

theorem decVal_pos {ds : List Char} (h1 : ds ≠ []) (h2 : ∀ c ∈ ds, isDig c = true) (h3 : ∀ c ∈ ds.head?, c ≠ '0') :
    0 < decVal ds := by
  cases ds with
  | nil => exact absurd rfl h1
  | cons c cs =>
    have h2 := h2 c (by simp)
    have h3 := h3 c (by simp)
    refine Nat.lt_of_lt_of_le ?_ (decFold_ge cs (0 * 10 + digVal c))
    simp [isDig] at h2
    have : c.toNat ≠ 48 := by
      intro h
      apply h3
      apply Char.ext
      apply UInt32.toNat.inj
      exact h
    have h4 : 48 ≤ c.toNat := h2.1
    have h5 : '0'.toNat = 48 := rfl
    unfold digVal
    omega

/-- **C17**: with `$` arguments, an argument of the AST is written `$n` in the source, without leading zeros, and has
number `n - 1` (if `n` fits in a `usize`). -/
theorem C17_dollar {α : Type} (api : Api α) (chk : Bool) (src : List Char) (old : List Issue) (opts : Opts) (a : α)
    (is : List Issue) (h : api.Returns chk src ⟨src, old⟩ opts a is) (hd : opts.arguments = .dollar) (v : SAst)
    (hv : v ∈ api.stmts a) (i : Nat) (sp : Span) (hi : v.ast.HasArg i sp) :
    ∃ ds, SpanIs src sp ('$' :: ds) ∧ ds ≠ [] ∧ (∀ c ∈ ds, isDig c = true) ∧ ds.head? ≠ some '0' ∧
      (decVal ds < 2 ^ 64 → i + 1 = decVal ds) ∧ (∃ n, IsToken chk src (.dollarArg n) sp) := by
  obtain ⟨new, L, h1, h2, h3, h4⟩ := master_good h
  rcases (h4 v hv).1 _ hi with ⟨-, n, ht, hn⟩ | ⟨g, -⟩
  · obtain ⟨w, rest, hs, ds, rfl, g2, g3, g4, g5, g6⟩ := ht.slice
    refine ⟨ds, slice_spanIs hs, g2, g3, ?_, ?_, n, ht.isToken⟩
    · intro hh
      exact g4 '0' (by rw [hh]; rfl) rfl
    · intro hlt
      have hn' : n = decVal ds := by
        revert g6
        split
        · exact fun h => h.1
        · intro h; rw [h]; exact Nat.mod_eq_of_lt hlt
      have hpos : 0 < decVal ds := decVal_pos g2 g3 (fun c hc => g4 c hc)
      rw [hn, hn']
      unfold dollarIndex
      split <;> omega
  · exact absurd hd g

/-- Non-vacuity: `$12`. -/
example : Parses Api.many c!"SELECT $12;" { arguments := .dollar }
    (fun b => (match b with | .node .Arg [.nat i, .span sp] => decide (i = 11 ∧ sp = ⟨7, 10⟩) | _ => false) = true) :=
  parses_of_test (n := 20) (f := fun b => match b with | .node .Arg [.nat i, .span sp] => decide (i = 11 ∧ sp = ⟨7, 10⟩) | _ => false)
    (by decide +kernel)

/-- **C25**: if no Error issue is added, the returned AST has no construct the dialect does not have. -/
theorem C25_dialect {α : Type} (api : Api α) (chk : Bool) (src : List Char) (old new : List Issue) (opts : Opts) (a : α)
    (h : api.Returns chk src ⟨src, old⟩ opts a (old ++ new)) (hE : ¬ HasError new) :
    ∀ v ∈ api.stmts a, ∀ b, v.ast.Has b → ¬ Unsupported opts.dialect b := by
  obtain ⟨new', L, h1, -, -, h2⟩ := master_good h
  have : new' = new := by simpa using h1.symm
  subst this
  intro v hv b hb hu
  have hg := (h2 v hv).1 _ hb
  have hE' : ¬ (finalCtx chk src opts old new' L).E := hE
  have ho : (finalCtx chk src opts old new' L).opts = opts := rfl
  unfold Unsupported at hu
  split at hu
  all_goals simp only [LocalOK, NodeOK, nodeTag, ho, isSome'] at hg
  all_goals first
    | exact hu
    | exact hu (hg.resolve_left hE')
    | exact hu ((hg (by simp)).resolve_left hE')
    | exact hu (hg trivial)
    | exact ((hg.resolve_left hE').2 trivial) hu
    | exact ((hg.resolve_left hE').1 trivial) hu
    | exact ((hg trivial).resolve_left hE') hu

/-- Non-vacuity: a construct PostgreSQL has and MariaDB does not. -/
example : Parses Api.one c!"DROP TABLE /*é*/ t CASCADE" { dialect := .postgreSQL }
    (fun b => (match b with | .node .DropTable [_, _, _, _, _, .some _] => true | _ => false) = true) :=
  parses_of_test (n := 20) (f := fun b => match b with | .node .DropTable [_, _, _, _, _, .some _] => true | _ => false)
    (by decide +kernel)

/-- **C26**, **C34**: if no Error issue is added, every identifier of the AST stands for the text under its span: either
that text is the identifier itself, and is not a reserved word; or it is the identifier in back quotes, or (for
PostgreSQL) in double quotes. -/
theorem C26_identifiers {α : Type} (api : Api α) (chk : Bool) (src : List Char) (old new : List Issue) (opts : Opts) (a : α)
    (h : api.Returns chk src ⟨src, old⟩ opts a (old ++ new)) (hE : ¬ HasError new) :
    ∀ v ∈ api.stmts a, ∀ x sp, v.ast.Has (.ident x sp) → ∃ w, SpanIs src sp w ∧
      ((w = x ∧ (Keyword.ofStr (upper x)).reserved = false) ∨ w = '`' :: (x ++ ['`']) ∨
       (w = '"' :: (x ++ ['"']) ∧ opts.dialect = .postgreSQL)) := by
  obtain ⟨new', L, h1, -, -, h2⟩ := master_good h
  have : new' = new := by simpa using h1.symm
  subst this
  intro v hv x sp hb
  have hg := ((h2 v hv).1 _ hb).2
  rcases hg with hg | ⟨w, g1, g2⟩
  · exact absurd hg hE
  · exact ⟨w, slice_spanIs g1, g2⟩

/-- Non-vacuity: an unquoted, a back quoted and a double quoted identifier. -/
example : Parses Api.one c!"DROP TABLE ab, \"select\", x" { dialect := .postgreSQL }
    (fun b => (match b with | .ident v sp => decide (v = c!"select" ∧ sp = ⟨15, 23⟩) | _ => false) = true) :=
  parses_of_test (n := 20) (f := fun b => match b with | .ident v sp => decide (v = c!"select" ∧ sp = ⟨15, 23⟩) | _ => false)
    (by decide +kernel)

/-- **C28**: if no Error issue is added, every integer literal of the AST (width, index size, LIMIT, …) is
the value of the digits under its span, which is less than 2^64: digits with a larger value are always reported. -/
theorem C28_integers {α : Type} (api : Api α) (chk : Bool) (src : List Char) (old new : List Issue) (opts : Opts) (a : α)
    (h : api.Returns chk src ⟨src, old⟩ opts a (old ++ new)) (hE : ¬ HasError new) :
    ∀ v ∈ api.stmts a, ∀ n sp, v.ast.Has (.node .Tuple [.nat n, .span sp]) →
      ∃ w, SpanIs src sp w ∧ w ≠ [] ∧ (∀ c ∈ w, isDig c = true) ∧ n = numberOf w ∧ n < 2 ^ 64 := by
  obtain ⟨new', L, h1, -, -, h2⟩ := master_good h
  have : new' = new := by simpa using h1.symm
  subst this
  intro v hv x sp hb
  have hg : IntOK _ _ _ := (h2 v hv).1 _ hb
  rcases hg with hg | ⟨w, g1, g2⟩
  · exact absurd hg hE
  · exact ⟨w, slice_spanIs g1, g2⟩

/-- Non-vacuity. -/
example : Parses Api.one c!"SELECT 00120" {}
    (fun b => (match b with | .node .Tuple [.nat n, .span _] => decide (n = 120) | _ => false) = true) :=
  parses_of_test (n := 20) (f := fun b => match b with | .node .Tuple [.nat n, .span _] => decide (n = 120) | _ => false)
    (by decide +kernel)

/-- **C30**: if no Error issue is added, the statements returned by `parse_statements` are in source order and do not
overlap. -/
theorem C30_source_order (chk : Bool) (src : List Char) (old new : List Issue) (opts : Opts) (l : List SAst)
    (h : Api.many.Returns chk src ⟨src, old⟩ opts l (old ++ new)) (hE : ¬ HasError new) :
    l.Pairwise (fun a b => a.ast.Before b.ast) := by
  obtain ⟨new', s', h1, -, -, -, m, h3⟩ := master h
  have : new' = new := by simpa using h1.symm
  subst this
  exact (h3.2.resolve_left hE).1

/-- Non-vacuity: two statements. -/
example : ∃ a is, Api.many.Returns true c!"SELECT 1; COMMIT;" ⟨c!"SELECT 1; COMMIT;", []⟩ {} a is ∧
    (decide (List.length a = 2) && !hasErrorB is) = true :=
  returns_of_test (n := 20) (f := fun a is => decide (List.length a = 2) && !hasErrorB is) (by decide +kernel)

/-- **C36**: if no Error issue is added, every INSERT or REPLACE of the AST has exactly one of VALUES, SELECT and SET
(SET without a column list), and a REPLACE has no HIGH_PRIORITY or IGNORE. -/
theorem C36_insert_shape {α : Type} (api : Api α) (chk : Bool) (src : List Char) (old new : List Issue) (opts : Opts) (a : α)
    (h : api.Returns chk src ⟨src, old⟩ opts a (old ++ new)) (hE : ¬ HasError new) :
    ∀ v ∈ api.stmts a, ∀ fs, v.ast.Has (.node .InsertReplace fs) →
      ∃ ty flags into table cols vals sel set dup conf ret,
        fs = [ty, .list flags, into, table, .list cols, vals, sel, set, dup, conf, ret] ∧
        ((vals.isSome ∧ !sel.isSome ∧ !set.isSome) ∨ (!vals.isSome ∧ sel.isSome ∧ !set.isSome) ∨
          (!vals.isSome ∧ !sel.isSome ∧ set.isSome ∧ cols.isEmpty)) ∧
        (ty.kind? = some .InsertReplaceType_Insert ∨ ∀ f ∈ flags, f.kind? ≠ some .InsertReplaceFlag_HighPriority ∧
          f.kind? ≠ some .InsertReplaceFlag_Ignore) := by
  obtain ⟨new', L, h1, -, -, h2⟩ := master_good h
  have : new' = new := by simpa using h1.symm
  subst this
  intro v hv fs hb
  have hg : NodeOK _ _ _ := (h2 v hv).1 _ hb
  simp only [NodeOK, nodeTag] at hg
  split at hg <;> try contradiction
  · next ty flags into table cols vals sel set dup conf ret _ =>
    have hS : ∀ a : Ast, isSome' a = a.isSome := fun a => by cases a <;> rfl
    simp only [hS] at hg
    refine ⟨ty, flags, into, table, cols, vals, sel, set, dup, conf, ret, rfl, ?_⟩
    rcases hg with hg | ⟨hg, hf⟩
    · exact absurd hg hE
    refine ⟨?_, ?_⟩
    · revert hg
      cases vals.isSome <;> cases sel.isSome <;> cases set.isSome <;> simp
    · rcases hf with hf | hf
      · exact .inl hf
      · right
        intro f hf'
        have := hf f hf'
        simpa [badReplaceFlag] using this

/-- Non-vacuity. -/
example : Parses Api.one c!"INSERT IGNORE INTO t (a) VALUES (1)" {} (fun b => (b.kind? == some .InsertReplace) = true) :=
  parses_of_test (n := 20) (f := fun b => b.kind? == some .InsertReplace) (by decide +kernel)

end SqlParse
