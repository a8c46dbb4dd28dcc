import Verif.Proofs.SoundAlter
/-! The converse direction of the grammar: CREATE. -/
namespace SqlParse
set_option linter.unusedSectionVars false

section
variable {α β σ : Type} {n : Nat} [CallsS n] {c : Env} {ts r tl : List Tk} {Q : β → List Tk → Prop} {t : Token} {sp : Span}

theorem callStatement_d : D n c (.call .statement) ts (SpecFn c .statement ts) := CallsS.call .statement c ts

theorem constraintOnDelete_d : D n c constraintOnDelete ts (fun _ r => OnDelete ts r) := by
  unfold constraintOnDelete
  refine d_bind skw_d fun o r ho => ?_
  cases ho with
  | none h => exact d_ret (.none h)
  | some h =>
    unfold Prog.when
    simp only [Option.isSome_some, if_true]
    dw
    · next hd _ _ _ _ hk => exact .plain (k := .CASCADE) (by decide) (.cons h (.cons hd (.one hk)))
    · next hd _ _ _ _ _ hk => exact .plain (k := .DELETE) (by decide) (.cons h (.cons hd (.one hk)))
    · next hd _ _ _ _ _ _ hk => exact .plain (k := .RESTRICT) (by decide) (.cons h (.cons hd (.one hk)))
    · leaf

theorem constraintDefinition_d : D n c constraintDefinition ts (Defn c ts) := by
  unfold constraintDefinition
  dw
  all_goals leaf

theorem createDefinition_d : D n c createDefinition ts (Defn c ts) := by
  unfold createDefinition
  dw
  all_goals leaf

theorem createView_d {cs : Span} {os : List Ast} : D n c (createView cs os) ts (CrWhat c cs os ts) := by
  unfold createView
  dw
  all_goals leaf

theorem paramDirection_d : D n c paramDirection ts (Direction ts) := by
  unfold paramDirection
  dw
  all_goals dcase [OptK]
  all_goals leaf

theorem functionParam_d : D n c functionParam ts (Param c ts) := by
  unfold functionParam
  dw
  all_goals leaf

/-- One characteristic. -/
inductive Char1 : List Tk → Option Ast → List Tk → Prop where
  | none {r : List Tk} (h : NoKw charWords r) : Char1 r none r
  | plain {ks : List Keyword} {K : Kind} {ts r : List Tk} {s : Span} (hk : (ks, K) ∈ plainChars) (h : Kws ks ts s r) :
      Char1 ts (some (.node K [.span s])) r
  | comment {t : Token} {s : Span} {ts r : List Tk} {a : Ast} (h : t.isKw .COMMENT = true) (ha : Str ts a r) :
      Char1 ((t, s) :: ts) (some (nd% FunctionCharacteristic_Comment [a])) r

theorem kws_snoc {ks : List Keyword} {k : Keyword} {s : Span} (h : Kws ks ts s ((t, sp) :: tl)) (hk : t.isKw k = true) :
    Kws (ks ++ [k]) ts (joinSpan sp s) tl := by
  generalize hr : (t, sp) :: tl = r at h
  induction h with
  | one h => subst hr; rw [joinSpan_comm]; exact .cons h (.one hk)
  | cons h _ ih =>
    rw [joinSpan_comm, joinSpan_assoc, joinSpan_comm _ sp]
    exact .cons h (ih hr)

theorem functionCharacteristic_d : D n c functionCharacteristic ts (Char1 ts) := by
  unfold functionCharacteristic
  dw
  · next h _ _ _ _ h' _ => exact .plain (ks := [.LANGUAGE, .SQL]) (by simp [plainChars]) (.cons h (.one h'))
  · next h _ _ _ _ _ h' _ => exact .plain (ks := [.LANGUAGE, .PLPGSQL]) (by simp [plainChars]) (.cons h (.one h'))
  · next h => exact .plain (ks := [.NOT, .DETERMINISTIC]) (by simp [plainChars]) h
  · next h => exact .plain (ks := [.DETERMINISTIC]) (by simp [plainChars]) (.one h)
  · next h => exact .plain (ks := [.CONTAINS, .SQL]) (by simp [plainChars]) h
  · next h => exact .plain (ks := [.NO, .SQL]) (by simp [plainChars]) h
  · next h => exact .plain (ks := [.READS, .SQL, .DATA]) (by simp [plainChars]) h
  · next h => exact .plain (ks := [.MODIFIES, .SQL, .DATA]) (by simp [plainChars]) h
  · leaf
  · next h _ h' => exact .plain (ks := [.SQL, .SECURITY, .DEFINER]) (by simp [plainChars]) (kws_snoc h h')
  · next h _ _ h' => exact .plain (ks := [.SQL, .SECURITY, .USER]) (by simp [plainChars]) (kws_snoc h h')
  · refine .none ?_
    simp_all [NoKw, Next, charWords]

theorem chars_of {l : List Ast} (h : Many Char1 ts l r) : Chars ts l r := by
  induction h with
  | nil h => cases h; exact .nil (by assumption)
  | cons h _ ih =>
    cases h with
    | plain hk h => exact .plain hk h ih
    | comment h ha => exact .comment h ha ih

theorem enumValues_d : D n c enumValues ts (fun l r => CommaL Str ts l r ∧ Next (· = .rParen) r) := by
  refine d_loop (I := fun acc r => ∀ l r', CommaL Str r l r' → CommaL Str ts (acc ++ l) r') (fun _ _ h => h) ?_
  intro acc ts' hI
  dw
  · next h _ => exact ⟨hI _ _ (.one h (by simp [Next])), rfl⟩
  · next h _ _ _ _ hl => simpa using hI _ _ (.cons h hl)

theorem createType_d {cs : Span} {os : List Ast} : D n c (createType cs os) ts (CrWhat c cs os ts) := by
  unfold createType
  dw
  all_goals leaf

theorem isOpclass_eq {t : Token} : isOpclass t = opClasses.any t.isKw := by
  simp [isOpclass, opClasses, Bool.or_assoc]

theorem createIndexCol_d : D n c createIndexCol ts (CrIdxCol c ts) := by
  unfold createIndexCol
  refine d_bind ident_d fun i r hi => d_curT fun t sp tl he => ?_
  subst he
  cases ho : isOpclass t with
  | false =>
    refine d_seq (d_ret (d_pure (.plain hi ?_)))
    intro k hk
    rw [isOpclass_eq, List.any_eq_false] at ho
    simpa using ho k hk
  | true =>
    rw [isOpclass_eq, List.any_eq_true] at ho
    obtain ⟨k, hk, ht⟩ := ho
    unfold Prog.when
    simp only [if_true]
    refine d_assoc (consume_db (solid_kw ht) ?_)
    refine d_assoc (d_isPg ?_)
    refine d_whenErr fun hd => d_pure (.op hi hk ht ?_)
    simpa using hd

theorem usingGist_d : D n c usingGist ts (fun x r => ∃ g : Option Span, OptKws .USING [.GIST] ts g r ∧ x = (g.map fun g => nd% CreateIndexOption_UsingGist [g]).toList) := by
  unfold usingGist
  dw
  · exact ⟨none, .none (by assumption), rfl⟩
  · next h _ _ _ h' => exact ⟨some _, .some (kws_snoc (.one h) h'), rfl⟩

theorem indexWhere_d : D n c indexWhere ts (fun w r => OptKw .WHERE (fun sp ts a r => ∃ x, a = (sp, x) ∧ Ex c false ts x r) ts w r ∧
    (c.opts.dialect = .mariaDB → w = none)) := by
  unfold indexWhere
  dw
  all_goals leaf

theorem createIndex_d {cs : Span} {os : List Ast} : D n c (createIndex cs os) ts (CrWhat c cs os ts) := by
  unfold createIndex
  dw
  all_goals leaf

theorem tableIfNotExists_d : D n c tableIfNotExists ts (OptKw .IF (fun i ts a r => ∃ s, Kws [.NOT, .EXISTS] ts s r ∧ a = (⟨i.start, s.stop⟩ : Span)) ts) := by
  refine optKw_d fun sp ts => ?_
  dw
  all_goals leaf


/-- The rounds of the loop over the body of a function. -/
def skipRound : Prog (Step Unit Unit) := do
  let t ← curT
  if t = .eof ∨ t = .doubleDollar then do
    let _ ← ctk .doubleDollar
    return .done ()
  else do
    let _ ← consume
    return .cont ()

theorem skipRound_run {s : St} (h1 : s.token ≠ .eof) (h2 : s.token ≠ .doubleDollar) :
    skipRound.run n s = match s.next with | .ok _ s' => .ok (.cont ()) s' | .err s' => .err s' | .panic m => .panic m | .oof => .oof := by
  have e : skipRound.run n s = runWith (runFn n) n (if s.token = .eof ∨ s.token = .doubleDollar then do
    let _ ← ctk .doubleDollar
    return .done ()
  else do
    let _ ← consume
    return .cont ()) s := rfl
  rw [e, if_neg (by simp [h1, h2])]
  have e2 : runWith (runFn n) n consume s = match s.next with | .ok _ s' => .ok s.span s' | .err s' => .err s' | .panic m => .panic m | .oof => .oof := by
    show runWith (runFn n) n (Prog.bind (Prog.bind (.op .cur) fun x => .ret x.2) fun sp => Prog.bind next fun _ => .ret sp) s = _
    simp only [runWith]
    rw [show Op.run .cur s = .ok (s.token, s.span) s from rfl]
    simp only
    rw [show runWith (runFn n) n next s = s.next from rfl]
    cases s.next <;> rfl
  show runWith (runFn n) n (Prog.bind consume fun _ => Prog.ret (Step.cont ())) s = _
  simp only [runWith]
  rw [e2]
  cases s.next <;> rfl

theorem skipRound_eof : D n c skipRound ((.eof, sp) :: tl) (fun _ _ => False) := by
  unfold skipRound
  refine d_curT fun t sp' tl' he => ?_
  cases he
  simp only [true_or, if_true]
  refine ctk_db rfl fun _ _ he => ?_
  cases he

/-- The text that is skipped must end with `$$`. -/
theorem skip_unclosed {L : Log} (hda : c.data = fun sp => L.data.lookup sp) (k : Nat) (ts : List Tk) (s : St)
    (hs : ∃ tl, ts = (s.token, s.span) :: tl ∧ SAhead c.data s tl) (hb : BInv s)
    (hlg : (∀ x ∈ s.dataLog, x.1.start < s.span.start) ∧ ∀ x ∈ s.argLog, x.start < s.span.start) (h1 : ∀ x ∈ ts, x.1 ≠ .doubleDollar) :
    match loopN (fun _ s => skipRound.run n s) k () s with | .ok _ s' => ¬ Calm L s s' | .err s' => ¬ Calm L s s' | _ => True := by
  induction k generalizing ts s with
  | zero => trivial
  | succ k ih =>
    unfold loopN
    by_cases he : s.token = .eof
    · obtain ⟨tl, rfl, hs⟩ := hs
      have htl : tl = [] := by
        unfold SAhead at hs
        split at hs
        · simpa [Token.isLast, he] using hs
        · exact absurd hs.1 (by simp [Token.isKw, he])
      subst htl
      have := skipRound_eof (n := n) (c := { opts := s.opts.noStyle, delim := s.delim, permit := s.permit, args := fun sp => decide (sp ∈ L.args), num := fun _ => 0, data := c.data }) (sp := s.span) (tl := []) L s
        ⟨rfl, rfl, rfl, ⟨[], by rw [he], hs⟩, by simp [Numbered, argTk, marker, Token.isKw], hb, hda, rfl, hlg⟩
      have pre := run_good n skipRound s hb
      cases hr : skipRound.run n s with
      | ok st s' =>
        rw [hr] at this pre
        have hne : ¬ Calm L s s' := fun hq => by
          obtain ⟨_, _, _, h⟩ := this hq
          exact h.elim
        cases st with
        | done b => exact hne
        | cont y =>
          have p2 := loopN_good (fun _ s hs => runWith_good (runFn_good n) n skipRound s hs) k () s' pre.1
          show match loopN (fun _ s => skipRound.run n s) k () s' with | .ok _ s' => ¬ Calm L s s' | .err s' => ¬ Calm L s s' | _ => True
          change Good s' (loopN (fun _ s => skipRound.run n s) k () s') at p2
          cases h3 : loopN (fun _ s => skipRound.run n s) k () s' with
          | ok _ s2 => rw [h3] at p2; exact fun hq => hne (quiet_back pre.2 p2.2 hq).1
          | err s2 => rw [h3] at p2; exact fun hq => hne (quiet_back pre.2 p2.2 hq).1
          | panic m => trivial
          | oof => trivial
      | err s' => rw [hr] at this; exact this
      | panic m => trivial
      | oof => trivial
    · have hc := hs
      obtain ⟨tl, rfl, hs⟩ := hs
      have hl : s.token.isLast = false := by
        simp_all [Token.isLast]
      simp only [skipRound_run he (h1 _ (List.mem_cons_self ..))]
      have hg := next_good hb
      have hpos := tok_pos hb he
      rcases next_only (s := s) with ⟨s', g1, -, g3, g4⟩ | ⟨m, g1⟩
      · have hk := next_ok hb g1
        have hlt : s.span.start < s'.span.start := by omega
        rw [g1] at hg ⊢
        simp only
        have := fun hq : Calm L s s' => ih _ _ (sat_next hl hc (after_of _ (by rw [hda]; exact quiet_none hlg.1 g3 hlt hq)) g1) hg.1
          ⟨fun x hx => by rw [g3] at hx; have := hlg.1 x hx; omega, fun x hx => by rw [g4] at hx; have := hlg.2 x hx; omega⟩
          (fun x hx => h1 x (List.mem_cons_of_mem _ hx))
        have p2 := loopN_good (fun _ s hs => runWith_good (runFn_good n) n skipRound s hs) k () s' hg.1
        change Good s' (loopN (fun _ s => skipRound.run n s) k () s') at p2
        cases h3 : loopN (fun _ s => skipRound.run n s) k () s' with
        | ok _ s2 => rw [h3] at p2 this; exact fun hq => this (quiet_back hg.2 p2.2 hq).1 (quiet_back hg.2 p2.2 hq).2
        | err s2 => rw [h3] at p2 this; exact fun hq => this (quiet_back hg.2 p2.2 hq).1 (quiet_back hg.2 p2.2 hq).2
        | panic m => trivial
        | oof => trivial
      · rw [g1]; trivial

theorem functionBody_d : D n c functionBody ts (fun _ r => FnBody c ts r) := by
  unfold functionBody
  refine d_isPg ?_
  cases hd : decide (c.opts.dialect = .postgreSQL) with
  | false =>
    refine d_seq (d_ret (d_ret (.none fun h => ?_)))
    simp [h] at hd
  | true =>
    have hd : c.opts.dialect = .postgreSQL := by simpa using hd
    simp only [if_true]
    refine d_bind skw_d fun o r ho => ?_
    cases ho with
    | none h => exact d_ret (.none fun _ => h)
    | some h =>
      unfold Prog.when
      simp only [Option.isSome_some, if_true]
      refine ctk_dbD rfl fun sp tl he hn => ?_
      subst he
      refine D.mono (Q' := fun _ r => ToDollars c tl r) ?_ fun _ r hr => FnBody.text hd h hn hr
      show D n c (Prog.loop (fun _ => skipRound) ()) _ _
      by_cases hdd : ∃ x ∈ tl, x.1 = .doubleDollar
      · refine d_loop (I := fun _ r => (∀ r', ToDollars c r r' → ToDollars c tl r') ∧ ∃ x ∈ r, x.1 = .doubleDollar)
          ⟨fun _ h => h, hdd⟩ ?_
        rintro - ts' ⟨i1, i3⟩
        unfold skipRound
        refine d_curT fun t sp tl he => ?_
        subst he
        refine d_ite (fun ht => ?_) fun ht => ?_
        · refine ctk_dbD rfl fun _ _ he hn => d_pure ?_
          cases he
          exact i1 _ (.here hn)
        · have h3 : ∃ x ∈ tl, x.1 = .doubleDollar := by
            obtain ⟨x, hm, hx⟩ := i3
            rcases List.mem_cons.1 hm with rfl | hm
            · exact absurd (.inr hx) ht
            · exact ⟨x, hm, hx⟩
          refine d_consumeA (by simp_all [Token.isLast]) fun hm hn => d_pure ?_
          exact ⟨fun r' hr => i1 _ (.next (fun h => ht (.inr h)) (fun h => ht (.inl h)) hm hn hr), h3⟩
      · intro k s hs
        have := skip_unclosed (n := n) hs.data n tl s hs.cur hs.inv hs.log (fun x hm he => hdd ⟨x, hm, he⟩)
        show DOut c k s _ _ (loopN (fun _ s => skipRound.run n s) n () s)
        generalize loopN (fun _ s => skipRound.run n s) n () s = o at this
        cases o with
        | ok _ _ => exact fun h => absurd h this
        | err _ => exact this
        | panic _ => trivial
        | oof => trivial

theorem statementReq_d : D n c statementReq ts (Stm c ts) := by
  unfold statementReq
  refine d_bind callStatement_d fun o r ho => ?_
  refine d_tail (orExpected_db fun a ha => ?_)
  subst ha
  exact d_ret ho

theorem createFunction_d {t : Token} {cs : Span} {os : List Ast} {ts0 : List Tk} (h : t.isKw .CREATE = true) (ho : CrOpts c ts0 os ts) :
   D n c (createFunction cs os) ts (Stm c ((t, cs) :: ts0)) := by
  unfold createFunction
  dw
  all_goals leaf [chars_of]

theorem triggerTimeTable_eq : triggerTimeTable = triggerTimeWords := rfl
theorem triggerEventTable_eq : triggerEventTable = triggerEventWords := rfl

theorem createTrigger_d {t : Token} {cs : Span} {os : List Ast} {ts0 : List Tk} (h : t.isKw .CREATE = true) (ho : CrOpts c ts0 os ts) :
   D n c (createTrigger cs os) ts (Stm c ((t, cs) :: ts0)) := by
  unfold createTrigger
  dw
  refine d_withPermit statementReq_d fun v r hv => d_pure ?_
  all_goals dcase [KwN]
  all_goals leaf

theorem tableName_d : D n c tableName ts (fun x r => x.1 = true ∧ ∃ r1, OptKw .IF (fun i ts a r => ∃ s, Kws [.NOT, .EXISTS] ts s r ∧ a = (⟨i.start, s.stop⟩ : Span)) ts x.2.1 r1 ∧ QName c r1 x.2.2 r) := by
  unfold tableName
  dw
  exact ⟨rfl, _, by assumption, by assumption⟩

theorem createDefinitions_d : D n c createDefinitions ts (fun l r => l = [] ∧ r = ts ∨ CommaL (Defn c) ts l r) := by
  unfold createDefinitions
  dw
  · exact .inl ⟨rfl, rfl⟩
  · refine D.mono ?_ fun _ _ => .inr
    rename_i t sp tl hne
    generalize (t, sp) :: tl = ts
    refine d_loop (I := fun acc r => ∀ l r', CommaL (Defn c) r l r' → CommaL (Defn c) ts (acc ++ l) r') (fun _ _ h => h) ?_
    intro acc ts' hI
    dw
    · next h _ => exact hI _ _ (.one h (by simp [Next]))
    · next h _ _ _ _ hl => simpa using hI _ _ (.cons h hl)

theorem optionValue_d {k : Keyword} {value : Prog Ast} {R : List Tk → Ast → List Tk → Prop} (h : ∀ ts, D n c value ts (R ts)) :
    D n c (optionValue k value) ((t, sp) :: tl) (fun a r => OptVal R k ((t, sp) :: tl) (sp, a) r) := by
  unfold optionValue
  dw
  refine D.mono (h _) fun a r ha => ?_
  all_goals dcase [OptT]
  all_goals leaf

/-- One option of a table. -/
inductive TOpt1 (e : Env) : List Tk → Option Ast → List Tk → Prop where
  | none {r : List Tk} (h : Next (fun t => t = e.delim ∨ t = .eof) r) (hn : NoKw tblOptWords r) : TOpt1 e r none r
  | some {ts r : List Tk} {a : Ast} (h : TblOpt e ts a r) : TOpt1 e ts (some a) r

theorem tblOpts_of {l : List Ast} (h : Many (TOpt1 c) ts l r) : TblOpts c ts l r := by
  induction h with
  | nil h => cases h; exact .nil (by assumption) (by assumption)
  | cons h _ ih => cases h; exact .cons (by assumption) ih

theorem tableOption_d : D n c tableOption ts (TOpt1 c ts) := by
  unfold tableOption
  dw
  · next h => exact .some (.engine (x := (_, _)) h)
  · next h _ _ _ _ _ _ _ h' => exact .some (.defaultCharset h h')
  · next h _ _ _ _ _ _ _ _ h' => exact .some (.defaultCollate h h')
  · next h => exact .some (.charset (x := (_, _)) h)
  · next h => exact .some (.collate (x := (_, _)) h)
  · next h => exact .some (.rowFormat (x := (_, _)) h)
  · next h => exact .some (.comment (x := (_, _)) h)
  · next h => exact .some (.strict h)
  · next h =>
    refine .none h ?_
    simp_all [NoKw, Next, tblOptWords]

theorem accMany_d {item : Prog (Option Ast)} {R : List Tk → Option Ast → List Tk → Prop} (h : ∀ ts, D n c item ts (R ts)) :
    D n c (accMany item) ts (fun x r => x.1 = true ∧ Many R ts x.2 r) := by
  refine accLoop_d (I := fun acc r => ∀ l r', Many R r l r' → Many R ts (acc ++ l) r') (fun _ _ h => h) ?_
  intro acc ts' hI
  refine d_bind (h ts') fun o r ho => d_pure ?_
  cases o with
  | none => simpa using hI [] r (.nil ho)
  | some a =>
    intro l r' hl
    simpa using hI _ _ (.cons ho hl)

theorem createTable_d {cs : Span} {os : List Ast} : D n c (createTable cs os) ts (CrWhat c cs os ts) := by
  unfold createTable
  dw
  refine d_bind (recoveredAcc_d (R := fun (x : Option Span × Ast) r => ∃ r1, OptKw .IF (fun i ts a r => ∃ s, Kws [.NOT, .EXISTS] ts s r ∧ a = (⟨i.start, s.stop⟩ : Span)) _ x.1 r1 ∧ QName c r1 x.2 r) tableName_d) fun x r hx => ?_
  obtain ⟨ine, name⟩ := x
  dw
  next hk _ _ _ _ _ hd _ _ hm _ =>
    obtain ⟨⟨r1, h1, h2⟩, -⟩ := hx
    refine .table hk h1 h2 (ds := _) ?_ (tblOpts_of hm)
    rcases hd with ⟨rfl, rfl⟩ | hd
    · exact .nil
    · exact .some (.mk hd)

/-- One option of CREATE. -/
inductive COpt1 (e : Env) : List Tk → Option Ast → List Tk → Prop where
  | none {r : List Tk} : COpt1 e r none r
  | orReplace {ts r : List Tk} {s : Span} (h : Kws [.OR, .REPLACE] ts s r) : COpt1 e ts (some (nd% CreateOption_OrReplace [s])) r
  | temporary {ts r : List Tk} {s : Span} (h : Kws [.TEMPORARY] ts s r) : COpt1 e ts (some (nd% CreateOption_Temporary [s])) r
  | unique {ts r : List Tk} {s : Span} (h : Kws [.UNIQUE] ts s r) : COpt1 e ts (some (nd% CreateOption_Unique [s])) r
  | algorithm {t t' : Token} {s q s' : Span} {r : List Tk} {K : Kind} (h : t.isKw .ALGORITHM = true)
      (h' : algorithmWords.lookup t'.kw = some K) :
      COpt1 e ((t, s) :: (.eq, q) :: (t', s') :: r) (some (nd% CreateOption_Algorithm [s, Ast.node K [.span s']])) r
  | definer {t : Token} {s q a : Span} {ts r1 r : List Tk} {u o : Ast} (h : t.isKw .DEFINER = true)
      (hu : Idn e ts u ((.at, a) :: r1)) (ho : Idn e r1 o r) :
      COpt1 e ((t, s) :: (.eq, q) :: ts) (some (nd% CreateOption_Definer [s, u, o])) r
  | securityDefiner {t : Token} {ts r : List Tk} {s d : Span} (h : Kws [.SQL, .SECURITY] ts s ((t, d) :: r))
      (ht : t.isKw .DEFINER = true) : COpt1 e ts (some (nd% CreateOption_SqlSecurityDefiner [s, d])) r
  | securityUser {t : Token} {ts r : List Tk} {s d : Span} (h : Kws [.SQL, .SECURITY] ts s ((t, d) :: r))
      (ht : t.isKw .USER = true) : COpt1 e ts (some (nd% CreateOption_SqlSecurityUser [s, d])) r

theorem createOption_d : D n c createOption ts (COpt1 c ts) := by
  unfold createOption
  dw
  all_goals dcase [KwN]
  all_goals leaf

theorem crOpts_of {l : List Ast} (h : Many (COpt1 c) ts l r) (hr : Next (fun t => isCreatable t = true) r) : CrOpts c ts l r := by
  induction h with
  | nil h =>
    cases h
    obtain ⟨t, sp, tl, rfl, hr⟩ := hr.elim
    refine .nil ?_
    simp only [isCreatable, Bool.or_eq_true] at hr
    show ∃ k ∈ _, t.isKw k = true
    rcases hr with ((((h | h) | h) | h) | h) | h
    all_goals exact ⟨_, by simp, h⟩
  | cons h _ ih =>
    have ih := ih hr
    cases h with
    | orReplace h => exact .orReplace h ih
    | temporary h => exact .temporary h ih
    | unique h => exact .unique h ih
    | algorithm h h' => exact .algorithm h h' ih
    | definer h hu ho => exact .definer h hu ho ih
    | securityDefiner h ht => exact .securityDefiner h ht ih
    | securityUser h ht => exact .securityUser h ht ih

theorem toStmt_d {p : Prog Ast} {R : Ast → List Tk → Prop} (h : D n c p ts R) : D n c (toStmt p) ts (fun v r => ∃ a, v = ⟨a⟩ ∧ R a r) :=
  d_bind h fun a _ ha => d_pure ⟨a, rfl, ha⟩

theorem parseCreate_d : D n c parseCreate ts (Stm c ts) := by
  unfold parseCreate
  refine ckw_db fun t cs tl he hk => ?_
  subst he
  refine d_bind (recoveredAcc_d (accMany_d fun _ => createOption_d)) fun os r ho => ?_
  have ho := crOpts_of ho.1 ho.2
  have hw : ∀ {p : Prog Ast}, D n c p r (CrWhat c cs os r) → D n c (toStmt p) r (Stm c ((t, cs) :: tl)) := fun h =>
    (toStmt_d h).mono fun _ _ ⟨a, e, ha⟩ => e ▸ .create hk ho ha
  refine d_curT fun t sp tl he => ?_
  subst he
  refine d_ite (fun _ => hw createIndex_d) fun _ => ?_
  refine d_ite (fun _ => hw createTable_d) fun _ => ?_
  refine d_ite (fun _ => hw createView_d) fun _ => ?_
  refine d_ite (fun _ => createFunction_d hk ho) fun _ => ?_
  refine d_ite (fun _ => createTrigger_d hk ho) fun _ => ?_
  refine d_ite (fun _ => hw createType_d) fun _ => ?_
  exact d_expectedFailure

end
end SqlParse
