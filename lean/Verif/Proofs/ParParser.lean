import Verif.Proofs.ParWalk
/-! Corresponding runs of the helper functions of parser.rs. -/
namespace SqlParse
variable {E : Par} {α β σ : Type}

theorem cur_par : PR E (vr E) cur cur := cur_par'
theorem curT_par : PR E (vr E) curT curT := by unfold curT; pw
theorem curS_par : PR E (vr E) curS curS := by unfold curS; pw
theorem isPg_par : PR E (vr E) isPg isPg := bind_par dialect_par (by rintro a b ⟨rfl, rfl⟩; exact pure_par rfl)
theorem isMaria_par : PR E (vr E) isMaria isMaria := bind_par dialect_par (by rintro a b ⟨rfl, rfl⟩; exact pure_par rfl)
theorem isSqlite_par : PR E (vr E) isSqlite isSqlite := bind_par dialect_par (by rintro a b ⟨rfl, rfl⟩; exact pure_par rfl)

theorem when_par {c c' : Bool} {p q : Prog Unit} (hc : c = true ↔ c' = true) (h : c = true → c' = true → PR E (vr E) p q) :
    PR E (vr E) (Prog.when c p) (Prog.when c' q) := by
  unfold Prog.when
  exact ite_par hc h (fun _ _ => ret_par rfl)

theorem optMap_par [VRel α] [VRel β] {o o' : Option α} {f g : α → Prog β} (ho : vr E o o')
    (h : ∀ a b, vr E a b → PR E (vr E) (f a) (g b)) : PR E (vr E) (optMap o f) (optMap o' g) := by
  cases o <;> cases o'
  · exact ret_par trivial
  · cases ho
  · cases ho
  · exact bind'_par (h _ _ ho) (fun _ _ h => ret_par h)

theorem optIf_par [VRel β] {c c' : Bool} {p q : Prog β} (hc : c = true ↔ c' = true) (h : c = true → c' = true → PR E (vr E) p q) :
    PR E (vr E) (optIf c p) (optIf c' q) := by
  unfold optIf
  exact ite_par hc (fun h1 h2 => bind'_par (h h1 h2) (fun _ _ h => ret_par h)) (fun _ _ => ret_par trivial)

theorem consume_par : PR E (vr E) consume consume := by unfold consume; pw
theorem tok_name {t t' : Token} (h : E.tok t t') : t.name = t'.name := by cases h <;> rfl
theorem expectedError_par' {m m' : Wanted} (h : m.text = m'.text) : PR E (vr E) (expectedError m) (expectedError m') :=
  bind_par curS_par fun _ _ hs => errMsg_par (.expected h) hs
theorem expectedError_par {m : Wanted} : PR E (vr E) (expectedError m) (expectedError m) := expectedError_par' rfl
theorem expectedFailure_par' {m m' : Wanted} (h : m.text = m'.text) {Q : α → α → Prop} : PR E Q (expectedFailure m) (expectedFailure m') := by
  exact bind_par (expectedError_par' h) (fun _ _ _ => throw_par)
theorem expectedFailure_par {m : Wanted} {Q : α → α → Prop} : PR E Q (expectedFailure m) (expectedFailure m) := by
  unfold expectedFailure; pw
theorem errHere_par {m : String} {Q : α → α → Prop} : PR E Q (errHere m) (errHere m) := by
  unfold errHere; pw
theorem orExpected_par [VRel α] {o o' : Option α} {m : String} (h : vr E o o') : PR E (vr E) (orExpected o m) (orExpected o' m) := by
  unfold orExpected; pw

/-- Corresponding predicates on tokens. -/
def EndR (E : Par) (e e' : Token → Bool) : Prop := ∀ t t', E.tok t t' → (e t = true ↔ e' t' = true)

theorem popTo_self (b : Token) (l : List Token) : popTo b l = popTo b l := rfl

theorem recover_par {e e' : Token → Bool} (he : EndR E e e') : PR E (vr E) (recover e) (recover e') := by
  unfold recover
  refine loop'_par (I := fun a b : List Token => a = b) ?_ rfl
  rintro br _ rfl
  refine bind_par curT_par (fun t t' ht => ?_)
  have he := he t t' ht
  refine ite_par ?_ (fun _ _ => pure_par (Q := stepR _ _) (a := Step.done ()) (b := Step.done ()) rfl) (fun _ _ => ?_)
  · simp only [Bool.and_eq_true, he]
  refine ite_par (by rw [tok_eq ht rfl]) (fun _ _ => throw_par) (fun _ _ => ?_)
  refine bind_par delim_par (fun d d' hd => ?_)
  refine ite_par (hd.1 t t' ht) (fun _ _ => throw_par) (fun _ _ => ?_)
  refine bind_par next_par (fun _ _ _ => pure_par ?_)
  have ht' : E.tok t t' := ht
  simp only [tok_eq ht' (c := .lParen) rfl, tok_eq ht' (c := .lBracket) rfl, tok_eq ht' (c := .lBrace) rfl,
    tok_eq ht' (c := .rParen) rfl, tok_eq ht' (c := .rBracket) rfl, tok_eq ht' (c := .rBrace) rfl]
  show (if _ then _ else _) = (if _ then _ else _)
  by_cases h : t = .lParen ∨ t = .lBracket ∨ t = .lBrace
  · rw [if_pos h, if_pos h]
    have : t' = t := by
      rcases h with rfl | rfl | rfl <;> (rcases ht with h | h | h | h <;> first | rfl)
    rw [this]
  · rw [if_neg h, if_neg h]

theorem recoveredEnd_par {m : String} {e e' : Token → Bool} {b b' : Bool} (he : EndR E e e') (hb : b = b') :
    PR E (vr E) (recoveredEnd m e b) (recoveredEnd m e' b') := by
  subst hb
  unfold recoveredEnd
  refine bind_par (when_par Iff.rfl (fun _ _ => recover_par he)) (fun _ _ _ => ?_)
  refine bind_par curT_par (fun t t' ht => ?_)
  have h1 := he t t' ht
  refine when_par (by simp only [Bool.not_eq_true', ← Bool.not_eq_true, h1]) (fun _ _ => ?_)
  exact bind_par expectedError_par (fun _ _ _ => recover_par he)

theorem recoveredAcc_par [VRel σ] {m : String} {e e' : Token → Bool} {p q : Prog (Bool × σ)} (he : EndR E e e')
    (h : PR E (vr E) p q) : PR E (vr E) (recoveredAcc m e p) (recoveredAcc m e' q) := by
  unfold recoveredAcc
  exact bind_par h (fun r r' hr => bind_par (recoveredEnd_par he hr.1) (fun _ _ _ => pure_par hr.2))

theorem recovered_par [VRel α] {m : String} {e e' : Token → Bool} {p q : Prog α} (he : EndR E e e')
    (h : PR E (vr E) p q) : PR E (vr E) (recovered m e p) (recovered m e' q) := by
  unfold recovered
  exact bind_par (tryP_par h) (fun r r' hr => bind_par (recoveredEnd_par he (vr_isSome hr).symm) (fun _ _ _ => pure_par hr))

theorem accLoop_par [VRel σ] {f g : σ → Prog (Step σ σ)} {x y : σ} (h : ∀ x y, vr E x y → PR E (vr E) (f x) (g y))
    (hx : vr E x y) : PR E (vr E) (accLoop f x) (accLoop g y) := by
  unfold accLoop
  refine loop_par (fun x y hxy => ?_) hx
  refine bind_par (tryP_par (h x y hxy)) (fun r r' hr => pure_par ?_)
  cases r with
  | none => cases r' with
    | none => exact ⟨rfl, hxy⟩
    | some _ => cases hr
  | some a => cases r' with
    | none => cases hr
    | some b =>
      cases a <;> cases b
      · exact hr
      · cases hr
      · cases hr
      · exact ⟨rfl, hr⟩

theorem sepLoop_par [VRel α] {more more' : Prog Bool} {item item' : Prog α} (hm : PR E (vr E) more more')
    (hi : PR E (vr E) item item') : PR E (listR (vr E)) (sepLoop more item) (sepLoop more' item') := by
  unfold sepLoop
  refine loop'_par (I := listR (vr E)) (fun x y hxy => ?_) trivial
  refine bind_par hi (fun a b hab => bind_par hm (fun m m' hmm => pure_par ?_))
  cases hmm
  have := app_vr hxy (cons_vr hab nil_vr)
  split <;> exact this

theorem capsWarn_par {k : Keyword} (hk : k.isWord = true) {v w : List Char} {sp sp' : Span} (hv : E.txt k v w) (h : vr E sp sp') :
    PR E (vr E) (capsWarn v sp) (capsWarn w sp') := by
  unfold capsWarn
  by_cases hc : E.opts.warnCaps = true
  · rw [E.caps hc hk hv]
    exact when_par Iff.rfl (fun _ _ => issueIf_par (E.stxt hv) h)
  · have hn : ∀ v sp, ∀ s : St, s.opts = E.opts → Op.run (.issueIf .caps .warning v sp) s = .ok () s := by
      intro v sp s hs
      simp only [Op.run, hs, Opts.flag, hc]
      rfl
    intro R n _ s t hs
    have h1 : runWith R n (Prog.when (!allUpper v) (issueIf .caps .warning v sp)) s = .ok () s := by
      unfold Prog.when
      split
      · exact hn v sp s hs.opts
      · rfl
    have h2 : runWith R n (Prog.when (!allUpper w) (issueIf .caps .warning w sp')) t = .ok () t := by
      unfold Prog.when
      split
      · exact hn w sp' t hs.opts'
      · rfl
    rw [h1, h2]
    exact .ok rfl hs

theorem ckw_par' {k : Keyword} (hw : k.isWord = true := by first | rfl | assumption) : PR E (fun a b => vr E a b ∧ E.ok k) (ckw k) (ckw k) := by
  unfold ckw
  refine bind_par cur_par ?_
  rintro ⟨t, sp⟩ ⟨t', sp'⟩ ⟨ht, hsp⟩
  cases ht with
  | same h =>
    dsimp only
    split
    · cases h
    · exact expectedFailure_par
  | ident h hk =>
    refine ite_par Iff.rfl (fun hk' _ => ?_) (fun _ _ => expectedFailure_par)
    exact bind_par (capsWarn_par (hk' ▸ hw) h hsp) (fun _ _ _ => consume_par.imp (fun _ _ h => ⟨h, hk' ▸ hk⟩))
  | single h => exact expectedFailure_par
  | double h => exact expectedFailure_par

theorem ckw_par {k : Keyword} (hw : k.isWord = true := by first | rfl | assumption) : PR E (vr E) (ckw k) (ckw k) := (ckw_par' hw).imp (fun _ _ h => h.1)

theorem ckwsTail_par {sp sp' : Span} {ks : List Keyword} (h : vr E sp sp')
    (hw : ks.all (·.isWord) = true := by first | rfl | assumption) : PR E (vr E) (ckwsTail sp ks) (ckwsTail sp' ks) := by
  induction ks generalizing sp sp' with
  | nil => exact ret_par h
  | cons k ks ih =>
    simp only [List.all_cons, Bool.and_eq_true] at hw
    exact bind_par (ckw_par hw.1) (fun s s' hs => ih (sp_join hs h) hw.2)

theorem ckws_par {k : Keyword} {ks : List Keyword} (hw : k.isWord = true := by first | rfl | assumption)
    (hws : ks.all (·.isWord) = true := by first | rfl | assumption) : PR E (vr E) (ckws k ks) (ckws k ks) :=
  bind_par (ckw_par hw) (fun _ _ h => ckwsTail_par h hws)

theorem skw_par' {k : Keyword} (hw : k.isWord = true := by first | rfl | assumption) : PR E (fun a b => vr E a b ∧ (a.isSome = true → E.ok k)) (skw k) (skw k) := by
  unfold skw
  refine bind_par cur_par ?_
  rintro ⟨t, sp⟩ ⟨t', sp'⟩ ⟨ht, hsp⟩
  cases ht with
  | same h =>
    dsimp only
    split
    · cases h
    · exact pure_par ⟨trivial, by simp⟩
  | ident h hk =>
    refine ite_par Iff.rfl (fun hk' _ => ?_) (fun _ _ => pure_par ⟨trivial, by simp⟩)
    exact bind_par (capsWarn_par (hk' ▸ hw) h hsp) (fun _ _ _ => bind_par consume_par (fun _ _ h => pure_par ⟨h, fun _ => hk' ▸ hk⟩))
  | single h => exact pure_par ⟨trivial, by simp⟩
  | double h => exact pure_par ⟨trivial, by simp⟩

theorem skw_par {k : Keyword} (hw : k.isWord = true := by first | rfl | assumption) : PR E (vr E) (skw k) (skw k) := (skw_par' hw).imp (fun _ _ h => h.1)

theorem ctk_par {t : Token} (h : t.noText = true := by rfl) : PR E (vr E) (ctk t) (ctk t) := by
  unfold ctk
  refine bind_par curT_par (fun u u' hu => ite_par (by rw [tok_eq hu h]) (fun _ _ => consume_par) (fun _ _ => expectedFailure_par))

theorem stk_par {t : Token} (h : t.noText = true := by rfl) : PR E (vr E) (stk t) (stk t) := by
  unfold stk
  refine bind_par curT_par (fun u u' hu => ite_par (by rw [tok_eq hu h]) (fun _ _ => ?_) (fun _ _ => pure_par trivial))
  exact bind_par consume_par (fun _ _ h => pure_par h)

theorem skips_par {t : Token} (h : t.noText = true := by rfl) : PR E (vr E) (skips t) (skips t) :=
  bind_par (stk_par h) (fun _ _ h => pure_par (vr_isSome h).symm)

theorem commaList_par [VRel α] {item item' : Prog α} (hi : PR E (vr E) item item') :
    PR E (listR (vr E)) (commaList item) (commaList item') := sepLoop_par skips_par hi

theorem recList_par [VRel α] {m : String} {e e' : Token → Bool} {item item' : Prog α} (he : EndR E e e')
    (hi : PR E (vr E) item item') : PR E (listR (vr E)) (recList m e item) (recList m e' item') := by
  unfold recList
  refine loop'_par (I := listR (vr E)) (fun x y hxy => ?_) trivial
  refine bind_par (recovered_par he hi) (fun a b hab => bind_par (skips_par (t := .comma)) (fun m m' hmm => pure_par ?_))
  cases hmm
  have := app_vr hxy (toList_vr hab)
  split <;> exact this

theorem manyOpt_par [VRel α] {p q : Prog (Option α)} (h : PR E (vr E) p q) : PR E (listR (vr E)) (manyOpt p) (manyOpt q) := by
  unfold manyOpt
  refine loop'_par (I := listR (vr E)) (fun x y hxy => ?_) trivial
  refine bind_par h (fun a b hab => pure_par ?_)
  cases a <;> cases b
  · exact hxy
  · cases hab
  · cases hab
  · exact app_vr hxy (cons_vr (unsome_vr hab) nil_vr)

theorem isRParen_end : EndR E isRParen isRParen := by
  intro t t' h; simp only [isRParen, tok_eq h (c := .rParen) rfl]
theorem isRParenComma_end : EndR E isRParenComma isRParenComma := by
  intro t t' h; simp only [isRParenComma, tok_eq h (c := .rParen) rfl, tok_eq h (c := .comma) rfl]
theorem isKw_end {k : Keyword} : EndR E (fun t => t.isKw k) (fun t => t.isKw k) := by
  intro t t' h; simp only [tok_isKw h]

/-! ### Identifiers, strings, numbers -/

/-- The reports about an identifier. -/
theorem identNote_par {k : Keyword} {l : Level} {v w : List Char} {sp sp' : Span} {p q : Prog Unit} (hv : E.txt k v w) (h : vr E sp sp')
    (hp : PR E (vr E) p q) :
    PR E (vr E) (if k.reserved then err (.reserved v) sp else if k ≠ .QUOTED_IDENTIFIER then issueIf .unquoted l v sp else p)
      (if k.reserved then err (.reserved w) sp' else if k ≠ .QUOTED_IDENTIFIER then issueIf .unquoted l w sp' else q) := by
  by_cases hr : k.reserved = true
  · rw [if_pos hr, if_pos hr]
    exact errMsg_par (.reserved (E.stxt hv)) h
  · rw [if_neg hr, if_neg hr]
    by_cases hk : k ≠ .QUOTED_IDENTIFIER
    · rw [if_pos hk, if_pos hk]
      exact issueIf_par (E.stxt hv) h
    · rw [if_neg hk, if_neg hk]
      exact hp

theorem tokenToIdent_par {t t' : Token} {sp sp' : Span} (ht : E.tok t t') (h : vr E sp sp') :
    PR E (vr E) (tokenToIdent t sp) (tokenToIdent t' sp') := by
  unfold tokenToIdent
  cases ht with
  | same h =>
    split
    · cases h
    · exact expectedFailure_par
  | ident hv hk =>
    dsimp only
    exact bindV_par (identNote_par hv h (pure_par rfl)) (fun _ _ _ => pure_par (ARel.ident (E.vtxt hv) h))
  | single h => exact expectedFailure_par
  | double h => exact expectedFailure_par

theorem ident_par : PR E (vr E) ident ident := by
  unfold ident
  refine bind_par cur_par ?_
  rintro ⟨t, sp⟩ ⟨t', sp'⟩ ⟨ht, hsp⟩
  have hsp : vr E sp sp' := hsp
  cases ht with
  | same h =>
    dsimp only
    split
    · cases h
    · cases h
    · exact expectedFailure_par
  | ident hv hk =>
    dsimp only
    have := E.vtxt hv
    refine bind_par isPg_par (fun pg pg' hpg => ?_)
    cases hpg
    refine bind_par (identNote_par hv hsp ?_) (fun _ _ _ => ?_)
    · pw
    · pw
  | single h => exact expectedFailure_par
  | double hv =>
    dsimp only
    have := E.vstr hv
    pw

/-- Corresponding values of string tokens. -/
def strR (E : Par) (a b : List Char) : Prop := E.W a b ∧ (E.ok .INTERVAL → a = b)

theorem strVal_par {t t' : Token} (h : E.tok t t') : optR (strR E) t.strVal? t'.strVal? := by
  cases h with
  | same h =>
    unfold Token.strVal?
    split
    · cases h
    · cases h
    · trivial
  | ident h _ => trivial
  | single h => exact ⟨E.wsingle h, fun hi => by rw [E.interval hi h]⟩
  | double h => exact ⟨E.wdouble h, fun hi => by rw [E.interval hi h]⟩

theorem strPair_par : PR E (fun (a b : List Char × Span) => strR E a.1 b.1 ∧ vr E a.2 b.2) strPair strPair := by
  unfold strPair
  refine bind_par cur_par ?_
  rintro ⟨t, sp⟩ ⟨t', sp'⟩ ⟨ht, hsp⟩
  have := strVal_par ht
  dsimp only
  revert this
  cases t.strVal? <;> cases t'.strVal? <;> intro h
  · exact expectedFailure_par
  · cases h
  · cases h
  · refine bind_par next_par (fun _ _ _ => ?_)
    refine loop'_par (I := fun (a b : List Char × Span) => strR E a.1 b.1 ∧ vr E a.2 b.2) ?_ ⟨h, hsp⟩
    rintro ⟨v, s⟩ ⟨v', s'⟩ ⟨hv, hs⟩
    refine bind_par cur_par ?_
    rintro ⟨t, sp⟩ ⟨t', sp'⟩ ⟨ht, hsp⟩
    have := strVal_par ht
    dsimp only
    revert this
    cases t.strVal? <;> cases t'.strVal? <;> intro h
    · exact pure_par ⟨hv, hs⟩
    · cases h
    · cases h
    · refine bind_par next_par (fun _ _ _ => pure_par ?_)
      exact ⟨⟨E.wapp hv.1 h.1, fun hi => by have h1 : v = v' := hv.2 hi; have h2 := h.2 hi; dsimp only; rw [h1, h2]⟩, sp_join hs hsp⟩

theorem string_par : PR E (vr E) string string :=
  bind_par strPair_par (fun _ _ h => pure_par (ARel.sstring h.1.1 h.2))

theorem int_par {max : Nat} : PR E (vr E) (int max) (int max) := by
  unfold int
  refine bind_par cur_par ?_
  rintro ⟨t, sp⟩ ⟨t', sp'⟩ ⟨ht, hsp⟩
  have hsp : vr E sp sp' := hsp
  cases ht with
  | same h =>
    dsimp only
    split
    · pw
    · exact expectedFailure_par
  | ident hv hk => exact expectedFailure_par
  | single h => exact expectedFailure_par
  | double h => exact expectedFailure_par

theorem float_par : PR E (vr E) float float := by
  unfold float
  refine bind_par cur_par ?_
  rintro ⟨t, sp⟩ ⟨t', sp'⟩ ⟨ht, hsp⟩
  have hsp : vr E sp sp' := hsp
  cases ht with
  | same h =>
    dsimp only
    split
    · exact bind_par next_par (fun _ _ _ => pure_par ⟨E.srefl _, hsp⟩)
    · exact expectedFailure_par
  | ident hv hk => exact expectedFailure_par
  | single h => exact expectedFailure_par
  | double h => exact expectedFailure_par

theorem qualifiedName_par : PR E (vr E) qualifiedName qualifiedName := by
  unfold qualifiedName; pw

/-! ### Tables -/

def alikeTable (tbl : List (Keyword × Kind)) : Bool := tbl.all fun p => p.1.isWord && p.2.alike

theorem tableFind_alike {tbl : List (Keyword × Kind)} (h : alikeTable tbl = true) {k : Keyword} {f : Kind}
    (hf : tableFind k tbl = some f) : k.isWord = true ∧ f.alike = true := by
  induction tbl with
  | nil => simp [tableFind] at hf
  | cons p r ih =>
    simp only [alikeTable, List.all_cons, Bool.and_eq_true] at h
    obtain ⟨k', f'⟩ := p
    simp only [tableFind] at hf
    split at hf
    · next e => simp at hf; subst hf e; exact h.1
    · exact ih h.2 hf

theorem kwNode_par {tbl : List (Keyword × Kind)} (h : alikeTable tbl = true := by decide +kernel) :
    PR E (vr E) (kwNode tbl) (kwNode tbl) := by
  unfold kwNode
  refine bind_par curT_par (fun t t' ht => ?_)
  rw [tok_kw ht]
  split
  · next hK => exact bind_par (ckw_par (tableFind_alike h hK).1) (fun _ _ hs => pure_par (ARel.node (tableFind_alike h hK).2 (.cons (.span hs) .nil)))
  · exact pure_par trivial

theorem consNode_par {tbl : List (Keyword × Kind)} (h : alikeTable tbl = true := by decide +kernel) :
    PR E (vr E) (consNode tbl) (consNode tbl) := by
  unfold consNode
  refine bind_par curT_par (fun t t' ht => ?_)
  rw [tok_kw ht]
  split
  · next hK => exact bind_par consume_par (fun _ _ hs => pure_par (ARel.node (tableFind_alike h hK).2 (.cons (.span hs) .nil)))
  · exact pure_par trivial

end SqlParse
