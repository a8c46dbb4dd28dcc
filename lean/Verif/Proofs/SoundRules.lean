import Verif.Proofs.Sound
/-! Rules for the helper functions of the parser, for the converse direction of the grammar. -/
namespace SqlParse

/-- The token is not the last one, and no `?` or `%s`. -/
def Token.solid (t : Token) : Bool := !t.isLast && !decide (t = .questionMark) && !decide (t = .percentS)

theorem solid_kw {t : Token} {k : Keyword} (h : t.isKw k = true) : t.solid = true := by
  obtain ⟨v, rfl⟩ := isKw_iff h; rfl

theorem solid_str {t : Token} {v : List Char} (h : t.strVal? = some v) : t.solid = true := by
  cases t <;> first | rfl | cases h

theorem solid_isStr {t : Token} (h : t.isStr = true) : t.solid = true := by
  cases t <;> first | rfl | cases h

/-- A table without the entry for tokens that are no words. -/
theorem solid_table {t : Token} {tbl : List (Keyword × Kind)} {K : Kind} (h : tableFind t.kw tbl = some K)
    (ho : tableFind .NOT_A_KEYWORD tbl = none) : t.solid = true := by
  cases t with
  | ident v k => rfl
  | _ =>
    rw [show Token.kw _ = .NOT_A_KEYWORD from rfl, ho] at h
    cases h

theorem kw_of_isKw {t : Token} {k : Keyword} (h : t.isKw k = true) : t.kw = k := by
  obtain ⟨v, rfl⟩ := isKw_iff h; rfl

/-- The entry of a table for a keyword. -/
theorem lookup_kw {t : Token} {k : Keyword} {tbl : List (Keyword × Kind)} {K : Kind} (h : t.isKw k = true) (ht : tbl.lookup k = some K) :
    tbl.lookup t.kw = some K := by rw [kw_of_isKw h]; exact ht

/-- The token is not in a table whose keywords it is not. -/
theorem lookup_noKw {t : Token} {tbl : List (Keyword × Kind)} (ho : okTable tbl = true) (h : ∀ k ∈ tbl.map (·.1), t.isKw k = false) :
    tbl.lookup t.kw = none := by
  cases hl : tbl.lookup t.kw with
  | none => rfl
  | some K =>
    have h1 := (lookup_isKw ho hl).1
    have h2 := h _ (List.mem_map.2 ⟨_, lookup_mem hl, rfl⟩)
    rw [h1] at h2; cases h2

theorem noKw_of_none {ts : List Tk} {tbl : List (Keyword × Kind)} {ks : List Keyword} (h : Next (fun t => tbl.lookup t.kw = none) ts)
    (hk : ks.all (fun k => (tbl.lookup k).isSome) = true) : NoKw ks ts := by
  obtain ⟨t, sp, tl, rfl, h⟩ := h.elim
  intro k hm
  have := List.all_eq_true.1 hk k hm
  cases ht : t.isKw k with
  | false => rfl
  | true => rw [← kw_of_isKw ht, h] at this; cases this

theorem kw_of_not {t : Token} {k : Keyword} (hk : k ≠ .NOT_A_KEYWORD) (h : t.isKw k = false) : t.kw ≠ k := by
  cases t with
  | ident v k' => simpa [Token.isKw, Token.kw] using h
  | _ => exact fun e => hk e.symm

theorem isPlainWord_elim {t : Token} (h : t.isPlainWord = true) : ∃ v k, t = .ident v k ∧ k.reserved = false := by
  cases t with
  | ident v k => exact ⟨v, k, rfl, by simpa [Token.isPlainWord] using h⟩
  | _ => cases h

theorem solid_or {t : Token} {k k' : Keyword} (h : (t.isKw k || t.isKw k') = true) : t.solid = true := by
  rw [Bool.or_eq_true] at h
  exact h.elim solid_kw solid_kw

/-- An optional token: its span. -/
inductive OptT (tok : Token) : List Tk → Option Span → List Tk → Prop where
  | none {r : List Tk} (h : Next (· ≠ tok) r) : OptT tok r none r
  | some {sp : Span} {r : List Tk} : OptT tok ((tok, sp) :: r) (some sp) r

/-- An optional token: is it there? -/
inductive SkT (tok : Token) : List Tk → Bool → List Tk → Prop where
  | no {r : List Tk} (h : Next (· ≠ tok) r) : SkT tok r false r
  | yes {sp : Span} {r : List Tk} : SkT tok ((tok, sp) :: r) true r

/-- Nothing is read. -/
def Kept {α : Type} (ts : List Tk) (p : α → Prop) : α → List Tk → Prop := fun a r => r = ts ∧ p a

section
variable {α β σ : Type} {n : Nat} {c : Env} {ts r tl : List Tk} {t : Token} {sp : Span} {Q : β → List Tk → Prop} {R : α → List Tk → Prop}

/-- The tokens are not empty. -/
theorem d_expose {p : Prog β} (h : ∀ t sp tl, ts = (t, sp) :: tl → D n c p ((t, sp) :: tl) Q) : D n c p ts Q := by
  intro k s hs
  obtain ⟨tl, h1, -⟩ := hs.cur
  have := h _ _ _ h1 k s (by rw [← h1]; exact hs)
  rw [← h1] at this
  exact this

theorem solid_last (ht : t.solid = true) : t.isLast = false := by
  simp [Token.solid] at ht
  exact ht.1.1

theorem next_db {f : Unit → Prog β} (ht : t.solid = true) (h : D n c (f ()) tl Q) : D n c (next >>= f) ((t, sp) :: tl) Q :=
  d_next (solid_last ht) h

/-- A token that is passed by is not an argument. -/
theorem next_dbA {f : Unit → Prog β} (ht : t.solid = true) (h : c.noArg (t, sp) → D n c (f ()) tl Q) : D n c (next >>= f) ((t, sp) :: tl) Q :=
  d_nextA (solid_last ht) fun ha _ => h ha

theorem consume_d (ht : t.solid = true) : D n c consume ((t, sp) :: tl) (fun a r => a = sp ∧ r = tl) :=
  d_consumeA' (solid_last ht) fun _ _ => ⟨rfl, rfl⟩

theorem consume_db {f : Span → Prog β} (ht : t.solid = true) (h : D n c (f sp) tl Q) : D n c (consume >>= f) ((t, sp) :: tl) Q :=
  d_bind (consume_d ht) fun _ _ h' => by obtain ⟨rfl, rfl⟩ := h'; exact h

theorem consume_dbA {f : Span → Prog β} (ht : t.solid = true) (h : c.noArg (t, sp) → D n c (f sp) tl Q) : D n c (consume >>= f) ((t, sp) :: tl) Q :=
  d_consumeA (solid_last ht) fun ha _ => h ha

theorem consume_dbD {f : Span → Prog β} (ht : t.solid = true) (h : c.data sp = none → D n c (f sp) tl Q) : D n c (consume >>= f) ((t, sp) :: tl) Q :=
  d_consumeA (solid_last ht) fun _ hd => h hd

theorem d_ite {b : Prop} [Decidable b] {p q : Prog β} (h1 : b → D n c p ts Q) (h2 : ¬ b → D n c q ts Q) :
    D n c (if b then p else q) ts Q := by
  split
  · next h => exact h1 h
  · next h => exact h2 h

/-- A conditional whose branches have the same specification. -/
theorem d_tryP_bind {p : Prog α} {f : Option α → Prog β} (h : D n c p ts R) (hf : ∀ a r, R a r → D n c (f (some a)) r Q) :
    D n c (.tryP p >>= f) ts Q := d_seq (d_tryP' (h.mono hf))

/-- `if b { something that reports an issue }` -/
theorem d_whenNo {b : Bool} {p : Prog Unit} {g : Unit → Prog β} (hp : ∀ f : Unit → Prog β, D n c (p >>= f) ts Q)
    (h : b = false → D n c (g ()) ts Q) : D n c (Prog.when b p >>= g) ts Q := by
  cases b with
  | true => exact hp g
  | false => exact d_seq (d_ret (h rfl))

theorem spanOf_db [ToF α] {a : α} {f : Span → Prog β} (h : ∀ s, (toF a).spanRes = .some s → D n c (f s) ts Q) :
    D n c (spanOf a >>= f) ts Q := by
  unfold spanOf
  split
  · next s hs => exact d_seq (d_ret (h s hs))
  · exact d_panic_bind
  · exact d_panic_bind

theorem spanOfNode_db [ToF α] {a : α} {f : Span → Prog β} (h : ∀ s, (toF a).spanRes = .some s → D n c (f s) ts Q) :
    D n c (spanOf a >>= f) ts Q := spanOf_db h

theorem orExpected_db {o : Option α} {m : String} {f : α → Prog β} (h : ∀ a, o = some a → D n c (f a) ts Q) :
    D n c (orExpected o m >>= f) ts Q := by
  cases o with
  | none => exact d_expectedFailure_bind
  | some a => exact d_seq (d_ret (h a rfl))

/-! ### Keywords and tokens -/

theorem ckw_db {k : Keyword} {f : Span → Prog β} (h : ∀ t sp tl, ts = (t, sp) :: tl → t.isKw k = true → D n c (f sp) tl Q) :
    D n c (ckw k >>= f) ts Q := by
  refine d_assoc (d_cur fun t sp tl he => ?_)
  subst he
  show D n c ((match t with
    | .ident v k' => if k' = k then do capsWarn v sp; consume else expectedFailure (.kw k)
    | _ => expectedFailure (.kw k)) >>= f) _ _
  split
  · split
    · next hk =>
      refine d_assoc (d_capsWarn (consume_db rfl ?_))
      exact h _ _ _ rfl (by simp [Token.isKw, hk])
    · exact d_expectedFailure_bind
  · exact d_expectedFailure_bind

theorem d_tail {p : Prog β} (h : D n c (p >>= Prog.ret) ts Q) : D n c p ts Q := by
  intro k s hs
  have := h k s hs
  have e : (p >>= Prog.ret).run n s = p.run n s := by
    show runWith _ _ (.bind p .ret) s = runWith _ _ p s
    simp only [runWith]
    cases runWith (runFn n) n p s <;> rfl
  rw [e] at this; exact this

theorem ckw_d {k : Keyword} : D n c (ckw k) ts (Kws [k] ts) :=
  d_tail (ckw_db fun t sp tl he hk => d_ret (by subst he; exact .one hk))

theorem ckwsTail_d {ks : List Keyword} {s0 : Span} {k : Keyword} :
    D n c (ckwsTail s0 (k :: ks)) ts (fun a r => ∃ s, Kws (k :: ks) ts s r ∧ a = joinSpan s0 s) := by
  induction ks generalizing s0 k ts with
  | nil =>
    refine ckw_db fun t sp tl he hk => d_ret ?_
    subst he
    exact ⟨sp, .one hk, joinSpan_comm _ _⟩
  | cons k' ks ih =>
    refine ckw_db fun t sp tl he hk => ih.mono ?_
    rintro a r ⟨s, h1, h2⟩
    subst he
    exact ⟨_, .cons hk h1, by rw [h2, joinSpan_comm sp s0, joinSpan_assoc]⟩

theorem ckws_d {k : Keyword} {ks : List Keyword} : D n c (ckws k ks) ts (Kws (k :: ks) ts) := by
  refine ckw_db fun t sp tl he hk => ?_
  subst he
  cases ks with
  | nil => exact d_ret (.one hk)
  | cons k' ks =>
    refine ckwsTail_d.mono ?_
    rintro a r ⟨s, h1, rfl⟩
    exact .cons hk h1

theorem skw_d {k : Keyword} : D n c (skw k) ts (OptK k ts) := by
  refine d_cur fun t sp tl he => ?_
  subst he
  show D n c (match t with
    | .ident v k' => if k' = k then do capsWarn v sp; let s ← consume; return some s else return none
    | _ => return none) _ _
  split
  · split
    · next hk => exact d_capsWarn (consume_db rfl (d_pure (.some (by simp [Token.isKw, hk]))))
    · next hk => exact d_pure (.none (by simpa [Next, Token.isKw] using hk))
  · next hne =>
    refine d_pure (.none ?_)
    show t.isKw k = false
    cases t <;> first | rfl | exact absurd rfl (hne _ _)

theorem ctk_db {tok : Token} {f : Span → Prog β} (htok : tok.solid = true) (h : ∀ sp tl, ts = (tok, sp) :: tl → D n c (f sp) tl Q) :
    D n c (ctk tok >>= f) ts Q := by
  refine d_assoc (d_curT fun t sp tl he => ?_)
  subst he
  split
  · next ht => subst ht; exact consume_db htok (h _ _ rfl)
  · exact d_expectedFailure_bind

theorem ctk_d {tok : Token} (htok : tok.solid = true) : D n c (ctk tok) ts (fun a r => ts = (tok, a) :: r) :=
  d_tail (ctk_db htok fun _ _ he => d_ret he)

theorem ctk_dbD {tok : Token} {f : Span → Prog β} (htok : tok.solid = true)
    (h : ∀ sp tl, ts = (tok, sp) :: tl → c.data sp = none → D n c (f sp) tl Q) : D n c (ctk tok >>= f) ts Q := by
  refine d_assoc (d_curT fun t sp tl he => ?_)
  subst he
  split
  · next ht => subst ht; exact consume_dbD htok (h _ _ rfl)
  · exact d_expectedFailure_bind

theorem ctk_dD {tok : Token} (htok : tok.solid = true) : D n c (ctk tok) ts (fun a r => ts = (tok, a) :: r ∧ c.data a = none) :=
  d_tail (ctk_dbD htok fun _ _ he hd => d_ret ⟨he, hd⟩)

theorem skips_dD {tok : Token} (htok : tok.solid = true) :
    D n c (skips tok) ts (fun b r => b = false ∧ Next (· ≠ tok) ts ∧ r = ts ∨ b = true ∧ ∃ sp, ts = (tok, sp) :: r ∧ c.data sp = none) := by
  refine d_assoc (d_curT fun t sp tl he => ?_)
  subst he
  split
  · next ht => subst ht; exact d_assoc (consume_dbD htok fun hd => d_seq (d_pure (d_pure (.inr ⟨rfl, sp, rfl, hd⟩))))
  · next ht => exact d_seq (d_pure (d_pure (.inl ⟨rfl, ht, rfl⟩)))

theorem stk_d {tok : Token} (htok : tok.solid = true) : D n c (stk tok) ts (OptT tok ts) := by
  refine d_curT fun t sp tl he => ?_
  subst he
  split
  · next ht => subst ht; exact consume_db htok (d_pure .some)
  · next ht => exact d_pure (.none ht)

theorem skips_d {tok : Token} (htok : tok.solid = true) : D n c (skips tok) ts (SkT tok ts) :=
  d_bind (stk_d htok) fun o r h => by
    cases h with
    | none h => exact d_pure (.no h)
    | some => exact d_pure .yes

theorem ident_d : D n c ident ts (Idn c ts) := by
  refine d_cur fun t sp tl he => ?_
  subst he
  simp only
  split
  · next v k =>
    refine d_isPg ?_
    cases hr : k.reserved with
    | true => exact d_seq d_err'
    | false =>
      simp only [Bool.false_eq_true, if_false]
      split
      · next hq => exact d_issueIf (next_dbA rfl fun hm => d_pure (.word hr (fun h => absurd h hq) hm))
      · refine d_whenErr fun hd => next_dbA rfl fun hm => d_pure (.word hr (fun _ => ?_) hm)
        simpa using hd
  · refine d_isPg (d_ite (fun hd => ?_) fun _ => d_expectedFailure)
    exact next_db rfl (d_pure (.quoted (by simpa using hd)))
  · exact d_expectedFailure

/-- The whole of a dotted name from its first part. -/
theorem dotted_app {i : Ast} {d : Span} {p : List (Ast × Span)} {j : Ast}
    (h : Idn c ts i ((.period, d) :: r)) (hs : Dotted c r p j tl) : Dotted c ts ((i, d) :: p) j tl := .dot h hs

theorem qualifiedName_d : D n c qualifiedName ts (QName c ts) := by
  refine d_bind ident_d fun i r hi => ?_
  refine d_loop (I := fun (x : List (Ast × Span) × Ast) r => ∃ ts', Idn c ts' x.2 r ∧ ∀ p j r', Dotted c ts' p j r' → Dotted c ts (x.1 ++ p) j r')
    ⟨ts, hi, fun _ _ _ h => h⟩ ?_
  rintro ⟨l, a⟩ r ⟨ts', h1, h2⟩
  refine d_bind (stk_d rfl) fun o r' ho => ?_
  cases ho with
  | none h =>
    refine d_pure ?_
    have := h2 [] a _ (.last h1 h)
    rw [List.append_nil] at this
    exact .mk this
  | @some d r' =>
    refine d_bind ident_d fun j r'' hj => d_pure ⟨r', hj, ?_⟩
    intro p j' r3 h3
    have := h2 ((a, d) :: p) j' r3 (.dot h1 h3)
    simpa using this

theorem strPair_d : D n c strPair ts (Strs ts) := by
  refine d_cur fun t sp tl he => ?_
  subst he
  simp only
  split
  · next v hv =>
    refine next_db (solid_str hv) ?_
    refine d_loop (I := fun ab r => (Next (fun t => stringText t = none) r → Strs ((t, sp) :: tl) ab r) ∧
      ∀ v' sp' r', Strs r (v', sp') r' → Strs ((t, sp) :: tl) (ab.1 ++ v', joinSpan ab.2 sp') r') ⟨fun h => .one (by rw [stringText_eq]; exact hv) h, fun _ _ _ h => .cons (by rw [stringText_eq]; exact hv) h⟩ ?_
    rintro ⟨w, s⟩ r ⟨h1, h2⟩
    refine d_cur fun t' sp' tl' he => ?_
    subst he
    simp only
    split
    · next v' hv' =>
      rw [← stringText_eq] at hv'
      refine next_db (solid_str (by rw [← stringText_eq]; exact hv')) (d_pure ⟨fun h => h2 _ _ _ (.one hv' h), ?_⟩)
      intro v2 s2 r2 h3
      have := h2 _ _ _ (.cons hv' h3)
      rw [← List.append_assoc, ← joinSpan_assoc] at this
      exact this
    · next hv' => exact d_pure (h1 (by show stringText t' = none; rw [stringText_eq]; exact hv'))
  · exact d_expectedFailure

theorem string_d : D n c string ts (Str ts) := d_bind strPair_d fun _ _ h => d_pure (.mk h)

theorem int_d {max : Nat} : D n c (int max) ts (Num max ts) := by
  refine d_cur fun t sp tl he => ?_
  subst he
  simp only
  split
  · next v =>
    refine d_whenErr fun hv => next_db rfl (d_pure ?_)
    have hv : ¬ max < decVal v := by simpa using hv
    rw [if_neg hv]
    exact .mk (by rw [numberOf_eq]; omega)
  · exact d_expectedFailure

theorem float_d : D n c float ts (fun a r => ts = (.float a.1, a.2) :: r) := by
  refine d_cur fun t sp tl he => ?_
  subst he
  simp only
  split
  · exact next_db rfl (d_pure rfl)
  · exact d_expectedFailure

/-- A keyword of a table. -/
inductive KwN (tbl : List (Keyword × Kind)) : List Tk → Option Ast → List Tk → Prop where
  | none {r : List Tk} (h : Next (fun t => tbl.lookup t.kw = none) r) : KwN tbl r none r
  | some {t : Token} {sp : Span} {K : Kind} {r : List Tk} (h : tbl.lookup t.kw = some K) :
      KwN tbl ((t, sp) :: r) (some (.node K [.span sp])) r

theorem kwNode_d {tbl : List (Keyword × Kind)} : D n c (kwNode tbl) ts (KwN tbl ts) := by
  refine d_curT fun t sp tl he => ?_
  subst he
  split
  · next K hK =>
    refine ckw_db fun t' sp' tl' he hk => d_pure ?_
    cases he
    exact .some (by rw [← tableFind_lookup]; exact hK)
  · next hK => exact d_pure (.none (by show List.lookup t.kw tbl = none; rw [← tableFind_lookup]; exact hK))

theorem consNode_d {tbl : List (Keyword × Kind)} (ho : tableFind .NOT_A_KEYWORD tbl = none) : D n c (consNode tbl) ts (KwN tbl ts) := by
  refine d_curT fun t sp tl he => ?_
  subst he
  split
  · next K hK =>
    refine consume_db (solid_table hK ho) (d_pure ?_)
    exact .some (by rw [← tableFind_lookup]; exact hK)
  · next hK => exact d_pure (.none (by show List.lookup t.kw tbl = none; rw [← tableFind_lookup]; exact hK))

/-- Any number of phrases. -/
inductive Many {α : Type} (R : List Tk → Option α → List Tk → Prop) : List Tk → List α → List Tk → Prop where
  | nil {ts r : List Tk} (h : R ts none r) : Many R ts [] r
  | cons {ts r r' : List Tk} {a : α} {l : List α} (h : R ts (some a) r) (hr : Many R r l r') : Many R ts (a :: l) r'

theorem manyOpt_d {p : Prog (Option α)} {R : List Tk → Option α → List Tk → Prop} (h : ∀ ts, D n c p ts (R ts)) :
    D n c (manyOpt p) ts (Many R ts) := by
  refine d_loop (I := fun acc r => ∀ l r', Many R r l r' → Many R ts (acc ++ l) r') (fun _ _ h => h) ?_
  intro acc ts' hI
  refine d_bind (h ts') fun o r ho => d_pure ?_
  cases o with
  | none => simpa using hI [] r (.nil ho)
  | some a =>
    intro l r' hl
    simpa using hI _ _ (.cons ho hl)

theorem many_flags {tbl : List (Keyword × Kind)} {l : List Ast} (h : Many (KwN tbl) ts l r) : Flags tbl ts l r := by
  induction h with
  | nil h => cases h; exact .nil (by assumption)
  | cons h _ ih => cases h; exact .cons (by assumption) ih

theorem flags_d {tbl : List (Keyword × Kind)} : D n c (manyOpt (kwNode tbl)) ts (Flags tbl ts) :=
  (manyOpt_d fun _ => kwNode_d).mono fun _ _ => many_flags

/-- Lists built from the left. -/
theorem commaList_d {item : Prog α} {R : List Tk → α → List Tk → Prop} (h : ∀ ts, D n c item ts (R ts)) :
    D n c (commaList item) ts (CommaL R ts) := by
  refine d_loop (I := fun acc r => ∀ l r', CommaL R r l r' → CommaL R ts (acc ++ l) r') (fun _ _ h => h) ?_
  intro acc ts' hI
  refine d_bind (h ts') fun a r ha => d_bind (skips_d rfl) fun b r' hb => d_pure ?_
  cases hb with
  | no hn => exact hI _ _ (.one ha hn)
  | yes =>
    intro l r2 hl
    simpa using hI _ _ (.cons ha hl)

/-- No issue is reported when the phrase is followed by an end token. -/
theorem recoveredEnd_d {m : String} {e : Token → Bool} :
    D n c (recoveredEnd m e true) ts (fun _ r => r = ts ∧ Next (fun t => e t = true) ts) := by
  unfold recoveredEnd
  refine d_seq ?_
  unfold Prog.when
  refine d_ret ?_
  refine d_curT fun t sp tl he => ?_
  subst he
  cases h : e t with
  | true => exact d_ret ⟨rfl, h⟩
  | false => exact d_expectedError

theorem recovered_d {m : String} {e : Token → Bool} {p : Prog α} {R : α → List Tk → Prop} (h : D n c p ts R) :
    D n c (recovered m e p) ts (fun o r => ∃ a, o = some a ∧ R a r ∧ Next (fun t => e t = true) r) := by
  refine d_tryP_bind h fun a r ha => ?_
  refine d_bind recoveredEnd_d fun _ r' hr => ?_
  obtain ⟨rfl, hn⟩ := hr
  exact d_pure ⟨a, rfl, ha, hn⟩

theorem recList_d {m : String} {e : Token → Bool} {item : Prog α} {R : List Tk → α → List Tk → Prop}
    (h : ∀ ts, D n c item ts (R ts)) : D n c (recList m e item) ts (CommaL R ts) := by
  refine d_loop (I := fun acc r => ∀ l r', CommaL R r l r' → CommaL R ts (acc ++ l) r') (fun _ _ h => h) ?_
  intro acc ts' hI
  refine d_bind (recovered_d (h ts')) fun o r ho => ?_
  obtain ⟨a, rfl, ha, -⟩ := ho
  refine d_bind (skips_d rfl) fun b r' hb => d_pure ?_
  cases hb with
  | no hn => exact hI _ _ (.one ha hn)
  | yes =>
    intro l r2 hl
    simpa using hI _ _ (.cons ha hl)

/-- The captured variables of a closure that succeeds without issues. -/
theorem recoveredAcc_d {m : String} {e : Token → Bool} {p : Prog (Bool × σ)} {R : σ → List Tk → Prop}
    (h : D n c p ts (fun x r => x.1 = true ∧ R x.2 r)) :
    D n c (recoveredAcc m e p) ts (fun x r => R x r ∧ Next (fun t => e t = true) r) := by
  refine d_bind h fun x r hx => ?_
  rw [hx.1]
  refine d_bind recoveredEnd_d fun _ r' hr => ?_
  obtain ⟨rfl, hn⟩ := hr
  exact d_pure ⟨hx.2, hn⟩

theorem accLoop_d {body : σ → Prog (Step σ σ)} {x : σ} {I : σ → List Tk → Prop} {R : σ → List Tk → Prop} (h0 : I x ts)
    (h : ∀ x ts, I x ts → D n c (body x) ts fun st r => match st with | .cont y => I y r | .done b => R b r) :
    D n c (accLoop body x) ts (fun x r => x.1 = true ∧ R x.2 r) := by
  refine d_loop (I := I) h0 fun x ts hI => ?_
  refine d_tryP_bind (h x ts hI) fun st r hst => d_pure ?_
  cases st with
  | cont y => exact hst
  | done y => exact ⟨rfl, hst⟩

/-- Items in parentheses with recovery at `)`. -/
theorem parenItems_d {m : String} {e : Token → Bool} {item : Prog α} {R : List Tk → α → List Tk → Prop} (h : ∀ ts, D n c item ts (R ts)) :
    D n c (recoveredAcc m e (accLoop (fun acc => do
    let i ← item
    let m ← SqlParse.skips .comma
    return (if m then .cont (acc ++ [i]) else .done (acc ++ [i]))) [])) ts (fun l r => CommaL R ts l r ∧ Next (fun t => e t = true) r) := by
  refine recoveredAcc_d (accLoop_d (I := fun acc r => ∀ l r', CommaL R r l r' → CommaL R ts (acc ++ l) r') (fun _ _ h => h) ?_)
  intro acc ts' hI
  refine d_bind (h ts') fun a r ha => d_bind (skips_d rfl) fun b r' hb => d_pure ?_
  cases hb with
  | no hn => exact hI _ _ (.one ha hn)
  | yes =>
    intro l r2 hl
    simpa using hI _ _ (.cons ha hl)

/-- An optional phrase after a keyword. -/
theorem optKw_d {k : Keyword} {f : Span → Prog α} {R : Span → List Tk → α → List Tk → Prop} (h : ∀ sp ts, D n c (f sp) ts (R sp ts)) :
    D n c (skw k >>= fun s => optMap s f) ts (OptKw k R ts) := by
  refine d_bind skw_d fun o r ho => ?_
  cases ho with
  | none h => exact d_ret (.none h)
  | some hk => exact d_bind (h _ _) fun a r ha => d_ret (.some hk ha)

/-- An optional phrase after a keyword, with what follows it. -/
theorem optKw_db {k : Keyword} {f : Span → Prog α} {g : Option α → Prog β} {R : Span → List Tk → α → List Tk → Prop}
    (h : ∀ sp ts, D n c (f sp) ts (R sp ts)) (hg : ∀ o r, OptKw k R ts o r → D n c (g o) r Q) :
    D n c (skw k >>= fun s => optMap s f >>= g) ts Q := by
  refine d_bind skw_d fun o r ho => ?_
  cases ho with
  | none h => exact d_seq (d_ret (hg _ _ (.none h)))
  | some hk => exact d_seq (d_bind (h _ _) fun a r ha => d_ret (hg _ _ (.some hk ha)))

theorem d_map {γ : Type} {p : Prog α} {g : α → γ} {f : γ → Prog β} (h : D n c (p >>= fun a => f (g a)) ts Q) :
    D n c ((p >>= fun a => Prog.ret (g a)) >>= f) ts Q := by
  intro k s hs
  have := h k s hs
  have e : ((p >>= fun a => Prog.ret (g a)) >>= f).run n s = (p >>= fun a => f (g a)).run n s := by
    show runWith _ _ (.bind (.bind p _) f) s = runWith _ _ (.bind p _) s
    simp only [runWith]
    cases runWith (runFn n) n p s <;> rfl
  rw [e]; exact this

theorem optIf_db {b : Bool} {p : Prog α} {f : Option α → Prog β} (h1 : b = true → D n c (p >>= fun a => f (some a)) ts Q)
    (h2 : b = false → D n c (f none) ts Q) : D n c (optIf b p >>= f) ts Q := by
  cases b with
  | false => exact d_seq (d_ret (h2 rfl))
  | true => exact d_map (h1 rfl)

theorem optMap_none_db {g : σ → Prog α} {f : Option α → Prog β} (h : D n c (f none) ts Q) : D n c (optMap none g >>= f) ts Q := d_seq (d_ret h)

theorem optMap_some_db {g : σ → Prog α} {f : Option α → Prog β} {a : σ} (h : D n c (g a >>= fun a => f (some a)) ts Q) :
    D n c (optMap (some a) g >>= f) ts Q := d_map h

end
end SqlParse
