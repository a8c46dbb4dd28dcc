import Verif.Proofs.LexBack
/-! Invalid tokens: the lexer reads `Junk` as one invalid token, and every invalid token is `Junk`. -/
namespace SqlParse

theorem skipComment_none {pos : Nat} {l : List Char} : skipComment pos l = none ↔ ¬ ['*', '/'] <:+: l := by
  constructor
  · intro h hi
    -- the first occurrence
    have : ∀ (l : List Char), ['*', '/'] <:+: l → ∃ b r, l = b ++ '*' :: '/' :: r ∧ ¬ ['*', '/'] <:+: b := by
      intro l
      induction l with
      | nil => intro h; simp at h
      | cons c l ih =>
        intro h
        by_cases hl : ['*', '/'] <:+: l
        · by_cases hp : ['*', '/'] <+: c :: l
          · obtain ⟨r, hr⟩ := hp
            exact ⟨[], r, hr.symm, by simp⟩
          · obtain ⟨b, r, h1, h2⟩ := ih hl
            refine ⟨c :: b, r, by rw [h1]; rfl, fun hc => ?_⟩
            rcases List.infix_cons_iff.1 hc with hc | hc
            · refine hp ?_
              rw [h1]
              exact hc.trans ⟨'*' :: '/' :: r, rfl⟩
            · exact h2 hc
        · rcases List.infix_cons_iff.1 h with hp | hp
          · obtain ⟨r, hr⟩ := hp
            exact ⟨[], r, hr.symm, by simp⟩
          · exact absurd hp hl
    obtain ⟨b, r, rfl, hb⟩ := this l hi
    rw [skipComment_body pos b r hb] at h
    cases h
  · intro h
    cases hc : skipComment pos l with
    | none => rfl
    | some q =>
      obtain ⟨b, h1, -⟩ := skipComment_spec _ _ _ _ hc
      exact absurd ⟨b, q.2, by rw [h1]; simp⟩ h

theorem scanQuote_none {q : Char} (hq : q ≠ '\\') {pos : Nat} {l : List Char} :
    scanQuote q pos l = none ↔ ¬ ∃ b r, l = b ++ q :: r ∧ QuoteBody q b ∧ NotHead (· == q) r := by
  constructor
  · rintro h ⟨b, r, rfl, h1, h2⟩
    rw [scanQuote_body q hq pos b r h1 h2] at h
    cases h
  · intro h
    cases hc : scanQuote q pos l with
    | none => rfl
    | some x =>
      obtain ⟨b, h1, -, -, h2, h3⟩ := scanQuote_spec q hq _ _ _ _ _ hc
      exact absurd ⟨b, _, h1, h2, h3⟩ h

/-- The letters that are there are as many as possible. -/
theorem scanLetters_false {ws : List Char} {pos : Nat} {l : List Char} (h : (scanLetters pos ws l).1 = false) :
    ∃ u, l = u ++ (scanLetters pos ws l).2.2 ∧ (scanLetters pos ws l).2.1 = pos + blen u ∧ upper u <+: ws ∧ upper u ≠ ws ∧
      ∀ c ∈ (scanLetters pos ws l).2.2.head?, ¬ upper (u ++ [c]) <+: ws := by
  induction ws generalizing pos l with
  | nil => simp [scanLetters] at h
  | cons w ws ih =>
    cases l with
    | nil => exact ⟨[], by simp [scanLetters], by simp [scanLetters], by simp [upper], by simp [upper], by simp [scanLetters]⟩
    | cons c cs =>
      simp only [scanLetters] at h ⊢
      split
      · next hc =>
        rw [if_pos hc] at h
        have hc : upChar c = w := by simpa using hc
        obtain ⟨u, h1, h2, h3, h4, h5⟩ := ih h
        refine ⟨c :: u, by rw [List.cons_append, ← h1], by rw [h2, blen_cons]; omega, ?_, ?_, ?_⟩
        · simp only [upper, List.map_cons, hc, List.prefix_cons_inj]; exact h3
        · intro e
          simp only [upper, List.map_cons, List.cons.injEq] at e
          exact h4 e.2
        · intro d hd e
          simp only [upper, List.cons_append, List.map_cons, hc, List.prefix_cons_inj] at e
          exact h5 d hd e
      · next hc =>
        have hc : upChar c ≠ w := by simpa using hc
        refine ⟨[], by simp, by simp, by simp [upper], by simp [upper], fun d hd e => ?_⟩
        simp at hd
        subst hd
        simp only [upper, List.nil_append, List.map_cons, List.map_nil, List.cons_prefix_cons] at e
        exact hc e.1

theorem scanLetters_part {ws u : List Char} {pos : Nat} {rest : List Char} (h : upper u <+: ws) (hu : upper u ≠ ws)
    (hr : ∀ c ∈ rest.head?, ¬ upper (u ++ [c]) <+: ws) : scanLetters pos ws (u ++ rest) = (false, pos + blen u, rest) := by
  induction u generalizing ws pos with
  | nil =>
    cases ws with
    | nil => exact absurd rfl hu
    | cons w ws =>
      cases rest with
      | nil => simp [scanLetters]
      | cons c rest =>
        have := hr c (by simp)
        have hc : upChar c ≠ w := by
          intro e
          exact this (by simp [upper, e])
        simp [scanLetters, hc]
  | cons c u ih =>
    cases ws with
    | nil => simp [upper] at h
    | cons w ws =>
      simp only [upper, List.map_cons, List.cons_prefix_cons] at h
      have := ih (ws := ws) (pos := pos + c.utf8Size) h.2 (fun e => hu (by simp [upper, h.1]; simpa [upper] using e))
        (fun d hd e => hr d hd (by simp only [upper, List.cons_append, List.map_cons, List.cons_prefix_cons, h.1]; exact ⟨trivial, e⟩))
      simp [scanLetters, h.1, this, blen_cons, Nat.add_assoc]

/-- Every invalid token is `Junk`. -/
def JunkStep (start : Nat) (l : List Char) : LexStep → Prop
  | .tok .invalid p r => ∃ w, l = w ++ r ∧ p = start + blen w ∧ Junk w r
  | .text mk _ _ _ _ => ∀ s, mk s ≠ .invalid
  | _ => True

theorem ite_junk {start : Nat} {l : List Char} {p : Prop} [Decidable p] {a b : LexStep} (ha : p → JunkStep start l a) (hb : ¬ p → JunkStep start l b) :
    JunkStep start l (if p then a else b) := by
  split
  · exact ha ‹_›
  · exact hb ‹_›

theorem two_junk {start : Nat} {l : List Char} {pos : Nat} {cs : List Char} {d : Char} {t : Token} {els : LexStep} (ht : t ≠ .invalid)
    (h : JunkStep start l els) :
    JunkStep start l (match cs with
    | e :: es => if e == d then .tok t (pos + e.utf8Size) es else els
    | [] => els) := by
  split
  · refine ite_junk (fun _ => ?_) fun _ => h
    unfold JunkStep
    split
    · next he => cases he; exact absurd rfl ht
    · trivial
    · trivial
  · exact h

theorem lexChar_junk (chk : Bool) (srcLen start : Nat) (c : Char) (cs : List Char) (hlen : srcLen = start + blen (c :: cs)) :
    JunkStep start (c :: cs) (lexChar chk srcLen start c (start + c.utf8Size) cs) := by
  unfold lexChar
  dsimp only
  repeat' (with_reducible apply ite_junk <;> intro _)
  all_goals try trivial
  all_goals try exact two_junk nofun (by first | trivial | exact two_junk nofun trivial)
  all_goals try exact fun _ => nofun
  · rename_i h
    have h : c = '@' := by simpa using h
    subst h
    have e : ('@').utf8Size = 1 := rfl
    split
    · next ds =>
      have key : ∀ k ∈ scopes, ∀ d dd, ds = d :: dd → upChar d = k.head?.getD ' ' → (scanLetters (start + '@'.utf8Size + 1) k ds).1 = false →
          ∃ w, '@' :: '@' :: ds = w ++ (scanLetters (start + '@'.utf8Size + 1) k ds).2.2 ∧ (scanLetters (start + '@'.utf8Size + 1) k ds).2.1 = start + blen w ∧
            Junk w (scanLetters (start + '@'.utf8Size + 1) k ds).2.2 := by
        intro k hk d dd hd hdk hf
        obtain ⟨u, h1, h2, h3, h4, h5⟩ := scanLetters_false hf
        refine ⟨'@' :: '@' :: u, by rw [List.cons_append, List.cons_append, ← h1], by rw [h2]; simp [e]; omega, .atAt _ _ k hk h3 h4 ?_⟩
        have hu : ∃ d', u = d :: d' := by
          cases u with
          | nil =>
            rw [List.nil_append] at h1
            rw [← h1, hd] at h5
            have := h5 d (by simp)
            exfalso
            apply this
            simp [scopes] at hk
            rcases hk with rfl | rfl <;> simp [upper] <;> exact hdk
          | cons x u => rw [hd, List.cons_append] at h1; exact ⟨u, by rw [(List.cons.inj h1).1]⟩
        obtain ⟨d', rfl⟩ := hu
        intro k' hk' x hx hp
        by_cases hkk : k' = k
        · subst hkk; exact h5 x hx hp
        · simp [upper] at hp
          simp [scopes] at hk hk'
          rcases hk with rfl | rfl <;> rcases hk' with rfl | rfl <;> simp at hkk <;> simp at hp hdk <;> rw [hdk] at hp <;> simp at hp
      split
      · next d dd =>
        refine ite_junk (fun h => ?_) fun h => ite_junk (fun h' => ?_) fun h' => ?_
        · by_cases hf : (scanLetters (start + '@'.utf8Size + 1) c!"SESSION" (d :: dd)).1 = true
          · rw [if_pos hf]; trivial
          · rw [if_neg hf]
            exact key c!"SESSION" (by simp [scopes]) d dd rfl (by simpa using h) (by simpa using hf)
        · by_cases hf : (scanLetters (start + '@'.utf8Size + 1) c!"GLOBAL" (d :: dd)).1 = true
          · rw [if_pos hf]; trivial
          · rw [if_neg hf]
            exact key c!"GLOBAL" (by simp [scopes]) d dd rfl (by simpa using h') (by simpa using hf)
        · refine ⟨['@', '@'], rfl, by simp [e], .atAt [] _ c!"SESSION" (by simp [scopes]) (by simp [upper]) (by simp [upper]) ?_⟩
          intro k hk x hx hp
          simp at hx
          subst hx
          simp [scopes] at hk
          rcases hk with rfl | rfl <;> simp [upper] at hp
          · simp [hp] at h
          · simp [hp] at h'
      · exact ⟨['@', '@'], rfl, by simp [e], .atAt [] _ c!"SESSION" (by simp [scopes]) (by simp [upper]) (by simp [upper]) (by simp)⟩
    · trivial
  · rename_i h
    have h : c = '$' := by simpa using h
    subst h
    split
    · next d ds =>
      refine ite_junk (fun _ => trivial) fun h1 => ite_junk (fun _ => ?_) fun h2 => ?_
      · split <;> trivial
      · refine ⟨['$'], rfl, by simp, .dollar _ ?_⟩
        rw [notHead_cons]
        simp only [Bool.not_eq_true] at h1 h2
        simp [h1, h2]
    · exact ⟨['$'], rfl, by simp, .dollar _ (by simp [NotHead])⟩
  · split <;> trivial
  · split <;> trivial
  · rename_i h
    have h : c = '/' := by simpa using h
    subst h
    split
    · next ds =>
      split
      · trivial
      · next hc =>
        exact ⟨'/' :: '*' :: ds, by simp, hlen, .comment _ (skipComment_none.1 hc)⟩
    · trivial
    · trivial
  · split
    · trivial
    · exact fun _ => nofun
  · rename_i h
    have h : c = '`' := by simpa using h
    subst h
    obtain ⟨u, h1, h2, h3, h4⟩ := skipWhile_spec (fun d => isWord d || d == '-') (start + '`'.utf8Size) cs
    split
    · exact fun _ => nofun
    · next hr =>
      refine ⟨'`' :: u, by rw [List.cons_append, ← h1], by rw [h2]; simp; omega, .backQuote _ _ (fun x hx => by simpa using h3 x hx) ?_⟩
      intro x hx
      have := h4 x hx
      simp only [this, Bool.false_or, beq_eq_false_iff_ne]
      rintro rfl
      cases hs : (skipWhile (fun d => isWord d || d == '-') (start + '`'.utf8Size) cs).2 with
      | nil => rw [hs] at hx; cases hx
      | cons y r =>
        rw [hs] at hx
        simp at hx
        subst hx
        exact hr _ hs
  · rename_i h
    have h : c = '\'' := by simpa using h
    subst h
    split
    · exact fun _ => nofun
    · next hc => exact ⟨'\'' :: cs, by simp, hlen, .quote _ _ (.inl rfl) ((scanQuote_none (by decide)).1 hc)⟩
  · rename_i h
    have h : c = '"' := by simpa using h
    subst h
    split
    · exact fun _ => nofun
    · next hc => exact ⟨'"' :: cs, by simp, hlen, .quote _ _ (.inr rfl) ((scanQuote_none (by decide)).1 hc)⟩
  · split <;> exact fun _ => nofun
  · split
    · exact ite_junk (fun _ => fun _ => nofun) fun _ => trivial
    · trivial
  · refine ⟨[c], rfl, by simp, .char c cs ?_⟩
    simp only [Bool.not_eq_true, Bool.or_eq_false_iff, beq_eq_false_iff_ne] at *
    simp_all [starts, isWord, isWordStart]

/-- The lexer reads `Junk` as one invalid token. -/
theorem lexChar_of_junk (chk : Bool) (start : Nat) (c : Char) (w rest : List Char) (h : Junk (c :: w) rest) :
    lexChar chk (start + blen (c :: w ++ rest)) start c (start + c.utf8Size) (w ++ rest) = .tok .invalid (start + blen (c :: w)) rest := by
  generalize hl : c :: w = l at h
  cases h with
  | char _ _ h =>
    cases hl
    simp [starts, isWord] at h
    simp [lexChar, h, isWordStart]
    rintro (rfl | rfl)
    · exact absurd h.1.1.1.2 (by decide)
    · exact absurd h.1.1.2 (by decide)
  | dollar _ h =>
    cases hl
    cases rest with
    | nil => simp [lexChar]
    | cons d r =>
      rw [notHead_cons] at h
      simp only [Bool.or_eq_false_iff] at h
      simp [lexChar, h.1, h.2]
  | atAt u _ k hk h hu hr =>
    cases hl
    have e : ('@').utf8Size = 1 := rfl
    simp only [List.cons_append, lexChar]
    simp only [Char.reduceBEq, Bool.or_self, Bool.false_eq_true, ↓reduceIte]
    have h2 := scanLetters_part (pos := start + '@'.utf8Size + 1) h hu (hr k hk)
    have e2 : start + '@'.utf8Size + 1 + blen u = start + blen ('@' :: '@' :: u) := by simp [e]; omega
    rw [e2] at h2
    cases u with
    | nil =>
      simp only [List.nil_append] at h2 ⊢
      cases rest with
      | nil => simp [e]
      | cons d r =>
        have h3 := hr c!"SESSION" (by simp [scopes]) d (by simp)
        have h4 := hr c!"GLOBAL" (by simp [scopes]) d (by simp)
        simp [upper] at h3 h4
        simp [h3, h4, e]
    | cons d u =>
      simp [scopes] at hk
      rcases hk with rfl | rfl
      · have hd : upChar d = 'S' := by simp [upper] at h; exact h.1
        simp only [List.cons_append] at h2 ⊢
        simp [hd, h2]
      · have hd : upChar d = 'G' := by simp [upper] at h; exact h.1
        simp only [List.cons_append] at h2 ⊢
        simp [hd, h2]
  | comment body h =>
    cases hl
    simp [lexChar, skipComment_none.2 h]
  | backQuote u _ h hr =>
    cases hl
    have hsk := skipWhile_append (fun d => isWord d || d == '-') (start + ('`').utf8Size) w rest (by simpa using h)
      (fun x hx => by have := hr x hx; simp only [Bool.or_eq_false_iff] at this ⊢; exact this.1)
    have h1 : isWordStart '`' = false := by decide
    simp only [lexChar, Char.reduceBEq, Bool.or_self, Bool.false_eq_true, ↓reduceIte, h1, hsk]
    split
    · next ds => have := hr '`' (by simp); simp at this
    · simp; omega
  | quote q body hq h =>
    cases hl
    have h0 : isWordStart '\'' = false := by decide
    have h1 : isWordStart '"' = false := by decide
    rcases hq with rfl | rfl
    · simp [lexChar, h0, (scanQuote_none (by decide)).2 h]
    · simp [lexChar, h1, (scanQuote_none (by decide)).2 h]

theorem junk_cons {w rest : List Char} (h : Junk w rest) : ∃ c w', w = c :: w' := by
  cases h <;> exact ⟨_, _, rfl⟩

theorem nextLoop_junk (chk : Bool) (n : Nat) (pre w rest : List Char) (h : Junk w rest) :
    nextLoop chk (pre ++ (w ++ rest)) (n + 1) (blen pre) (w ++ rest) =
      .ok .invalid ⟨blen pre, blen pre + blen w⟩ ⟨pre ++ (w ++ rest), blen pre + blen w, rest⟩ := by
  obtain ⟨c, w, rfl⟩ := junk_cons h
  refine nextLoop_tok (List.cons_append ..) ?_ rfl
  rw [blen_append]
  exact lexChar_of_junk chk _ c w rest h

/-- Invalid text after blanks and comments is read as one invalid token. -/
theorem nextToken_junk (chk : Bool) (pre u w rest : List Char) (hs : Skipped u (w ++ rest)) (h : Junk w rest) :
    (Lexer.mk (pre ++ (u ++ (w ++ rest))) (blen pre) (u ++ (w ++ rest))).nextToken chk =
      .ok .invalid ⟨blen pre + blen u, blen pre + blen u + blen w⟩
        ⟨pre ++ (u ++ (w ++ rest)), blen pre + blen u + blen w, rest⟩ := by
  simp only [Lexer.nextToken]
  obtain ⟨m, hm, h1⟩ := skipped_steps chk ((u ++ (w ++ rest)).length + 1) pre u (w ++ rest) hs (by simp; omega)
  rw [h1]
  simp only [List.length_append] at hm
  obtain ⟨m, rfl⟩ : ∃ k, m = k + 1 := ⟨m - 1, by omega⟩
  have := nextLoop_junk chk m (pre ++ u) w rest h
  simpa using this

theorem nextToken_reads (chk : Bool) (pre u w rest : List Char) (t : Token) (hs : Skipped u (w ++ rest)) (h : ReadsAs chk t w rest) :
    (Lexer.mk (pre ++ (u ++ (w ++ rest))) (blen pre) (u ++ (w ++ rest))).nextToken chk =
      .ok t ⟨blen pre + blen u, blen pre + blen u + blen w⟩
        ⟨pre ++ (u ++ (w ++ rest)), blen pre + blen u + blen w, rest⟩ := by
  rcases h with h | ⟨rfl, h⟩
  · exact nextToken_fits chk pre u w rest t hs h
  · exact nextToken_junk chk pre u w rest hs h

/-- The lexer, exactly: for every text and every token, invalid ones included. -/
theorem nextToken_reads_iff (chk : Bool) (pre l : List Char) (t : Token) (sp : Span) (lx : Lexer) :
    (Lexer.mk (pre ++ l) (blen pre) l).nextToken chk = .ok t sp lx ↔
      ∃ u w, l = u ++ (w ++ lx.rest) ∧ Skipped u (w ++ lx.rest) ∧ ReadsAs chk t w lx.rest ∧ (t = .eof → lx.rest = []) ∧
        sp = ⟨blen pre + blen u, blen pre + blen u + blen w⟩ ∧ lx.src = pre ++ l ∧ lx.pos = sp.stop := by
  by_cases ht : t = .invalid
  · subst ht
    constructor
    · intro h
      have hs := nextToken_spec chk (Lexer.mk (pre ++ l) (blen pre) l) pre rfl rfl
      rw [h] at hs
      obtain ⟨u, w, g1, g2, g3, g4, g5, g6, g7, g8⟩ := hs
      simp only at g1
      obtain ⟨src, pos, rest⟩ := lx
      obtain ⟨s, e⟩ := sp
      simp only at g1 g2 g3 g4 g5 g6 g7
      subst g1 g3 g4 g5 g6
      refine ⟨u, w, rfl, g2, .inr ⟨rfl, ?_⟩, nofun, rfl, rfl, rfl⟩
      simp only [Lexer.nextToken] at h
      obtain ⟨m, hm, h1⟩ := skipped_steps chk ((u ++ (w ++ rest)).length + 1) pre u (w ++ rest) g2 (by simp; omega)
      rw [h1] at h
      simp only [List.length_append] at hm
      obtain ⟨m, rfl⟩ : ∃ k, m = k + 1 := ⟨m - 1, by omega⟩
      have hw : w ≠ [] := fun hw => by simpa using g8.2 hw
      obtain ⟨c, w, rfl⟩ := List.exists_cons_of_ne_nil hw
      have hj := lexChar_junk chk (blen (pre ++ (u ++ (c :: w ++ rest)))) (blen (pre ++ u)) c (w ++ rest) (by simp; omega)
      have hsp := lexChar_spec chk (blen (pre ++ (u ++ (c :: w ++ rest)))) (blen (pre ++ u)) c (w ++ rest) (by simp; omega)
      simp only [List.cons_append, nextLoop] at h
      simp only [List.cons_append] at hj hsp
      revert h hj hsp
      cases lexChar chk (blen (pre ++ (u ++ (c :: (w ++ rest))))) (blen (pre ++ u)) c (blen (pre ++ u) + c.utf8Size) (w ++ rest) with
      | skip p r =>
        intro hj hsp h
        obtain ⟨v, g3, g4, g5, -⟩ := hsp
        have hpos := blen_pos_of_ne g5
        simp only at h
        have hlen : r.length < m := by
          have := congrArg List.length g3
          simp at this hm
          have := List.length_pos_iff.2 g5
          omega
        rw [g4, ← blen_append, g3, ← List.append_assoc, ← List.append_assoc] at h
        have := nextLoop_start_le hlen h
        simp at this; omega
      | tok t p r =>
        intro hj hsp h
        simp at h
        obtain ⟨rfl, h1, rfl, rfl⟩ := h
        obtain ⟨w', h1, h2, h3⟩ := hj
        have : w' = c :: w := by
          rw [← List.cons_append] at h1
          exact (List.append_cancel_right h1).symm
        rwa [← this]
      | panic m => intro _ _ h; cases h
      | text mk i j p r => 
        intro hj hsp h
        simp only at h
        split at h
        · simp at h; exact absurd h.1 (hj _)
        · cases h
    · rintro ⟨u, w, h1, h2, h3, h4, h5, h6, h7⟩
      obtain ⟨src, pos, rest⟩ := lx
      simp only at h1 h2 h3 h6 h7
      subst h1 h5 h6 h7
      exact nextToken_reads chk pre u w rest _ h2 h3
  · rw [nextToken_iff chk pre l t sp lx ht]
    constructor
    · rintro ⟨u, w, h1, h2, h3, h4⟩
      exact ⟨u, w, h1, h2, .inl h3, h4⟩
    · rintro ⟨u, w, h1, h2, h3, h4⟩
      exact ⟨u, w, h1, h2, h3.resolve_right (fun h => ht h.1), h4⟩

theorem reads_eof {chk : Bool} {w rest : List Char} (h : ReadsAs chk .eof w rest) : w = [] ∧ rest = [] := by
  rcases h with h | h
  · exact h.2.1
  · cases h.1

theorem lexeme_pos {chk : Bool} {t : Token} {w rest : List Char} (ht : t ≠ .eof) (h : Lexeme chk t w rest) : 0 < blen w := by
  refine blen_pos_of_ne ?_
  rintro rfl
  cases t <;> simp [Lexeme, punct, upper] at h ht
  · obtain ⟨rfl, a, b, h, -⟩ := h
    simp at h
  · exact h.2.1 h.1
  · exact h.2.1 h.1

theorem reads_cons {chk : Bool} {t : Token} {w rest : List Char} (h : ReadsAs chk t w rest) (ht : t ≠ .eof) : w ≠ [] := by
  rintro rfl
  rcases h with h | ⟨-, h⟩
  · have := lexeme_pos ht h.2.1; simp at this
  · cases h

end SqlParse
