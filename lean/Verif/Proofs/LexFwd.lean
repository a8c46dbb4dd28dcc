import Verif.Spec.Written
import Verif.Theorems.Lexical
/-! The lexer reads back every text written token by token. -/
namespace SqlParse

theorem skipLine_body (pos : Nat) (body : List Char) (e : Char) (rest : List Char)
    (hb : ∀ c ∈ body, c ≠ '\n' ∧ c ≠ '\r') (he : e = '\n' ∨ e = '\r') :
    skipLine pos (body ++ e :: rest) = (pos + blen body + e.utf8Size, rest) := by
  induction body generalizing pos with
  | nil => rcases he with rfl | rfl <;> simp [skipLine]
  | cons c b ih =>
    simp at hb
    simp [skipLine, hb.1.1, hb.1.2, ih _ hb.2]; omega

theorem skipLine_last (pos : Nat) (body : List Char) (hb : ∀ c ∈ body, c ≠ '\n' ∧ c ≠ '\r') :
    skipLine pos body = (pos + blen body, []) := by
  induction body generalizing pos with
  | nil => simp [skipLine]
  | cons c b ih =>
    simp at hb
    simp [skipLine, hb.1.1, hb.1.2, ih _ hb.2]; omega

theorem skipComment_body (pos : Nat) (body rest : List Char) (hb : ¬ ['*', '/'] <:+: body) :
    skipComment pos (body ++ '*' :: '/' :: rest) = some (pos + blen body + 2, rest) := by
  induction body generalizing pos with
  | nil => simp [skipComment]; rfl
  | cons c b ih =>
    have hb' : ¬ ['*', '/'] <:+: b := fun h => hb (List.infix_cons_iff.2 (.inr h))
    have := ih (pos + c.utf8Size) hb'
    by_cases hc : c = '*'
    · subst hc
      cases b with
      | nil =>
        simp [skipComment]; rfl
      | cons d b =>
        have hd : d ≠ '/' := by
          rintro rfl
          exact hb ⟨[], b, rfl⟩
        simp only [List.cons_append] at this ⊢
        unfold skipComment
        simp [hd, this]; omega
    · rw [List.cons_append]
      unfold skipComment
      simp [hc, this]; omega

theorem scanQuote_body (q : Char) (hq : q ≠ '\\') (pos : Nat) (body rest : List Char) (hb : QuoteBody q body)
    (hr : NotHead (· == q) rest) :
    scanQuote q pos (body ++ q :: rest) = some (pos + blen body, pos + blen body + q.utf8Size, rest) := by
  induction hb generalizing pos with
  | nil =>
    cases rest with
    | nil => simp [scanQuote, hq]
    | cons d r =>
      simp [NotHead] at hr
      simp [scanQuote, hq, hr]
  | plain c l h1 h2 h ih =>
    rw [List.cons_append]
    unfold scanQuote
    simp [h1, h2, ih]; omega
  | escape d l h ih => simp [scanQuote, ih]; omega
  | double l h ih => simp [scanQuote, hq, ih]; omega

theorem scanLetters_all (ws w rest : List Char) (pos : Nat) (h : upper w = ws) :
    scanLetters pos ws (w ++ rest) = (true, pos + blen w, rest) := by
  induction w generalizing ws pos with
  | nil => simp [upper] at h; subst h; cases rest <;> simp [scanLetters]
  | cons c w ih =>
    cases ws with
    | nil => simp [upper] at h
    | cons x ws =>
      simp [upper] at h
      simp [scanLetters, h.1, ih ws (pos + c.utf8Size) (by simpa [upper] using h.2)]; omega

theorem scanDollar_all (chk : Bool) (v pos : Nat) (p ds rest : List Char) (hd : ∀ c ∈ ds, isDig c = true)
    (hr : NotHead isDig rest) (hv : v = if chk then numberOf p else numberOf p % usizeMod)
    (ho : chk = true → numberOf (p ++ ds) < usizeMod) :
    scanDollar chk v pos (ds ++ rest) =
      some (if chk then numberOf (p ++ ds) else numberOf (p ++ ds) % usizeMod, pos + blen ds, rest) := by
  induction ds generalizing p v pos with
  | nil =>
    cases rest with
    | nil => simp [scanDollar, hv]
    | cons c r =>
      simp [NotHead] at hr
      simp [scanDollar, hr, hv]
  | cons c ds ih =>
    simp at hd
    have hmono : ∀ (a b : List Char), numberOf a ≤ numberOf (a ++ b) := by
      intro a b
      induction b generalizing a with
      | nil => simp
      | cons x b ih =>
        have h1 := ih (a ++ [x])
        rw [decVal_append] at h1
        simp at h1
        omega
    have hsplit : p ++ c :: ds = (p ++ [c]) ++ ds := by simp
    simp only [List.cons_append, scanDollar, hd.1, if_true]
    cases chk with
    | true =>
      simp at hv ho
      subst hv
      have h1 := hmono (p ++ [c]) ds
      rw [← hsplit] at h1
      have h2 : numberOf p * 10 + digVal c < usizeMod := by rw [← decVal_append]; omega
      rw [if_pos h2, ih _ _ (p ++ [c]) hd.2 (by simp [decVal_append]) (by rw [← hsplit]; intro; exact ho)]
      simp [← hsplit]; omega
    | false =>
      simp at hv
      subst hv
      have hm : (numberOf p % usizeMod * 10 + digVal c) % usizeMod = (numberOf p * 10 + digVal c) % usizeMod := by
        simp [usizeMod]; omega
      split
      · next h2 =>
        rw [ih _ _ (p ++ [c]) hd.2 (by simp [decVal_append]; rw [← hm, Nat.mod_eq_of_lt h2]) (by simp)]
        simp [← hsplit]; omega
      · simp
        rw [ih _ _ (p ++ [c]) hd.2 (by simp [decVal_append]; exact hm) (by simp)]
        simp [← hsplit]; omega

theorem lexChar_dig (chk : Bool) (n start : Nat) (c : Char) (pos : Nat) (cs : List Char) (hc : isDig c = true) :
    lexChar chk n start c pos cs =
      match (skipWhile isDig pos cs).2 with
      | '.' :: ds => .text .float start (skipWhile isDig ((skipWhile isDig pos cs).1 + 1) ds).1
          (skipWhile isDig ((skipWhile isDig pos cs).1 + 1) ds).1 (skipWhile isDig ((skipWhile isDig pos cs).1 + 1) ds).2
      | _ => .text .integer start (skipWhile isDig pos cs).1 (skipWhile isDig pos cs).1 (skipWhile isDig pos cs).2 := by
  have hne : ∀ d, isDig d = false → (c == d) = false := by
    intro d hd
    simp only [beq_eq_false_iff_ne]
    rintro rfl; simp [hd] at hc
  have hws : isWordStart c = false := by
    cases h : isWordStart c with
    | false => rfl
    | true => rw [isWordStart_not_dig h] at hc; exact absurd hc (by simp)
  unfold lexChar
  simp only [hne ' ' rfl, hne '\t' rfl, hne '\n' rfl, hne '\r' rfl, hne '?' rfl, hne ';' rfl, hne '\\' rfl,
    hne '[' rfl, hne ']' rfl, hne '&' rfl, hne '^' rfl, hne '{' rfl, hne '}' rfl, hne '(' rfl, hne ')' rfl,
    hne ',' rfl, hne '+' rfl, hne '*' rfl, hne '%' rfl, hne '#' rfl, hne '@' rfl, hne '~' rfl, hne ':' rfl,
    hne '$' rfl, hne '=' rfl, hne '!' rfl, hne '<' rfl, hne '>' rfl, hne '|' rfl, hne '-' rfl, hne '/' rfl,
    hne 'x' rfl, hne 'X' rfl, hne '`' rfl, hne '\'' rfl, hne '"' rfl, hws,
    Bool.false_or, Bool.false_eq_true, if_false, hc, if_true]
  rfl

theorem notHead_cons {p : Char → Bool} {c : Char} {l : List Char} : NotHead p (c :: l) ↔ p c = false := by
  simp [NotHead]

theorem nextLoop_text {chk : Bool} {src : List Char} {n start : Nat} {c : Char} {cs l : List Char}
    {mk : List Char → Token} {a b pos p : Nat} {rest s : List Char} {t : Token} (hl : l = c :: cs)
    (h : lexChar chk (blen src) start c (start + c.utf8Size) cs = .text mk a b pos rest)
    (hs : slice src a b = some s) (ht : mk s = t) (hp : pos = p) :
    nextLoop chk src (n + 1) start l = .ok t ⟨start, p⟩ ⟨src, p, rest⟩ := by
  subst hl ht hp
  simp [nextLoop, h, hs]

theorem nextLoop_tok {chk : Bool} {src : List Char} {n start : Nat} {c : Char} {cs l : List Char}
    {pos p : Nat} {rest : List Char} {t : Token} (hl : l = c :: cs)
    (h : lexChar chk (blen src) start c (start + c.utf8Size) cs = .tok t pos rest) (hp : pos = p) :
    nextLoop chk src (n + 1) start l = .ok t ⟨start, p⟩ ⟨src, p, rest⟩ := by
  subst hl hp
  simp [nextLoop, h]

theorem upChar_at {c : Char} (h : upChar c = '@') : c = '@' := by
  unfold upChar at h
  split at h
  · next hl =>
    simp [isLow] at hl
    have hm : ∀ m : Fin 128, Char.ofNat m.val = '@' → m.val = 64 := by decide
    have := hm ⟨c.toNat - 32, by omega⟩ h
    simp at this; omega
  · exact h

theorem upper_atAt {w u : List Char} (h : upper w = '@' :: '@' :: u) : ∃ w', w = '@' :: '@' :: w' ∧ upper w' = u := by
  match w, h with
  | [], h => simp [upper] at h
  | [a], h => simp [upper] at h
  | a :: b :: w, h =>
    simp [upper] at h
    exact ⟨w, by rw [upChar_at h.1, upChar_at h.2.1], by simpa [upper] using h.2.2⟩

/-- One token written at the position of the lexer is read. -/
theorem nextLoop_fits (chk : Bool) (n : Nat) (pre w rest : List Char) (t : Token) (h : Fits chk t w rest) :
    nextLoop chk (pre ++ (w ++ rest)) (n + 1) (blen pre) (w ++ rest) =
      .ok t ⟨blen pre, blen pre + blen w⟩ ⟨pre ++ (w ++ rest), blen pre + blen w, rest⟩ := by
  obtain ⟨hi, hl, hg⟩ := h
  by_cases hp : punct t = none
  · cases t <;> simp [punct] at hp
    case invalid => exact absurd rfl hi
    case eof =>
      obtain ⟨rfl, rfl⟩ := hl
      simp [nextLoop]
    case ident s k =>
      rcases hl with ⟨rfl, h1, h2, h3, h4, rfl⟩ | ⟨rfl, h2, rfl⟩
      · cases w with
        | nil => exact absurd rfl h1
        | cons c w =>
          simp at h2 h3
          have hc : isWordStart c = true := by
            have := h2.1
            simp [isWord, h3] at this
            simp [isWordStart]; exact this
          have hsk := skipWhile_append isWord (blen pre + c.utf8Size) w rest h2.2 h4
          refine nextLoop_text (mk := mkWord) (pos := blen pre + blen (c :: w)) (List.cons_append ..) ?_ (slice_mid pre (c :: w) rest) rfl ?_
          · rw [lexChar_word _ _ _ _ _ _ hc, hsk]
            · simp [Nat.add_assoc]
            · intro hx hr
              cases w with
              | nil =>
                cases rest with
                | nil => simp at hr
                | cons d r =>
                  simp at hr; subst hr
                  rw [notHead_cons] at hg
                  rcases hx with rfl | rfl <;> simp [glued] at hg
              | cons d w =>
                simp at hr; subst hr
                exact absurd (h2.2 '\'' (by simp)) (by decide)
          · rfl
      · have hsk := skipWhile_append (fun d => isWord d || d == '-') (blen pre + ('`').utf8Size) s ('`' :: rest)
          (by simpa using h2) (by rw [notHead_cons]; decide)
        have hsl := slice_mid (pre ++ ['`']) s ('`' :: rest)
        have e : ('`').utf8Size = 1 := rfl
        refine nextLoop_text (c := '`') (cs := s ++ '`' :: rest) (s := s) (a := blen pre + 1) (b := blen pre + 1 + blen s)
          (pos := blen pre + 1 + blen s + 1) (mk := fun s => .ident s Keyword.QUOTED_IDENTIFIER) (by simp) ?_ ?_ rfl ?_
        · rw [e] at hsk
          simp [lexChar, isWordStart, isLow, isUp, hsk, e]
        · simpa [e] using hsl
        · simp [e]; omega
    case integer s =>
      obtain ⟨rfl, h1, h2, h3⟩ := hl
      cases w with
      | nil => exact absurd rfl h1
      | cons c w =>
        simp at h2
        have hsk := skipWhile_append isDig (blen pre + c.utf8Size) w rest h2.2 h3
        refine nextLoop_text (pos := blen pre + blen (c :: w)) (List.cons_append ..) ?_ (slice_mid pre (c :: w) rest) rfl ?_
        · rw [lexChar_dig _ _ _ _ _ _ h2.1, hsk]
          cases rest with
          | nil => simp [Nat.add_assoc]
          | cons d r =>
            rw [notHead_cons] at hg
            have hd : d ≠ '.' := by
              rintro rfl
              have : (c :: w).all isDig = true := by simpa using h2
              simp only [glued, this] at hg
              simp at hg
            simp [hd, Nat.add_assoc]
        · rfl
    case float s =>
      obtain ⟨rfl, a, b, rfl, ha, hb, hab, hr⟩ := hl
      have e : ('.').utf8Size = 1 := rfl
      cases a with
      | nil =>
        cases b with
        | nil => simp at hab
        | cons d b =>
          have hb' := skipWhile_append isDig (blen pre + 1) (d :: b) rest hb hr
          simp at hb
          refine nextLoop_text (pos := blen pre + blen ('.' :: d :: b)) (List.cons_append ..) ?_ (slice_mid pre ('.' :: d :: b) rest) rfl ?_
          · simp at hb'
            simp [lexChar, isWordStart, isLow, isUp, hb.1, e, hb', show isDig '.' = false from by decide, Nat.add_assoc]
          · rfl
      | cons c a =>
        simp at ha
        have hsk := skipWhile_append isDig (blen pre + c.utf8Size) a ('.' :: (b ++ rest)) ha.2
          (by rw [notHead_cons]; decide)
        have hb' := skipWhile_append isDig (blen pre + c.utf8Size + blen a + 1) b rest hb hr
        refine nextLoop_text (pos := blen pre + blen (c :: a ++ '.' :: b)) (List.cons_append ..) ?_ (slice_mid pre (c :: a ++ '.' :: b) rest) rfl ?_
        · rw [lexChar_dig _ _ _ _ _ _ ha.1]
          have hap : a.append ('.' :: b) ++ rest = a ++ '.' :: (b ++ rest) := by
            show (a ++ ('.' :: b)) ++ rest = _
            simp
          rw [hap, hsk]
          simp only [hb']
          simp [e, Nat.add_assoc]
        · rfl
    case singleQuotedString s =>
      obtain ⟨rfl, h1, h2⟩ := hl
      have hq := scanQuote_body '\'' (by decide) (blen pre + 1) s rest h1 h2
      have hsl := slice_mid (pre ++ ['\'']) s ('\'' :: rest)
      have e : ('\'').utf8Size = 1 := rfl
      refine nextLoop_text (c := '\'') (cs := s ++ '\'' :: rest) (s := s) (a := blen pre + 1) (b := blen pre + 1 + blen s)
          (pos := blen pre + 1 + blen s + 1) (mk := .singleQuotedString) (by simp) ?_ ?_ rfl ?_
      · simp [lexChar, isWordStart, isLow, isUp, hq, e]
      · simpa [e] using hsl
      · simp [e]; omega
    case doubleQuotedString s =>
      obtain ⟨rfl, h1, h2⟩ := hl
      have hq := scanQuote_body '"' (by decide) (blen pre + 1) s rest h1 h2
      have hsl := slice_mid (pre ++ ['"']) s ('"' :: rest)
      have e : ('"').utf8Size = 1 := rfl
      refine nextLoop_text (c := '"') (cs := s ++ '"' :: rest) (s := s) (a := blen pre + 1) (b := blen pre + 1 + blen s)
          (pos := blen pre + 1 + blen s + 1) (mk := .doubleQuotedString) (by simp) ?_ ?_ rfl ?_
      · simp [lexChar, isWordStart, isLow, isUp, hq, e]
      · simpa [e] using hsl
      · simp [e]; omega
    case dollarArg m =>
      obtain ⟨ds, rfl, h1, h2, h3, h4, h5⟩ := hl
      cases ds with
      | nil => exact absurd rfl h1
      | cons c ds =>
        simp at h2 h3
        have hm : m = if chk then numberOf (c :: ds) else numberOf (c :: ds) % usizeMod := by
          split at h5
          · simp [h5.1, *]
          · simp [h5, *]
        have hc10 : digVal c < usizeMod := by
          have := h2.1
          simp [isDig] at this
          simp [digVal, usizeMod]; omega
        have hs := scanDollar_all chk (digVal c) (blen pre + 1 + c.utf8Size) [c] ds rest h2.2 h4
          (by have : numberOf [c] = digVal c := by exact numberOf_one c
              split
              · exact this.symm
              · rw [this, Nat.mod_eq_of_lt hc10])
          (by intro hchk; subst hchk; simp at h5 ⊢; omega)
        have hd : (c == '$') = false := by
          simp; rintro rfl; exact absurd h2.1 (by decide)
        have e : ('$').utf8Size = 1 := rfl
        refine nextLoop_tok (pos := blen pre + 1 + c.utf8Size + blen ds) (List.cons_append ..) ?_ ?_
        · simp at hs hd
          simp [lexChar, isWordStart, isLow, isUp, hd, h2.1, h3, e, hs, hm]
        · simp [e]; omega
    case atAtGlobal =>
      obtain ⟨w, rfl, hw⟩ := upper_atAt hl
      cases w with
      | nil => simp [upper] at hw
      | cons d w =>
        have hs := scanLetters_all _ (d :: w) rest (blen pre + 1 + 1) hw
        have hd : upChar d = 'G' := by simp [upper] at hw; exact hw.1
        simp at hs
        have e : ('@').utf8Size = 1 := rfl
        refine nextLoop_tok (List.cons_append ..) (pos := blen pre + 1 + 1 + (d.utf8Size + blen w)) ?_ (by simp [e]; omega)
        simp [lexChar, isWordStart, isLow, isUp, hd, e, hs]
    case atAtSession =>
      obtain ⟨w, rfl, hw⟩ := upper_atAt hl
      cases w with
      | nil => simp [upper] at hw
      | cons d w =>
        have hs := scanLetters_all _ (d :: w) rest (blen pre + 1 + 1) hw
        have hd : upChar d = 'S' := by simp [upper] at hw; exact hw.1
        simp at hs
        have e : ('@').utf8Size = 1 := rfl
        refine nextLoop_tok (List.cons_append ..) (pos := blen pre + 1 + 1 + (d.utf8Size + blen w)) ?_ (by simp [e]; omega)
        simp [lexChar, isWordStart, isLow, isUp, hd, e, hs]
  · have hl' : ∃ l, punct t = some l ∧ w ∈ l := by
      cases t <;> first | exact hl | (simp [punct] at hp)
    clear hl
    obtain ⟨l, hl, hw⟩ := hl'
    cases t <;> simp [punct] at hl hp <;> subst hl <;> simp at hw
    all_goals
      first
      | subst hw
        cases rest with
        | nil => simp [nextLoop, lexChar]; try rfl
        | cons d r =>
          simp [NotHead, glued] at hg
          simp [nextLoop, lexChar, hg]; try rfl
      | rcases hw with rfl | rfl <;> cases rest <;> (simp [nextLoop, lexChar]; try rfl)

/-- Blanks and comments are skipped; the number of rounds left over is irrelevant as long as one remains. -/
theorem trivia_step (chk : Bool) (n : Nat) (pre u l : List Char) (h : Trivia u l) :
    nextLoop chk (pre ++ (u ++ l)) (n + 1) (blen pre) (u ++ l) =
      nextLoop chk (pre ++ (u ++ l)) n (blen (pre ++ u)) l := by
  have en : ('\n').utf8Size = 1 := rfl
  have er : ('\r').utf8Size = 1 := rfl
  have ed : ('-').utf8Size = 1 := rfl
  have es : ('/').utf8Size = 1 := rfl
  have ea : ('*').utf8Size = 1 := rfl
  cases h with
  | blank c l h => rcases h with rfl | rfl | rfl | rfl <;> simp [nextLoop, lexChar]
  | line a e body l ha hb he =>
    have hs := skipLine_body (blen pre + 1) (a :: body) e l (by
      intro c hc
      rcases List.mem_cons.1 hc with rfl | hc
      · rcases ha with rfl | rfl <;> decide
      · exact hb c hc) he
    rcases ha with rfl | rfl <;> simp [ed, es] at hs <;>
      simp [nextLoop, lexChar, ed, es, hs, Nat.add_assoc]
  | lastLine a body ha hb =>
    have hs := skipLine_last (blen pre + 1) (a :: body) (by
      intro c hc
      rcases List.mem_cons.1 hc with rfl | hc
      · rcases ha with rfl | rfl <;> decide
      · exact hb c hc)
    rcases ha with rfl | rfl <;> simp [ed, es] at hs <;>
      simp [nextLoop, lexChar, ed, es, hs, Nat.add_assoc]
  | block body l hb =>
    have hs := skipComment_body (blen pre + 1 + 1) body l hb
    simp [nextLoop, lexChar, es, ea, hs]
    congr 1; omega

theorem skipped_steps (chk : Bool) (n : Nat) (pre u l : List Char) (h : Skipped u l) (hn : u.length ≤ n) :
    ∃ m, n ≤ m + u.length ∧ nextLoop chk (pre ++ (u ++ l)) n (blen pre) (u ++ l) =
      nextLoop chk (pre ++ (u ++ l)) m (blen (pre ++ u)) l := by
  induction h generalizing n pre with
  | nil l => exact ⟨n, by simp, by simp⟩
  | cons u us l h hs ih =>
    have hu : 0 < u.length := by
      generalize us ++ l = r at h
      cases h <;> simp
    simp only [List.length_append] at hn
    obtain ⟨n, rfl⟩ : ∃ k, n = k + 1 := ⟨n - 1, by omega⟩
    have h1 := trivia_step chk n pre u (us ++ l) h
    obtain ⟨m, hm, h2⟩ := ih n (pre ++ u) (by omega)
    refine ⟨m, by simp; omega, ?_⟩
    simp only [List.append_assoc] at h1 h2 ⊢
    rw [h1, h2]

/-- A token written after blanks and comments is read. -/
theorem nextToken_fits (chk : Bool) (pre u w rest : List Char) (t : Token) (hs : Skipped u (w ++ rest))
    (h : Fits chk t w rest) :
    (Lexer.mk (pre ++ (u ++ (w ++ rest))) (blen pre) (u ++ (w ++ rest))).nextToken chk =
      .ok t ⟨blen pre + blen u, blen pre + blen u + blen w⟩
        ⟨pre ++ (u ++ (w ++ rest)), blen pre + blen u + blen w, rest⟩ := by
  simp only [Lexer.nextToken]
  obtain ⟨m, hm, h1⟩ := skipped_steps chk ((u ++ (w ++ rest)).length + 1) pre u (w ++ rest) hs (by simp; omega)
  rw [h1]
  simp only [List.length_append] at hm
  obtain ⟨m, rfl⟩ : ∃ k, m = k + 1 := ⟨m - 1, by omega⟩
  have := nextLoop_fits chk m (pre ++ u) w rest t h
  simpa using this

end SqlParse
