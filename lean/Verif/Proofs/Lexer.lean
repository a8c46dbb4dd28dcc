import Verif.Spec.Tokens
import Verif.Spec.Lexical
import Verif.Proofs.Text
/-! Proofs about the lexer: C03, C04, C05. -/
namespace SqlParse

theorem skipWhile_spec (p : Char → Bool) (pos : Nat) (l : List Char) :
    ∃ u, l = u ++ (skipWhile p pos l).2 ∧ (skipWhile p pos l).1 = pos + blen u ∧ (∀ c ∈ u, p c = true) ∧
      NotHead p (skipWhile p pos l).2 := by
  induction l generalizing pos with
  | nil => exact ⟨[], by simp [skipWhile, NotHead]⟩
  | cons c cs ih =>
    simp only [skipWhile]
    split
    · next h =>
      obtain ⟨u, h1, h2, h3, h4⟩ := ih (pos + c.utf8Size)
      refine ⟨c :: u, ?_, ?_, ?_, h4⟩
      · simpa using h1
      · rw [h2]; simp; omega
      · simpa using ⟨h, h3⟩
    · next h => exact ⟨[], by simp [NotHead, h]⟩

theorem skipLine_spec (pos : Nat) (l : List Char) :
    (∃ body e, l = body ++ e :: (skipLine pos l).2 ∧ (skipLine pos l).1 = pos + blen body + e.utf8Size ∧
      (∀ c ∈ body, c ≠ '\n' ∧ c ≠ '\r') ∧ (e = '\n' ∨ e = '\r')) ∨
    ((skipLine pos l).2 = [] ∧ (skipLine pos l).1 = pos + blen l ∧ (∀ c ∈ l, c ≠ '\n' ∧ c ≠ '\r')) := by
  induction l generalizing pos with
  | nil => right; simp [skipLine]
  | cons c cs ih =>
    simp only [skipLine]
    split
    · next h =>
      left
      refine ⟨[], c, by simp, by simp, by simp, ?_⟩
      simp at h; exact h.symm
    · next h =>
      simp at h
      rcases ih (pos + c.utf8Size) with ⟨body, e, h1, h2, h3, h4⟩ | ⟨h1, h2, h3⟩
      · left
        refine ⟨c :: body, e, by simpa using h1, by rw [h2]; simp; omega, ?_, h4⟩
        simpa using ⟨⟨h.2, h.1⟩, h3⟩
      · right
        refine ⟨h1, by rw [h2]; simp; omega, ?_⟩
        simpa using ⟨⟨h.2, h.1⟩, h3⟩

theorem not_infix_cons {c : Char} {l : List Char} (h : ¬ ['*', '/'] <:+: l)
    (hc : ¬ (c = '*' ∧ l.head? = some '/')) : ¬ ['*', '/'] <:+: c :: l := by
  intro hi
  rcases List.infix_cons_iff.1 hi with h' | h'
  · obtain ⟨t, ht⟩ := h'
    cases l with
    | nil => simp at ht
    | cons d l =>
      simp at ht
      exact hc ⟨ht.1.symm, by simp [ht.2.1.symm]⟩
  · exact h h'

theorem skipComment_spec (pos : Nat) (l : List Char) (p : Nat) (r : List Char)
    (h : skipComment pos l = some (p, r)) :
    ∃ body, l = body ++ '*' :: '/' :: r ∧ p = pos + blen body + 2 ∧ ¬ ['*', '/'] <:+: body := by
  induction l generalizing pos with
  | nil => simp [skipComment] at h
  | cons c cs ih =>
    unfold skipComment at h
    split at h
    · next hc =>
      simp at hc; subst hc
      cases cs with
      | nil => simp at h
      | cons d ds =>
        simp only at h
        split at h
        · next hd =>
          simp at hd h; subst hd
          obtain ⟨h1, h2⟩ := h
          subst h1 h2
          exact ⟨[], rfl, by simp; rfl, by simp⟩
        · next hd =>
          simp at hd
          obtain ⟨body, h1, h2, h3⟩ := ih _ h
          refine ⟨'*' :: body, by simp [h1], by simp [h2]; omega, not_infix_cons h3 ?_⟩
          rintro ⟨-, hh⟩
          cases body with
          | nil => simp at hh
          | cons x b => simp at hh h1; exact hd (by rw [h1.1, hh])
    · next hc =>
      simp at hc
      obtain ⟨body, h1, h2, h3⟩ := ih _ h
      exact ⟨c :: body, by simp [h1], by simp [h2]; omega, not_infix_cons h3 (by simp [hc])⟩

theorem scanQuote_spec (q : Char) (hq : q ≠ '\\') (pos : Nat) (l : List Char) (i p : Nat) (r : List Char)
    (h : scanQuote q pos l = some (i, p, r)) :
    ∃ body, l = body ++ q :: r ∧ i = pos + blen body ∧ p = i + q.utf8Size ∧ QuoteBody q body ∧
      NotHead (· == q) r := by
  induction hn : l.length using Nat.strongRecOn generalizing l pos with
  | _ n ih =>
  cases l with
  | nil => simp [scanQuote] at h
  | cons c cs =>
    unfold scanQuote at h
    split at h
    · next hc =>
      simp at hc; subst hc
      cases cs with
      | nil => simp at h
      | cons d ds =>
        simp only at h
        obtain ⟨body, h1, h2, h3, h4, h5⟩ := ih ds.length (by simp at hn; omega) _ _ h rfl
        exact ⟨'\\' :: d :: body, by simp [h1], by simp [h2]; omega, h3, .escape d body h4, h5⟩
    · next hc =>
      split at h
      · next hcq =>
        simp at hcq; subst hcq
        cases cs with
        | nil =>
          simp at h
          obtain ⟨h1, h2, h3⟩ := h
          exact ⟨[], by simp [h3], by simp [h1], by omega, .nil, by simp [NotHead, h3]⟩
        | cons d ds =>
          simp only at h
          split at h
          · next hd =>
            simp at hd; subst hd
            obtain ⟨body, h1, h2, h3, h4, h5⟩ := ih ds.length (by simp at hn; omega) _ _ h rfl
            exact ⟨d :: d :: body, by simp [h1], by simp [h2]; omega, h3, .double body h4, h5⟩
          · next hd =>
            simp at h
            obtain ⟨h1, h2, h3⟩ := h
            refine ⟨[], by simp [h3], by simp [h1], by omega, .nil, ?_⟩
            simp at hd
            simp [NotHead, ← h3, hd]
      · next hcq =>
        obtain ⟨body, h1, h2, h3, h4, h5⟩ := ih cs.length (by simp at hn; omega) _ _ h rfl
        simp at hc hcq
        exact ⟨c :: body, by simp [h1], by simp [h2]; omega, h3, .plain c body hc hcq h4, h5⟩

theorem scanLetters_spec (ws : List Char) (pos : Nat) (l : List Char) :
    ∃ u, l = u ++ (scanLetters pos ws l).2.2 ∧ (scanLetters pos ws l).2.1 = pos + blen u ∧
      ((scanLetters pos ws l).1 = true → upper u = ws) := by
  induction ws generalizing pos l with
  | nil => exact ⟨[], by simp [scanLetters, upper]⟩
  | cons w ws ih =>
    cases l with
    | nil => exact ⟨[], by simp [scanLetters]⟩
    | cons c cs =>
      simp only [scanLetters]
      split
      · next h =>
        obtain ⟨u, h1, h2, h3⟩ := ih (pos + c.utf8Size) cs
        refine ⟨c :: u, by simpa using h1, by rw [h2]; simp; omega, ?_⟩
        intro ht
        have := h3 ht
        simp [upper] at this ⊢
        exact ⟨by simpa using h, this⟩
      · exact ⟨[], by simp⟩

theorem decVal_append (a : List Char) (c : Char) : numberOf (a ++ [c]) = numberOf a * 10 + digVal c := by
  simp [numberOf]
  rfl

theorem numberOf_one (c : Char) : numberOf [c] = digVal c := by
  simp [numberOf]
  rfl

theorem scanDollar_spec (chk : Bool) (pre : List Char) (v pos : Nat) (l : List Char)
    (hv : if chk then v = numberOf pre ∧ v < usizeMod else v = numberOf pre % usizeMod) (n p : Nat) (r : List Char)
    (h : scanDollar chk v pos l = some (n, p, r)) :
    ∃ u, l = u ++ r ∧ p = pos + blen u ∧ (∀ c ∈ u, isDig c = true) ∧ NotHead isDig r ∧
      (if chk then n = numberOf (pre ++ u) ∧ n < usizeMod else n = numberOf (pre ++ u) % usizeMod) := by
  induction l generalizing v pos pre with
  | nil =>
    simp [scanDollar] at h
    obtain ⟨h1, h2, h3⟩ := h
    subst h1 h2 h3
    exact ⟨[], by simp [NotHead]; exact hv⟩
  | cons c cs ih =>
    simp only [scanDollar] at h
    split at h
    · next hd =>
      split at h
      · next hlt =>
        obtain ⟨u, h1, h2, h3, h4, h5⟩ := ih (pre ++ [c]) _ _ (by
          cases chk
          · simp only [Bool.false_eq_true, if_false] at hv ⊢
            rw [decVal_append, hv]
            have h2 : numberOf pre % usizeMod * 10 + digVal c < usizeMod := by rw [← hv]; exact hlt
            rw [← Nat.mod_eq_of_lt h2]
            simp [Nat.add_mod, Nat.mul_mod]
          · simp only [if_true] at hv ⊢
            rw [decVal_append, ← hv.1]; exact ⟨rfl, hlt⟩) h
        exact ⟨c :: u, by simp [h1], by simp [h2]; omega, by simpa using ⟨hd, h3⟩, h4, by simpa using h5⟩
      · next hlt =>
        split at h
        · simp at h
        · next hc =>
          simp at hc; subst hc
          obtain ⟨u, h1, h2, h3, h4, h5⟩ := ih (pre ++ [c]) _ _ (by
            simp only [Bool.false_eq_true, if_false] at hv ⊢
            rw [decVal_append, hv]
            simp [Nat.add_mod, Nat.mul_mod]) h
          exact ⟨c :: u, by simp [h1], by simp [h2]; omega, by simpa using ⟨hd, h3⟩, h4, by simpa using h5⟩
    · next hd =>
      simp at h
      obtain ⟨h1, h2, h3⟩ := h
      subst h1 h2
      refine ⟨[], by simp [h3], by simp, by simp, ?_, by simpa using hv⟩
      simp at hd
      simp [NotHead, ← h3, hd]

theorem scanDollar_none (pre : List Char) (v pos : Nat) (l : List Char) (hv : v = numberOf pre)
    (h : scanDollar true v pos l = none) :
    ∃ u r, l = u ++ r ∧ (∀ c ∈ u, isDig c = true) ∧ usizeMod ≤ numberOf (pre ++ u) := by
  induction l generalizing v pos pre with
  | nil => simp [scanDollar] at h
  | cons c cs ih =>
    simp only [scanDollar] at h
    split at h
    · next hd =>
      split at h
      · obtain ⟨u, r, h1, h2, h3⟩ := ih (pre ++ [c]) _ _ (by rw [decVal_append, hv]) h
        exact ⟨c :: u, r, by simp [h1], by simpa using ⟨hd, h2⟩, by simpa using h3⟩
      · next hlt => exact ⟨[c], cs, rfl, by simpa using hd, by rw [decVal_append, ← hv]; omega⟩
    · simp at h

/-- What `lexChar` guarantees. -/
def StepOK (chk : Bool) (start : Nat) (l : List Char) : LexStep → Prop
  | .skip p r => ∃ u, l = u ++ r ∧ p = start + blen u ∧ u ≠ [] ∧ Trivia u r
  | .tok t p r => ∃ u, l = u ++ r ∧ p = start + blen u ∧ u ≠ [] ∧ Lexeme chk t u r ∧ t ≠ .eof
  | .text mk a b p r => ∃ x y z, l = x ++ (y ++ (z ++ r)) ∧ a = start + blen x ∧ b = a + blen y ∧
      p = b + blen z ∧ x ++ (y ++ z) ≠ [] ∧ Lexeme chk (mk y) (x ++ (y ++ z)) r ∧ mk y ≠ .eof
  | .panic m => (m = "not yet implemented: Hex literal" ∧ ∃ c r, (c = 'x' ∨ c = 'X') ∧ l = c :: '\'' :: r) ∨
      (m = "attempt to multiply with overflow" ∧ chk = true ∧ ∃ ds r, l = '$' :: (ds ++ r) ∧ (∀ c ∈ ds, isDig c = true) ∧ usizeMod ≤ numberOf ds)

theorem stepOK_one (chk : Bool) (start : Nat) (c : Char) (cs : List Char) (t : Token)
    (hp : punct t = some [[c]] ∨ t = .invalid) :
    StepOK chk start (c :: cs) (.tok t (start + c.utf8Size) cs) := by
  refine ⟨[c], rfl, by simp, by simp, ?_, ?_⟩
  · rcases hp with hp | hp
    · unfold Lexeme
      split <;> first | (simp [punct] at hp; done) | exact ⟨_, hp, by simp⟩
    · subst hp; simp [Lexeme]
  · rintro rfl; simp [punct] at hp

theorem stepOK_two (chk : Bool) (start : Nat) (c d : Char) (cs : List Char) (t : Token) (l)
    (hp : punct t = some l) (hl : [c, d] ∈ l) (p : Nat) (hpos : p = start + c.utf8Size + d.utf8Size) :
    StepOK chk start (c :: d :: cs) (.tok t p cs) := by
  refine ⟨[c, d], rfl, by simp; omega, by simp, ?_, ?_⟩
  · unfold Lexeme
    split <;> first | (simp [punct] at hp; done) | exact ⟨_, hp, hl⟩
  · rintro rfl; simp [punct] at hp

theorem isWordStart_not_dig {c : Char} (h : isWordStart c = true) : isDig c = false := by
  simp [isWordStart, isLow, isUp, isDig] at *
  rcases h with (h | h) | h
  · subst h; decide
  · have : ('a'.toNat) = 97 := rfl
    have : ('0'.toNat) = 48 := rfl
    have : ('9'.toNat) = 57 := rfl
    omega
  · have : ('A'.toNat) = 65 := rfl
    have : ('9'.toNat) = 57 := rfl
    omega

theorem isWordStart_isWord {c : Char} (h : isWordStart c = true) : isWord c = true := by
  simp [isWordStart, isWord] at *; exact Or.inl h

theorem stepOK_word (chk : Bool) (start : Nat) (c : Char) (cs : List Char) (h : isWordStart c = true) :
    StepOK chk start (c :: cs) (.text mkWord start (skipWhile isWord (start + c.utf8Size) cs).1
      (skipWhile isWord (start + c.utf8Size) cs).1 (skipWhile isWord (start + c.utf8Size) cs).2) := by
  obtain ⟨u, h1, h2, h3, h4⟩ := skipWhile_spec isWord (start + c.utf8Size) cs
  refine ⟨[], c :: u, [], by simpa using h1, by simp, by rw [h2]; simp; omega, by simp, by simp, ?_, by simp [mkWord]⟩
  left
  refine ⟨by simp, by simp, ?_, by simpa using isWordStart_not_dig h, h4, rfl⟩
  simpa using ⟨isWordStart_isWord h, h3⟩

theorem stepOK_line (chk : Bool) (start : Nat) (c : Char) (cs : List Char) (h : c = '-' ∨ c = '/') :
    StepOK chk start (c :: c :: cs) (.skip (skipLine (start + c.utf8Size) (c :: cs)).1
      (skipLine (start + c.utf8Size) (c :: cs)).2) := by
  have hc : ¬ (c == '\r' || c == '\n') = true := by rcases h with h | h <;> subst h <;> decide
  simp only [skipLine, if_neg hc]
  rcases skipLine_spec (start + c.utf8Size + c.utf8Size) cs with ⟨body, e, h1, h2, h3, h4⟩ | ⟨h1, h2, h3⟩
  · exact ⟨c :: c :: (body ++ [e]), by simpa using h1, by rw [h2]; simp; omega, by simp, .line c e body _ h h3 h4⟩
  · rw [h1]
    exact ⟨c :: c :: cs, by simp, by rw [h2]; simp; omega, by simp, .lastLine c cs h h3⟩

theorem scanDollar_false (v pos : Nat) (l : List Char) : scanDollar false v pos l ≠ none := by
  induction l generalizing v pos with
  | nil => simp [scanDollar]
  | cons c cs ih =>
    simp only [scanDollar]
    split
    · split
      · exact ih _ _
      · simpa using ih _ _
    · simp

theorem lexChar_spec (chk : Bool) (srcLen start : Nat) (c : Char) (cs : List Char)
    (hlen : srcLen = start + blen (c :: cs)) :
    StepOK chk start (c :: cs) (lexChar chk srcLen start c (start + c.utf8Size) cs) := by
  have hall : StepOK chk start (c :: cs) (.tok .invalid srcLen []) :=
    ⟨c :: cs, by simp, hlen, by simp, by simp [Lexeme], by simp⟩
  unfold lexChar
  extract_lets one two wp word rl rq rd
  have hone : ∀ t, punct t = some [[c]] ∨ t = .invalid → StepOK chk start (c :: cs) (one t) :=
    fun t h => stepOK_one _ _ _ _ _ h
  have htwo : ∀ d t l els, punct t = some l → [c, d] ∈ l → StepOK chk start (c :: cs) els →
      StepOK chk start (c :: cs) (two d t els) := by
    intro d t l els h1 h2 h3
    simp only [two]
    split
    · split
      · next hd => simp at hd; subst hd; exact stepOK_two _ _ _ _ _ _ l h1 h2 _ rfl
      · exact h3
    · exact h3
  have hword : isWordStart c = true → StepOK chk start (c :: cs) word := fun h => stepOK_word _ _ _ _ h
  clear_value one two word
  iterate 48
    try
      refine iteInduction (fun h => ?_) (fun h => ?_)
      rotate_left
  · exact hone _ (.inr rfl)
  · simp at h
    exact ⟨[c], rfl, by simp, by simp, .blank c cs (by rcases h with ((h|h)|h)|h <;> simp [h])⟩
  all_goals first
    | exact hword h
    | (simp at h; subst h; first
        | exact hone _ (by simp [punct])
        | exact htwo _ _ _ _ rfl (by simp) (hone _ (by simp [punct]))
        | exact htwo _ _ _ _ rfl (by simp) (htwo _ _ _ _ rfl (by simp) (hone _ (by simp [punct]))))
    | skip
  · -- '@'
    simp at h; subst h
    split
    · next ds =>
      have hs : ∀ (ws : List Char) (t : Token) (hl : ∀ w, upper w = ws → Lexeme chk t ('@' :: '@' :: w) (scanLetters (start + '@'.utf8Size + 1) ws ds).2.2) (ht : t ≠ .eof),
          StepOK chk start ('@' :: '@' :: ds) (.tok (if (scanLetters (start + '@'.utf8Size + 1) ws ds).1 then t else .invalid)
            (scanLetters (start + '@'.utf8Size + 1) ws ds).2.1 (scanLetters (start + '@'.utf8Size + 1) ws ds).2.2) := by
        intro ws t hl ht
        obtain ⟨u, h1, h2, h3⟩ := scanLetters_spec ws (start + '@'.utf8Size + 1) ds
        refine ⟨'@' :: '@' :: u, by simpa using h1, by rw [h2]; simp [show '@'.utf8Size = 1 from rfl]; omega, by simp, ?_, ?_⟩
        · split
          · next hh => exact hl u (h3 hh)
          · simp [Lexeme]
        · split <;> simp [ht]
      have hinv : ∀ ds, StepOK chk start ('@' :: '@' :: ds) (.tok .invalid (start + '@'.utf8Size + 1) ds) := by
        intro ds
        exact ⟨['@', '@'], rfl, by simp [show '@'.utf8Size = 1 from rfl], by simp, by simp [Lexeme], by simp⟩
      split
      · split
        · exact hs _ _ (by intro w hw; simp only [Lexeme]; simp [upper] at hw ⊢; exact ⟨by decide, hw⟩) (by simp)
        · split
          · exact hs _ _ (by intro w hw; simp only [Lexeme]; simp [upper] at hw ⊢; exact ⟨by decide, hw⟩) (by simp)
          · exact hinv _
      · exact hinv _
    · exact hone _ (by simp [punct])
  · -- '$'
    simp at h; subst h
    split
    · next e es =>
      split
      · next he => simp at he; subst he; exact stepOK_two _ _ _ _ _ _ _ rfl (by simp) _ rfl
      · split
        · next he =>
          simp at he
          split
          · next v pos' rest' hs =>
            obtain ⟨u, h1, h2, h3, h4, h5⟩ := scanDollar_spec chk [e] _ _ _ (by
              have : digVal e < usizeMod := by
                have := he.1; simp [isDig] at this
                simp [digVal, usizeMod]; omega
              cases chk
              · simp [numberOf_one, Nat.mod_eq_of_lt this]
              · simpa [numberOf_one] using this) _ _ _ hs
            refine ⟨'$' :: e :: u, by simpa using h1, by rw [h2]; simp; omega, by simp, ?_, by simp⟩
            refine ⟨e :: u, rfl, by simp, ?_, by simpa using he.2, h4, h5⟩
            simpa using ⟨he.1, h3⟩
          · next hs =>
            right
            cases chk
            · exact absurd hs (scanDollar_false _ _ _)
            · obtain ⟨u, r, h1, h2, h3⟩ := scanDollar_none [e] _ _ _ (by simp [numberOf_one]) hs
              exact ⟨rfl, rfl, e :: u, r, by simp [h1], by simpa using ⟨he.1, h2⟩, by simpa using h3⟩
        · exact hone _ (by simp)
    · exact hone _ (by simp)
  · -- '<'
    simp at h; subst h
    split
    · exact ⟨['<', '=', '>'], rfl, by simp; rfl, by simp, ⟨_, rfl, by simp⟩, by simp⟩
    · exact stepOK_two _ _ _ _ _ _ _ rfl (by simp) _ rfl
    · exact stepOK_two _ _ _ _ _ _ _ rfl (by simp) _ rfl
    · exact stepOK_two _ _ _ _ _ _ _ rfl (by simp) _ rfl
    · exact hone _ (by simp [punct])
  · -- '-'
    simp at h; subst h
    split
    · exact stepOK_line _ _ _ _ (by simp)
    · exact hone _ (by simp [punct])
  · -- '/'
    simp at h; subst h
    split
    · next ds =>
      split
      · next p r hs =>
        obtain ⟨body, h1, h2, h3⟩ := skipComment_spec _ _ _ _ hs
        refine ⟨'/' :: '*' :: (body ++ ['*', '/']), by simpa using h1, ?_, by simp, .block _ _ h3⟩
        rw [h2]; simp [show '/'.utf8Size = 1 from rfl, show '*'.utf8Size = 1 from rfl]; omega
      · exact hall
    · exact stepOK_line _ _ _ _ (by simp)
    · exact hone _ (by simp [punct])
  · -- 'x'
    simp at h
    split
    · next r => exact .inl ⟨rfl, c, r, h, rfl⟩
    · refine hword ?_
      rcases h with h | h <;> subst h <;> decide
  · -- '`'
    simp at h; subst h
    obtain ⟨u, h1, h2, h3, h4⟩ := skipWhile_spec (fun d => isWord d || d == '-') (start + '`'.utf8Size) cs
    change cs = u ++ rq.2 at h1
    change rq.1 = _ at h2
    change NotHead _ rq.2 at h4
    clear_value rq
    obtain ⟨p, r⟩ := rq
    simp only at h1 h2 h4 ⊢
    subst h1 h2
    have h1 : '`'.utf8Size = 1 := rfl
    split
    · next ds hh =>
      refine ⟨['`'], u, ['`'], by simp, by simp [h1], by simp [h1], by simp [h1], by simp, ?_, by simp⟩
      right
      refine ⟨by simp, ?_, rfl⟩
      intro c hc; simpa using h3 c hc
    · refine ⟨'`' :: u, by simp, by simp [h1]; omega, by simp, by simp [Lexeme], by simp⟩
  · -- single quoted
    simp at h; subst h
    split
    · next i p r hs =>
      obtain ⟨body, h1, h2, h3, h4, h5⟩ := scanQuote_spec _ (by decide) _ _ _ _ _ hs
      have hq : '\''.utf8Size = 1 := rfl
      refine ⟨['\''], body, ['\''], by simp [h1], by simp [hq], by simp [h2, hq], by simp [h3, hq], by simp, ?_, by simp⟩
      exact ⟨by simp, h4, h5⟩
    · exact hall
  · -- double quoted
    simp at h; subst h
    split
    · next i p r hs =>
      obtain ⟨body, h1, h2, h3, h4, h5⟩ := scanQuote_spec _ (by decide) _ _ _ _ _ hs
      have hq : '"'.utf8Size = 1 := rfl
      refine ⟨['"'], body, ['"'], by simp [h1], by simp [hq], by simp [h2, hq], by simp [h3, hq], by simp, ?_, by simp⟩
      exact ⟨by simp, h4, h5⟩
    · exact hall
  · -- digits
    obtain ⟨u, h1, h2, h3, h4⟩ := skipWhile_spec isDig (start + c.utf8Size) cs
    change cs = u ++ rd.2 at h1
    change rd.1 = _ at h2
    change NotHead _ rd.2 at h4
    clear_value rd
    obtain ⟨p, r⟩ := rd
    simp only at h1 h2 h4 ⊢
    subst h1 h2
    have hcu : ∀ d ∈ c :: u, isDig d = true := by simpa using ⟨h, h3⟩
    split
    · next _ ds =>
      obtain ⟨v, g1, g2, g3, g4⟩ := skipWhile_spec isDig (start + c.utf8Size + blen u + 1) ds
      refine ⟨[], c :: u ++ '.' :: v, [], by simpa using g1, by simp, ?_, by simp, by simp, ?_, by simp⟩
      · rw [g2]; simp [show '.'.utf8Size = 1 from rfl]; omega
      · exact ⟨by simp, c :: u, v, by simp, hcu, g3, by simp, g4⟩
    · exact ⟨[], c :: u, [], by simp, by simp, by simp; omega, by simp, by simp, ⟨by simp, by simp, hcu, h4⟩, by simp⟩
  · -- '.'
    simp at h; subst h
    split
    · next e es =>
      split
      · next he =>
        obtain ⟨u, h1, h2, h3, h4⟩ := skipWhile_spec isDig (start + '.'.utf8Size) (e :: es)
        change (e :: es) = u ++ rd.2 at h1
        change rd.1 = _ at h2
        change NotHead _ rd.2 at h4
        clear_value rd
        refine ⟨[], '.' :: u, [], by simpa using h1, by simp, by rw [h2]; simp; omega, by simp, by simp, ?_, by simp⟩
        refine ⟨by simp, [], u, by simp, by simp, h3, ?_, h4⟩
        right; rintro rfl
        simp at h1; rw [← h1] at h4; simp [NotHead, he] at h4
      · exact hone _ (by simp [punct])
    · exact hone _ (by simp [punct])

/-- Where and why lexing can panic. -/
def LexPanicAt (chk : Bool) (m : String) (l : List Char) : Prop :=
  (m = "not yet implemented: Hex literal" ∧ ∃ c r, (c = 'x' ∨ c = 'X') ∧ l = c :: '\'' :: r) ∨
  (m = "attempt to multiply with overflow" ∧ chk = true ∧ ∃ ds r, l = '$' :: (ds ++ r) ∧ (∀ c ∈ ds, isDig c = true) ∧ usizeMod ≤ numberOf ds)

def NextOK (chk : Bool) (src pre rest : List Char) : LexOut → Prop
  | .ok t sp lx => ∃ ts w, rest = ts ++ (w ++ lx.rest) ∧ Skipped ts (w ++ lx.rest) ∧
      sp.start = blen pre + blen ts ∧ sp.stop = sp.start + blen w ∧ lx.src = src ∧ lx.pos = sp.stop ∧
      Lexeme chk t w lx.rest ∧ (t = .eof ↔ w = [])
  | .panic m => ∃ ts l', rest = ts ++ l' ∧ Skipped ts l' ∧ LexPanicAt chk m l'

theorem nextLoop_spec (chk : Bool) (src : List Char) (n : Nat) (pre rest : List Char)
    (hsrc : src = pre ++ rest) (hn : rest.length < n) :
    NextOK chk src pre rest (nextLoop chk src n (blen pre) rest) := by
  induction n generalizing pre rest with
  | zero => omega
  | succ n ih =>
    cases rest with
    | nil => 
      subst hsrc
      exact ⟨[], [], by simp, .nil _, by simp, by simp, rfl, rfl, by simp [Lexeme], by simp⟩
    | cons c cs =>
      have h := lexChar_spec chk (blen src) (blen pre) c cs (by subst hsrc; simp)
      unfold nextLoop
      split
      · next pos r heq =>
        rw [heq] at h
        obtain ⟨u, h1, h2, h3, h4⟩ := h
        have hu : 0 < u.length := List.length_pos_iff.2 h3
        have hl : r.length < (c :: cs).length := by rw [h1]; simp; omega
        have := ih (pre ++ u) r (by rw [hsrc, h1]; simp) (by omega)
        rw [blen_append, ← h2] at this
        revert this
        generalize nextLoop chk src n pos r = out
        intro this
        cases out with
        | ok t sp lx =>
          obtain ⟨ts, w, g1, g2, g3, g4⟩ := this
          refine ⟨u ++ ts, w, by rw [h1, g1]; simp, .cons _ _ _ (by rw [← g1]; exact h4) g2, ?_, g4⟩
          rw [g3]; simp; omega
        | panic m =>
          obtain ⟨ts, l', g1, g2, g3⟩ := this
          exact ⟨u ++ ts, l', by rw [h1, g1]; simp, .cons _ _ _ (by rw [← g1]; exact h4) g2, g3⟩
      · next t pos r heq =>
        rw [heq] at h
        obtain ⟨u, h1, h2, h3, h4, h5⟩ := h
        exact ⟨[], u, by simpa using h1, .nil _, by simp, h2, rfl, rfl, h4, by simp [h3, h5]⟩
      · next mk a b pos r heq =>
        rw [heq] at h
        obtain ⟨x, y, z, h1, h2, h3, h4, h5, h6, h7⟩ := h
        have hs : slice src a b = some y := by
          have := slice_mid (pre ++ x) y (z ++ r)
          rw [hsrc, h1, h2, h3, h2]
          simpa using this
        rw [hs]
        refine ⟨[], x ++ (y ++ z), by simpa using h1, .nil _, by simp, ?_, rfl, rfl, h6, ?_⟩
        · show pos = blen pre + _
          rw [h4, h3, h2]; simp; omega
        · constructor
          · intro h; exact absurd h h7
          · intro h; exact absurd h h5
      · next m heq =>
        rw [heq] at h
        exact ⟨[], c :: cs, rfl, .nil _, h⟩

/-- The lexer's own invariant: `rest` is the source from byte `pos` on. -/
def LexInv (chk : Bool) (lx : Lexer) : Prop :=
  (∃ pre, lx.src = pre ++ lx.rest ∧ lx.pos = blen pre) ∧ Reach chk lx.src lx

theorem lexInv_new (chk : Bool) (src : List Char) : LexInv chk (Lexer.new src) := ⟨⟨[], rfl, rfl⟩, .start⟩

theorem nextToken_spec (chk : Bool) (lx : Lexer) (pre : List Char) (h1 : lx.src = pre ++ lx.rest)
    (h2 : lx.pos = blen pre) : NextOK chk lx.src pre lx.rest (lx.nextToken chk) := by
  unfold Lexer.nextToken
  rw [h2]
  exact nextLoop_spec chk lx.src _ pre lx.rest h1 (by omega)

theorem nextToken_inv {chk : Bool} {lx lx' : Lexer} {t : Token} {sp : Span} (h : LexInv chk lx)
    (heq : lx.nextToken chk = .ok t sp lx') :
    LexInv chk lx' ∧ lx'.src = lx.src ∧ lx.pos ≤ sp.start ∧ sp.start ≤ sp.stop ∧ sp.stop = lx'.pos ∧
      Boundary lx.src sp.start ∧ Boundary lx.src sp.stop ∧ (t ≠ .eof → sp.start < sp.stop) := by
  obtain ⟨⟨pre, h1, h2⟩, hr⟩ := h
  have := nextToken_spec chk lx pre h1 h2
  rw [heq] at this
  obtain ⟨ts, w, g1, g2, g3, g4, g5, g6, g7, g8⟩ := this
  refine ⟨⟨⟨pre ++ ts ++ w, by rw [g5, h1, g1]; simp, by rw [g6, g4, g3]; simp; omega⟩, by rw [g5]; exact .token hr heq⟩, g5, by omega, by omega, g6.symm,
    ⟨pre ++ ts, w ++ lx'.rest, by rw [h1, g1]; simp, by simp [g3]⟩,
    ⟨pre ++ ts ++ w, lx'.rest, by rw [h1, g1]; simp, by rw [g4, g3]; simp; omega⟩, ?_⟩
  intro ht
  have : w ≠ [] := fun hw => ht (g8.2 hw)
  have := blen_pos_of_ne this
  omega

end SqlParse
