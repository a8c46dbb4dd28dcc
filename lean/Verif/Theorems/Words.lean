import Verif.Proofs.Words
import Verif.Spec.Lexical
/-!
The small functions that the specifications share with the lexer, and the value of numerals, characterised by functions
of the Lean library.
-/
namespace SqlParse

/-- Digits are the ten ASCII digits. -/
theorem isDig_eq (c : Char) : isDig c = c.isDigit := by
  simp only [isDig, Char.isDigit, UInt32.le_iff_toNat_le, ge_iff_le]
  rfl

/-- Words are made of ASCII letters, digits and `_`. -/
theorem isWord_eq (c : Char) : isWord c = (c.isAlphanum || c == '_') := by
  have h1 : isLow c = c.isLower := by
    simp only [isLow, Char.isLower, UInt32.le_iff_toNat_le, ge_iff_le]; rfl
  have h2 : isUp c = c.isUpper := by
    simp only [isUp, Char.isUpper, UInt32.le_iff_toNat_le, ge_iff_le, Bool.decide_and]; rfl
  rw [isWord, h1, h2, isDig_eq, Char.isAlphanum, Char.isAlpha]
  cases c.isLower <;> cases c.isUpper <;> cases c.isDigit <;> cases (c == '_') <;> rfl

theorem upChar_eq (c : Char) : upChar c = c.toUpper := by
  by_cases h : 97 ≤ c.toNat ∧ c.toNat ≤ 122
  · have key : ∀ n, n < 123 → 97 ≤ n → upChar (Char.ofNat n) = (Char.ofNat n).toUpper := by decide
    have := key c.toNat (by omega) h.1
    rwa [Char.ofNat_toNat] at this
  · have h1 : isLow c = false := by
      simp only [isLow, Bool.and_eq_false_iff, decide_eq_false_iff_not]
      change ¬ 97 ≤ c.toNat ∨ ¬ c.toNat ≤ 122
      omega
    have h2 : ¬ ('a'.val ≤ c.val ∧ c.val ≤ 'z'.val) := by
      simp only [UInt32.le_iff_toNat_le]
      exact h
    rw [upChar, h1, Char.toUpper, dif_neg h2]
    rfl

/-- Upper case is ASCII upper case. -/
theorem upper_eq (l : List Char) : upper l = l.map Char.toUpper := by
  simp [upper, upChar_eq]

/-- The decimal numeral of `n` is read as `n`. -/
theorem numberOf_toDigits (n : Nat) : numberOf (Nat.toDigits 10 n) = n := by
  induction n using Nat.strongRecOn with
  | ind n ih =>
    have hd : ∀ d, d < 10 → numberOf [Nat.digitChar d] = d := by decide
    by_cases h : n < 10
    · rw [Nat.toDigits_of_lt_base h]
      exact hd n h
    · have := Nat.toDigits_append_toDigits (b := 10) (n := n / 10) (d := n % 10) (by omega) (by omega) (by omega)
      rw [show 10 * (n / 10) + n % 10 = n by omega, Nat.toDigits_of_lt_base (show n % 10 < 10 by omega)] at this
      rw [← this]
      simp only [numberOf, List.foldl_append, List.foldl_cons, List.foldl_nil]
      have h1 := ih (n / 10) (by omega)
      have h2 := hd (n % 10) (by omega)
      simp only [numberOf, List.foldl_cons, List.foldl_nil] at h1 h2
      omega

/-- Leading zeros do not matter. -/
theorem numberOf_zero (ds : List Char) : numberOf ('0' :: ds) = numberOf ds := rfl

/-- With every single quote doubled, the text of a string literal is read back. -/
theorem unquote_doubled (text : List Char) : unquote (text.flatMap fun c => if c = '\'' then [c, c] else [c]) = text := by
  induction text with
  | nil => rfl
  | cons c r ih =>
    by_cases hc : c = '\''
    · subst hc
      simp [unquote, ih]
    · simp only [List.flatMap_cons, hc, if_false, List.singleton_append]
      cases h : r.flatMap fun c => if c = '\'' then [c, c] else [c] with
      | nil => rw [h] at ih; simp [unquote] at ih ⊢; exact ih
      | cons d r' => rw [h] at ih; rw [unquote, if_neg hc, ih]

end SqlParse
