import Verif.Token
/-! Facts about keywords. -/
namespace SqlParse

/-- A keyword proper, no mere identifier. -/
def Keyword.isWord (k : Keyword) : Bool := !(decide (k = .NOT_A_KEYWORD) || decide (k = .QUOTED_IDENTIFIER))

theorem isWord_ne {k : Keyword} (h : k.isWord = true) : k ≠ .NOT_A_KEYWORD ∧ k ≠ .QUOTED_IDENTIFIER := by
  constructor
  · rintro rfl; exact absurd h (by decide)
  · rintro rfl; exact absurd h (by decide)

theorem kwSearch_ne (w : List Char) (l : List (List Char)) (i : Nat) (hi : 2 ≤ i) : kwSearch w l i ≠ Keyword.QUOTED_IDENTIFIER := by
  induction l generalizing i with
  | nil => simp only [kwSearch]; decide
  | cons n ns ih =>
    simp only [kwSearch]
    split
    · intro h
      injection h with h
      omega
    · exact ih _ (by omega)

theorem ofStr_ne_quoted (w : List Char) : Keyword.ofStr w ≠ .QUOTED_IDENTIFIER := kwSearch_ne w _ _ (Nat.le_refl 2)

theorem isWord_of {t : Token} {a b : Keyword} (h : (t.isKw a || t.isKw b) = true) (ha : a.isWord = true) (hb : b.isWord = true) :
    t.kw.isWord = true := by
  rw [Bool.or_eq_true] at h
  rcases h with h | h
  · cases t <;> simp_all [Token.isKw, Token.kw]
  · cases t <;> simp_all [Token.isKw, Token.kw]

end SqlParse
