import Verif.Text
/-! Facts about texts and slices. -/
namespace SqlParse

theorem utf8Size_pos (c : Char) : 0 < c.utf8Size := Char.utf8Size_pos c

@[simp] theorem blen_nil : blen [] = 0 := rfl
@[simp] theorem blen_cons (c : Char) (l : List Char) : blen (c :: l) = c.utf8Size + blen l := rfl

@[simp] theorem blen_append (a b : List Char) : blen (a ++ b) = blen a + blen b := by
  induction a with
  | nil => simp
  | cons c a ih => simp [ih]; omega

theorem blen_eq_zero {l : List Char} : blen l = 0 ↔ l = [] := by
  cases l with
  | nil => simp
  | cons c l => have := utf8Size_pos c; simp; omega

theorem length_le_blen (l : List Char) : l.length ≤ blen l := by
  induction l with
  | nil => simp
  | cons c l ih => have := utf8Size_pos c; simp; omega

theorem blen_pos_of_ne {l : List Char} (h : l ≠ []) : 0 < blen l := by
  rcases Nat.eq_zero_or_pos (blen l) with h' | h'
  · exact absurd (blen_eq_zero.1 h') h
  · exact h'

@[simp] theorem dropBytes_zero (l : List Char) : dropBytes l 0 = some l := by
  cases l <;> rfl
@[simp] theorem takeBytes_zero (l : List Char) : takeBytes l 0 = some [] := by
  cases l <;> rfl

theorem dropBytes_cons (c : Char) (l : List Char) (n : Nat) :
    dropBytes (c :: l) (c.utf8Size + n) = dropBytes l n := by
  have := utf8Size_pos c
  obtain ⟨m, hm⟩ : ∃ m, c.utf8Size + n = m + 1 := ⟨c.utf8Size + n - 1, by omega⟩
  rw [hm]
  simp only [dropBytes]
  rw [if_pos (by omega)]
  congr 1; omega

theorem takeBytes_cons (c : Char) (l : List Char) (n : Nat) :
    takeBytes (c :: l) (c.utf8Size + n) = (takeBytes l n).map (c :: ·) := by
  have := utf8Size_pos c
  obtain ⟨m, hm⟩ : ∃ m, c.utf8Size + n = m + 1 := ⟨c.utf8Size + n - 1, by omega⟩
  rw [hm]
  simp only [takeBytes]
  rw [if_pos (by omega)]
  congr 2; omega

theorem dropBytes_append (a b : List Char) : dropBytes (a ++ b) (blen a) = some b := by
  induction a with
  | nil => simp
  | cons c a ih => simpa using (dropBytes_cons c (a ++ b) (blen a)).trans ih

theorem takeBytes_append (a b : List Char) : takeBytes (a ++ b) (blen a) = some a := by
  induction a with
  | nil => simp
  | cons c a ih =>
    have := takeBytes_cons c (a ++ b) (blen a)
    simp [ih] at this
    simpa using this

theorem dropBytes_eq {l r : List Char} {n : Nat} (h : dropBytes l n = some r) :
    ∃ a, l = a ++ r ∧ n = blen a := by
  induction l generalizing n with
  | nil =>
    cases n with
    | zero => simp at h; exact ⟨[], by simp [h], rfl⟩
    | succ n => simp [dropBytes] at h
  | cons c l ih =>
    cases n with
    | zero => simp at h; exact ⟨[], by simp [h], rfl⟩
    | succ n =>
      simp only [dropBytes] at h
      split at h
      · obtain ⟨a, h1, h2⟩ := ih h
        exact ⟨c :: a, by simp [h1], by simp; omega⟩
      · simp at h

theorem takeBytes_eq {l r : List Char} {n : Nat} (h : takeBytes l n = some r) :
    ∃ b, l = r ++ b ∧ n = blen r := by
  induction l generalizing n r with
  | nil =>
    cases n with
    | zero => simp at h; subst h; exact ⟨[], rfl, rfl⟩
    | succ n => simp [takeBytes] at h
  | cons c l ih =>
    cases n with
    | zero => simp at h; subst h; exact ⟨c :: l, rfl, rfl⟩
    | succ n =>
      simp only [takeBytes] at h
      split at h
      · cases ht : takeBytes l (n + 1 - c.utf8Size) with
        | none => simp [ht] at h
        | some q =>
          simp [ht] at h
          obtain ⟨b, h1, h2⟩ := ih ht
          exact ⟨b, by simp [← h, h1], by simp [← h]; omega⟩
      · simp at h

/-- A slice of a text split in three. -/
theorem slice_mid (a m b : List Char) : slice (a ++ (m ++ b)) (blen a) (blen a + blen m) = some m := by
  unfold slice
  rw [if_pos (by omega), dropBytes_append]
  simp [takeBytes_append]

theorem slice_eq {src m : List Char} {i j : Nat} (h : slice src i j = some m) :
    ∃ a b, src = a ++ (m ++ b) ∧ i = blen a ∧ j = blen a + blen m := by
  unfold slice at h
  split at h
  · cases hd : dropBytes src i with
    | none => simp [hd] at h
    | some r =>
      simp [hd] at h
      obtain ⟨a, h1, h2⟩ := dropBytes_eq hd
      obtain ⟨b, h3, h4⟩ := takeBytes_eq h
      exact ⟨a, b, by rw [h1, h3], h2, by omega⟩
  · simp at h

/-- `n` is the offset of a character boundary of `src` (or its end). -/
def Boundary (src : List Char) (n : Nat) : Prop := ∃ a b, src = a ++ b ∧ n = blen a

theorem boundary_zero (src : List Char) : Boundary src 0 := ⟨[], src, rfl, rfl⟩
theorem boundary_end (src : List Char) : Boundary src (blen src) := ⟨src, [], by simp, rfl⟩
theorem Boundary.le {src : List Char} {n : Nat} (h : Boundary src n) : n ≤ blen src := by
  obtain ⟨a, b, h1, h2⟩ := h
  subst h1; simp; omega

/-- Prefixes of a text are determined by their byte length. -/
theorem prefix_le {a b c d : List Char} (h : a ++ b = c ++ d) (hl : blen a ≤ blen c) :
    ∃ m, c = a ++ m := by
  induction a generalizing c with
  | nil => exact ⟨c, by simp⟩
  | cons x a ih =>
    cases c with
    | nil => have := utf8Size_pos x; simp at hl; omega
    | cons y c =>
      simp at h hl
      obtain ⟨h1, h2⟩ := h
      subst h1
      obtain ⟨m, hm⟩ := ih h2 (by omega)
      exact ⟨m, by simp [hm]⟩

theorem slice_isSome {src : List Char} {i j : Nat} (hi : Boundary src i) (hj : Boundary src j) (h : i ≤ j) :
    ∃ m, slice src i j = some m := by
  obtain ⟨a, b, h1, h2⟩ := hi
  obtain ⟨c, d, h3, h4⟩ := hj
  obtain ⟨m, hm⟩ := prefix_le (h1.symm.trans h3) (by omega)
  refine ⟨m, ?_⟩
  subst h2 h4 hm
  have := slice_mid a m d
  rw [h3]
  simpa using this

theorem slice_isSome_iff {src : List Char} {i j : Nat} :
    (∃ m, slice src i j = some m) ↔ Boundary src i ∧ Boundary src j ∧ i ≤ j := by
  constructor
  · rintro ⟨m, h⟩
    obtain ⟨a, b, h1, h2, h3⟩ := slice_eq h
    exact ⟨⟨a, m ++ b, h1, h2⟩, ⟨a ++ m, b, by simp [h1], by simp [h3]⟩, by omega⟩
  · rintro ⟨h1, h2, h3⟩
    exact slice_isSome h1 h2 h3

end SqlParse
