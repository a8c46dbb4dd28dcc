import Verif.Model.Identifier
/-! C21: identifiers compare by value only. -/
namespace SqlParse

/-- Specification: dictionary order of texts, by the numbers (code points) of their characters. -/
def dictCmp : List Char → List Char → Ordering
  | [], [] => .eq
  | [], _ :: _ => .lt
  | _ :: _, [] => .gt
  | a :: as, b :: bs => if a.toNat < b.toNat then .lt else if b.toNat < a.toNat then .gt else dictCmp as bs

theorem enc_cases (c : Char) : let v := c.toNat
    (v ≤ 0x7f ∧ (String.utf8EncodeChar c).map UInt8.toNat = [v]) ∨
    (0x7f < v ∧ v ≤ 0x7ff ∧ (String.utf8EncodeChar c).map UInt8.toNat = [v / 64 + 0xc0, v % 64 + 0x80]) ∨
    (0x7ff < v ∧ v ≤ 0xffff ∧ (String.utf8EncodeChar c).map UInt8.toNat = [v / 4096 + 0xe0, v / 64 % 64 + 0x80, v % 64 + 0x80]) ∨
    (0xffff < v ∧ v < 0x110000 ∧ (String.utf8EncodeChar c).map UInt8.toNat =
      [v / 262144 + 0xf0, v / 4096 % 64 + 0x80, v / 64 % 64 + 0x80, v % 64 + 0x80]) := by
  intro v
  have hv : v < 0x110000 := by
    have := c.valid
    rcases this with h | h
    · have : v < 0xd800 := h; omega
    · exact h.2
  have hdef : c.val.toNat = v := rfl
  unfold String.utf8EncodeChar
  simp only [hdef]
  by_cases h1 : v ≤ 0x7f
  · left
    rw [if_pos h1]
    refine ⟨h1, ?_⟩
    simp only [List.map_cons, List.map_nil, UInt8.toNat_ofNat']
    congr 1; omega
  · rw [if_neg h1]
    by_cases h2 : v ≤ 0x7ff
    · right; left
      rw [if_pos h2]
      refine ⟨by omega, h2, ?_⟩
      simp only [List.map_cons, List.map_nil, UInt8.toNat_ofNat']
      congr 1
      · omega
      · congr 1; omega
    · rw [if_neg h2]
      by_cases h3 : v ≤ 0xffff
      · right; right; left
        rw [if_pos h3]
        refine ⟨by omega, h3, ?_⟩
        simp only [List.map_cons, List.map_nil, UInt8.toNat_ofNat']
        congr 1
        · omega
        · congr 1
          · omega
          · congr 1; omega
      · right; right; right
        rw [if_neg h3]
        refine ⟨by omega, hv, ?_⟩
        simp only [List.map_cons, List.map_nil, UInt8.toNat_ofNat']
        congr 1
        · omega
        · congr 1
          · omega
          · congr 1
            · omega
            · congr 1; omega

theorem cmpBytes_same (x : List Nat) (a b : List Nat) : cmpBytes (x ++ a) (x ++ b) = cmpBytes a b := by
  induction x with
  | nil => rfl
  | cons c x ih => simp [cmpBytes, ih]

theorem cmpBytes_lt {c d : Char} (h : c.toNat < d.toNat) (a b : List Nat) :
    cmpBytes ((String.utf8EncodeChar c).map UInt8.toNat ++ a) ((String.utf8EncodeChar d).map UInt8.toNat ++ b) = .lt := by
  have h1 := enc_cases c
  have h2 := enc_cases d
  simp only at h1 h2
  generalize c.toNat = v at *
  generalize d.toNat = w at *
  rcases h1 with ⟨h1, e1⟩ | ⟨h1, h1', e1⟩ | ⟨h1, h1', e1⟩ | ⟨h1, h1', e1⟩ <;>
    rcases h2 with ⟨h2, e2⟩ | ⟨h2, h2', e2⟩ | ⟨h2, h2', e2⟩ | ⟨h2, h2', e2⟩ <;>
    rw [e1, e2] <;> simp only [List.cons_append, List.nil_append, cmpBytes] <;> repeat' split
  all_goals first | rfl | (exfalso; omega)

theorem cmpBytes_swap (a b : List Nat) : cmpBytes b a = (cmpBytes a b).swap := by
  induction a generalizing b with
  | nil => cases b <;> rfl
  | cons x a ih =>
    cases b with
    | nil => rfl
    | cons y b =>
      simp only [cmpBytes]
      by_cases h1 : x < y
      · simp [h1, show ¬ y < x by omega]
      · by_cases h2 : y < x
        · simp [h1, h2]
        · simp [h1, h2, ih]

/-- The order of the bytes is the order of the characters. -/
theorem strCmp_dict (a b : List Char) : strCmp a b = dictCmp a b := by
  induction a generalizing b with
  | nil =>
    cases b with
    | nil => rfl
    | cons d b =>
      have := enc_cases d
      rcases this with ⟨_, e⟩ | ⟨_, _, e⟩ | ⟨_, _, e⟩ | ⟨_, _, e⟩ <;> simp [strCmp, strBytes, cmpBytes, dictCmp, e]
  | cons c a ih =>
    cases b with
    | nil =>
      have := enc_cases c
      rcases this with ⟨_, e⟩ | ⟨_, _, e⟩ | ⟨_, _, e⟩ | ⟨_, _, e⟩ <;> simp [strCmp, strBytes, cmpBytes, dictCmp, e]
    | cons d b =>
      simp only [strCmp, strBytes, List.flatMap_cons, dictCmp]
      by_cases h1 : c.toNat < d.toNat
      · rw [cmpBytes_lt h1, if_pos h1]
      · by_cases h2 : d.toNat < c.toNat
        · rw [cmpBytes_swap, cmpBytes_lt h2, if_neg h1, if_pos h2]; rfl
        · have : c = d := Char.toNat_inj.1 (by omega)
          subst this
          rw [cmpBytes_same, if_neg h1, if_neg h1]
          exact ih b

theorem dictCmp_eq {a b : List Char} : dictCmp a b = .eq ↔ a = b := by
  induction a generalizing b with
  | nil => cases b <;> simp [dictCmp]
  | cons c a ih =>
    cases b with
    | nil => simp [dictCmp]
    | cons d b =>
      simp only [dictCmp]
      by_cases h1 : c.toNat < d.toNat
      · simp [h1]; rintro rfl; omega
      · by_cases h2 : d.toNat < c.toNat
        · simp [h1, h2]; rintro rfl; omega
        · have : c = d := Char.toNat_inj.1 (by omega)
          simp [ih, this]

theorem dictCmp_trans {a b c : List Char} (h1 : dictCmp a b = .lt) (h2 : dictCmp b c = .lt) : dictCmp a c = .lt := by
  induction a generalizing b c with
  | nil =>
    cases c with
    | nil => cases b <;> simp [dictCmp] at h2
    | cons => rfl
  | cons x a ih =>
    cases b with
    | nil => simp [dictCmp] at h1
    | cons y b =>
      cases c with
      | nil => simp [dictCmp] at h2
      | cons z c =>
        simp only [dictCmp] at *
        by_cases g1 : x.toNat < y.toNat
        · by_cases g2 : y.toNat < z.toNat
          · rw [if_pos (by omega)]
          · rw [if_neg g2] at h2
            by_cases g3 : z.toNat < y.toNat
            · rw [if_pos g3] at h2; cases h2
            · rw [if_pos (by omega)]
        · rw [if_neg g1] at h1
          by_cases g3 : y.toNat < x.toNat
          · rw [if_pos g3] at h1; cases h1
          · rw [if_neg g3] at h1
            by_cases g2 : y.toNat < z.toNat
            · rw [if_pos (by omega)]
            · rw [if_neg g2] at h2
              by_cases g4 : z.toNat < y.toNat
              · rw [if_pos g4] at h2; cases h2
              · rw [if_neg g4] at h2
                rw [if_neg (by omega), if_neg (by omega)]
                exact ih h1 h2

/-- **C21** (equality): identifiers are equal iff they have the same text, wherever they are. -/
theorem C21_eq (v w : List Char) (sp sp' : Span) : (Identifier.new v sp).eq (Identifier.new w sp') = true ↔ v = w := by
  simp only [Identifier.eq, Identifier.new, strEq]
  constructor
  · intro h
    replace h := of_decide_eq_true h
    have : strCmp v w = .eq := by
      unfold strCmp; rw [h]
      have := cmpBytes_same (strBytes w) [] []
      simpa [cmpBytes] using this
    rw [strCmp_dict] at this
    exact dictCmp_eq.1 this
  · rintro rfl; exact decide_eq_true rfl

/-- **C21** (order): identifiers are ordered as their texts are, by dictionary order; spans do not matter; lookup
through `Borrow<str>` uses the same order. -/
theorem C21_cmp (v w : List Char) (sp sp' : Span) :
    (Identifier.new v sp).cmp (Identifier.new w sp') = dictCmp v w ∧
    (Identifier.new v sp).partialCmp (Identifier.new w sp') = some (dictCmp v w) ∧
    strCmp (Identifier.new v sp).asStr (Identifier.new w sp').asStr = dictCmp v w :=
  ⟨strCmp_dict v w, congrArg some (strCmp_dict v w), strCmp_dict v w⟩

/-- **C21** (laws): `cmp` is a total order, consistent with equality. -/
theorem C21_order (a b c : Identifier) :
    (a.cmp b = .eq ↔ a.eq b = true) ∧ b.cmp a = (a.cmp b).swap ∧
    (a.cmp b = .lt → b.cmp c = .lt → a.cmp c = .lt) ∧ (a.eq b = true → a.cmp c = b.cmp c) ∧
    a.eq a = true ∧ (a.eq b = b.eq a) ∧ (a.eq b = true → b.eq c = true → a.eq c = true) := by
  have heq : ∀ a b : Identifier, a.eq b = true ↔ a.value = b.value := fun a b => C21_eq a.value b.value a.span b.span
  refine ⟨?_, cmpBytes_swap _ _, ?_, ?_, ?_, ?_, ?_⟩
  · rw [heq]; unfold Identifier.cmp; rw [strCmp_dict]; exact dictCmp_eq
  · unfold Identifier.cmp; rw [strCmp_dict, strCmp_dict, strCmp_dict]; exact dictCmp_trans
  · intro h; rw [heq] at h; unfold Identifier.cmp; rw [h]
  · rw [heq]
  · rw [Bool.eq_iff_iff, heq, heq]; exact eq_comm
  · intro h1 h2; rw [heq] at *; exact h1.trans h2

/-- Two identifiers at different places, and a non-ASCII pair whose order is that of the code points. -/
example : (Identifier.new c!"aé" ⟨3, 6⟩).eq (Identifier.new c!"aé" ⟨8, 11⟩) = true ∧
    (Identifier.new c!"aé" ⟨3, 6⟩).cmp (Identifier.new c!"a￿" ⟨0, 4⟩) = .lt ∧
    (Identifier.new c!"😀" ⟨3, 6⟩).cmp (Identifier.new c!"￿" ⟨0, 4⟩) = .gt := by
  refine ⟨?_, ?_, ?_⟩ <;> decide +kernel

end SqlParse
