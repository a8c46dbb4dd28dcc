import Verif.Spec.GrammarScript
import Verif.Proofs.Copy
import Verif.Proofs.Stream
import Verif.Theorems.Written
/-! Reading tokens and data by the lexer, as the text is laid out. -/
namespace SqlParse

/-- The position of the lexer is where the rest of the text begins. -/
def Lexer.Fine (lx : Lexer) : Prop := ∃ q, lx.src = q ++ lx.rest ∧ lx.pos = blen q

/-- `read_from_stdin` where there is data. -/
theorem readStdin_of {pre past rest lead d : List Char} (h : CopyData (past ++ rest) lead d rest) :
    (⟨pre ++ (past ++ rest), blen pre, past ++ rest⟩ : Lexer).readStdin =
      some (d, ⟨blen pre + blen lead, blen pre + blen lead + blen d⟩, ⟨pre ++ (past ++ rest), blen pre + blen past, rest⟩) := by
  obtain ⟨d', sp', ⟨src', pos', rest'⟩, h1, h2, h3, -⟩ := readStdin_ok (lx := ⟨pre ++ (past ++ rest), blen pre, past ++ rest⟩) ⟨pre, rfl, rfl⟩
  obtain ⟨lead', h4, h5⟩ := readStdin_data pre rfl rfl h1
  obtain ⟨rfl, rfl, h6⟩ := copyData_unique h4 h
  simp only at h6 h3
  subst h6 h3
  obtain ⟨q, h7, h8⟩ := h2
  rw [h1, h5]
  have : blen (pre ++ (past ++ rest')) = blen (q ++ rest') := by rw [← h7]
  simp only [blen_append] at this
  have : pos' = blen pre + blen past := by simp only at h8; omega
  rw [this]

/-- Reading the data where it is laid out. -/
theorem gap_after {data : Data} {p : Tk} {pre l l' : List Char} {o' : Nat} (h : Gap data p (blen pre) l o' l') :
    ∃ pre', pre ++ l = pre' ++ l' ∧ o' = blen pre' ∧ After data p ⟨pre ++ l, blen pre, l⟩ ⟨pre' ++ l', blen pre', l'⟩ := by
  generalize ho : blen pre = o at h
  cases h with
  | none _ h => exact ⟨pre, rfl, ho.symm, by subst ho; simp [After, h]⟩
  | data past _ lead d h hd =>
    subst ho
    refine ⟨pre ++ past, by simp, by simp, ?_⟩
    have := readStdin_of (pre := pre) hd
    rw [After, h]
    simpa using this

/-- Data that is read is laid out. -/
theorem after_gap {data : Data} {p : Tk} {lx lx1 : Lexer} (hl : lx.Fine) (h : After data p lx lx1) :
    lx1.Fine ∧ Gap data p lx.pos lx.rest lx1.pos lx1.rest := by
  unfold After at h
  cases hd : data.after p with
  | none =>
    rw [hd] at h
    simp only at h
    subst h
    exact ⟨hl, .none _ _ hd⟩
  | some x =>
    obtain ⟨d, sp⟩ := x
    rw [hd] at h
    simp only at h
    obtain ⟨d0, sp0, lx0, h0, h1, h2, -⟩ := readStdin_ok hl
    rw [h] at h0
    cases h0
    refine ⟨h1, ?_⟩
    obtain ⟨src, pos, rest⟩ := lx
    obtain ⟨pre, g1, g2⟩ := hl
    simp only at g1 g2 h2
    subst g1 g2
    obtain ⟨lead, k1, rfl⟩ := readStdin_data pre rfl rfl h
    obtain ⟨past, hp⟩ : ∃ past, rest = past ++ lx1.rest := by
      obtain ⟨b, nl, tail, -, e, -, -, -, e2⟩ := id k1
      simp only at e
      rcases e2 with ⟨-, e3, -⟩ | ⟨-, e3, -⟩
      · rcases e3 with e3 | ⟨e3, e4⟩
        · exact ⟨b ++ (nl ++ d ++ ['\\', '.', '\n']), by rw [e, e3]; simp⟩
        · exact ⟨rest, by rw [e4]; simp⟩
      · exact ⟨rest, by rw [e3]; simp⟩
    obtain ⟨q, m1, m2⟩ := h1
    rw [h2, hp, ← List.append_assoc] at m1
    have := List.append_cancel_right m1
    subst this
    have m3 : lx1.pos = blen pre + blen past := by rw [m2]; simp
    simp only at k1 ⊢
    have := Gap.data (data := data) (p := p) (blen pre) past lx1.rest lead d hd (by rw [← hp]; exact k1)
    rw [← hp, ← m3] at this
    exact this

/-- A token that is read is laid out. -/
theorem next_laid {chk : Bool} {lx lx' : Lexer} {t : Token} {sp : Span} (hl : lx.Fine) (h : lx.nextToken chk = .ok t sp lx') :
    lx'.Fine ∧ ∃ u w, lx.rest = u ++ (w ++ lx'.rest) ∧ Skipped u (w ++ lx'.rest) ∧ ReadsAs chk t w lx'.rest ∧
      sp = ⟨lx.pos + blen u, lx.pos + blen u + blen w⟩ ∧ lx'.pos = lx.pos + blen u + blen w := by
  obtain ⟨src, pos, rest⟩ := lx
  obtain ⟨pre, g1, g2⟩ := hl
  simp only at g1 g2
  subst g1 g2
  obtain ⟨u, w, k1, k2, k3, -, k5, k6, k7⟩ := (nextToken_reads_iff chk pre rest t sp lx').1 h
  obtain ⟨src', pos', rest'⟩ := lx'
  simp only at k1 k2 k3 k6 k7 ⊢
  subst k1 k5 k7 k6
  exact ⟨⟨pre ++ (u ++ w), by simp, by simp; omega⟩, u, w, rfl, k2, k3, rfl, rfl⟩

theorem laid_next {chk : Bool} {data : Data} {lx lx' lx1 : Lexer} {t : Token} {sp : Span} {ts : List Tk} (hl : lx.Fine)
    (h : lx.nextToken chk = .ok t sp lx') (h2 : t ≠ .eof) (ha : After data (t, sp) lx' lx1) :
    lx1.Fine ∧ (Laid chk data lx1.pos lx1.rest ts → Laid chk data lx.pos lx.rest ((t, sp) :: ts)) := by
  obtain ⟨k0, u, w, k1, k2, k3, rfl, k5⟩ := next_laid hl h
  obtain ⟨m1, m2⟩ := after_gap k0 ha
  refine ⟨m1, fun hh => ?_⟩
  rw [k5] at m2
  rw [k1]
  exact .tok _ _ u w _ _ t _ h2 k2 k3 m2 hh

theorem laid_last {chk : Bool} {data : Data} {lx lx' : Lexer} {sp : Span} (hl : lx.Fine) (h : lx.nextToken chk = .ok .eof sp lx') :
    Laid chk data lx.pos lx.rest [(.eof, sp)] := by
  obtain ⟨k0, u, w, k1, k2, k3, rfl, k5⟩ := next_laid hl h
  obtain ⟨rfl, k8⟩ := reads_eof k3
  rw [k8] at k1 k2
  simp at k1 k2
  rw [k1]
  simpa using Laid.eof (checked := chk) (data := data) lx.pos u k2

/-- Fed to the parser is what is laid out. -/
theorem feed_laid {chk : Bool} {data : Data} {p : Tk} {lx : Lexer} {ts : List Tk} (h : Feed chk data p lx ts) (hl : lx.Fine) :
    ∃ lx1, After data p lx lx1 ∧ lx1.Fine ∧ Laid chk data lx1.pos lx1.rest ts := by
  induction h with
  | eof ha h => exact ⟨_, ha, (after_gap hl ha).1, laid_last (after_gap hl ha).1 h⟩
  | cons ha ht h hf ih =>
    obtain ⟨lx1, g1, g2, g3⟩ := ih (next_laid (after_gap hl ha).1 h).1
    exact ⟨_, ha, (after_gap hl ha).1, (laid_next (after_gap hl ha).1 h ht g1).2 g3⟩

/-- What is laid out is fed to the parser. -/
theorem laid_feed {chk : Bool} {data : Data} {o : Nat} {l : List Char} {ts : List Tk} (h : Laid chk data o l ts) (pre : List Char)
    (ho : o = blen pre) (p : Tk) (lx : Lexer) (ha : After data p lx ⟨pre ++ l, o, l⟩) : Feed chk data p lx ts := by
  induction h generalizing pre p lx with
  | eof o u h =>
    subst ho
    have hf : Fits chk .eof [] [] := ⟨by simp, ⟨rfl, rfl⟩, by simp [NotHead]⟩
    have := nextToken_fits chk pre u [] [] .eof h hf
    simp at this
    exact .eof ha this
  | tok o o' u w rest rest' t toks ht hs hf hg h ih =>
    subst ho
    have h1 := nextToken_reads chk pre u w rest t hs hf
    have hp : blen pre + blen u + blen w = blen (pre ++ (u ++ w)) := by simp; omega
    rw [hp] at hg
    obtain ⟨pre', k1, k2, k3⟩ := gap_after hg
    refine .cons ha ht h1 (ih pre' k2 _ _ ?_)
    rw [← k2] at k3
    simpa [Nat.add_assoc] using k3

/-- The lexer reads the tokens and the data, up to the end. -/
def layTest (chk : Bool) (data : Data) : Lexer → List Tk → Bool
  | _, [] => false
  | lx, (t, sp) :: ts =>
    match lx.nextToken chk with
    | .panic _ => false
    | .ok t' sp' lx' => t == t' && sp == sp' &&
      (if t = .eof then ts.isEmpty
      else match data.after (t, sp) with
        | none => layTest chk data lx' ts
        | some (d, dsp) =>
          match lx'.readStdin with
          | some (d', dsp', lx1) => d == d' && dsp == dsp' && layTest chk data lx1 ts
          | none => false)

theorem laid_test {chk : Bool} {data : Data} {lx : Lexer} {ts : List Tk} (hl : lx.Fine) (h : layTest chk data lx ts = true) :
    Laid chk data lx.pos lx.rest ts := by
  induction ts generalizing lx with
  | nil => cases h
  | cons p ts ih =>
    obtain ⟨t, sp⟩ := p
    unfold layTest at h
    split at h
    · cases h
    · next t' sp' lx' he =>
      simp only [Bool.and_eq_true, beq_iff_eq] at h
      obtain ⟨⟨rfl, rfl⟩, h⟩ := h
      by_cases h2 : t = .eof
      · subst h2
        simp at h
        subst h
        exact laid_last hl he
      · rw [if_neg h2] at h
        cases hd : data.after (t, sp) with
        | none =>
          rw [hd] at h
          have := laid_next (data := data) (lx1 := lx') (ts := ts) hl he h2 (by simp [After, hd])
          exact this.2 (ih this.1 h)
        | some x =>
          obtain ⟨d, dsp⟩ := x
          rw [hd] at h
          simp only at h
          split at h
          · next d' dsp' lx1 hr =>
            simp only [Bool.and_eq_true, beq_iff_eq] at h
            obtain ⟨⟨rfl, rfl⟩, h⟩ := h
            have := laid_next (data := data) (lx1 := lx1) (ts := ts) hl he h2 (by simp [After, hd, hr])
            exact this.2 (ih this.1 h)
          · cases h

end SqlParse
