import Verif.Proofs.Junk
/-! C37: what a source is made of. -/
namespace SqlParse

theorem written_lexN {chk : Bool} {o : Nat} {l : List Char} {toks : List (Token × Span)} (h : Written chk o l toks)
    (pre : List Char) (ho : o = blen pre) :
    lexN chk (toks.length + 1) ⟨pre ++ l, o, l⟩ =
      some (toks ++ [(.eof, ⟨blen (pre ++ l), blen (pre ++ l)⟩)], ⟨pre ++ l, blen (pre ++ l), []⟩) := by
  induction h generalizing pre with
  | nil o u h =>
    subst ho
    have hf : Fits chk .eof [] [] := ⟨by simp, ⟨rfl, rfl⟩, by simp [NotHead]⟩
    have := nextToken_fits chk pre u [] [] .eof h hf
    simp at this
    simp [lexN, this]
  | cons o u w rest t toks ht hs hf h ih =>
    subst ho
    have := nextToken_reads chk pre u w rest t hs hf
    have ih := ih (pre ++ (u ++ w)) (by simp; omega)
    simp only [List.append_assoc] at ih
    simp only [List.length_cons, lexN] at ih ⊢
    rw [this]
    simp only
    rw [ih]
    simp

theorem lexN_written {chk : Bool} {toks : List (Token × Span)} {pre l : List Char} {sp : Span} {lx : Lexer}
    (h : lexN chk (toks.length + 1) ⟨pre ++ l, blen pre, l⟩ = some (toks ++ [(.eof, sp)], lx))
    (hi : ∀ p ∈ toks, p.1 ≠ .eof) : Written chk (blen pre) l toks := by
  induction toks generalizing pre l with
  | nil =>
    simp only [List.length_nil, lexN] at h
    split at h
    · simp at h
    · next t sp' lx' heq =>
      simp at h
      obtain ⟨⟨rfl, rfl⟩, rfl⟩ := h
      obtain ⟨u, w, h1, h2, h3, h4, -⟩ := (nextToken_iff chk pre l _ _ _ (by simp)).1 heq
      obtain ⟨rfl, -⟩ := h3.2.1
      rw [h4 rfl] at h1 h2
      simp at h1; subst h1
      exact .nil _ _ h2
  | cons p toks ih =>
    simp only [List.length_cons] at h
    unfold lexN at h
    split at h
    · simp at h
    · next t sp' lx' heq =>
      cases hr : lexN chk (toks.length + 1) lx' with
      | none => simp [hr] at h
      | some r =>
        simp [hr] at h
        obtain ⟨⟨rfl, hr1⟩, hr2⟩ := h
        have hp := hi (t, sp') (by simp)
        obtain ⟨u, w, h1, h2, h3, h4, h5, h6, h7⟩ := (nextToken_reads_iff chk pre l _ _ _).1 heq
        obtain ⟨src, pos, rest⟩ := lx'
        simp only at h1 h2 h3 h6 h7
        subst h1 h5 h6 h7
        refine .cons _ u w rest t toks hp h2 h3 ?_
        have := ih (pre := pre ++ (u ++ w)) (l := rest) (by
          have e : r = (toks ++ [(Token.eof, sp)], lx) := by rw [← hr1, ← hr2]
          rw [← e, ← hr]; simp [Nat.add_assoc]) (fun p hp => hi p (by simp [hp]))
        simpa [Nat.add_assoc] using this

/-- **C37**: a source that is written token by token - each token in one of its forms, at its span, not
running into the next one, with blanks and comments anywhere between them - is read as exactly these tokens
followed by the end of file; and every source that is read at all is written in this way.  (Text that is not a token - a stray character, a
string or a comment that is not closed, .. - is read as an invalid token: `Junk`.) -/
theorem C37_written_iff (chk : Bool) (src : List Char) (toks : List (Token × Span))
    (hi : ∀ p ∈ toks, p.1 ≠ .eof) :
    Written chk 0 src toks ↔
      ∃ lx, lexN chk (toks.length + 1) (Lexer.new src) = some (toks ++ [(.eof, ⟨blen src, blen src⟩)], lx) := by
  constructor
  · intro h
    have := written_lexN h [] rfl
    simp at this
    exact ⟨_, this⟩
  · rintro ⟨lx, h⟩
    have := lexN_written (pre := []) (l := src) (by simpa [Lexer.new] using h) hi
    simpa using this

/-- The two things that make the lexer panic: `x'` (a hexadecimal literal), and a `$` with a number that is too large. -/
def Unlexable (chk : Bool) (l : List Char) : Prop :=
  (∃ c r, (c = 'x' ∨ c = 'X') ∧ l = c :: '\'' :: r) ∨
  (chk = true ∧ ∃ ds r, l = '$' :: (ds ++ r) ∧ (∀ c ∈ ds, isDig c = true) ∧ usizeMod ≤ numberOf ds)

theorem written_exists (chk : Bool) (pre l : List Char) (h : ∀ u r, l = u ++ r → ¬ Unlexable chk r) : ∃ toks, Written chk (blen pre) l toks := by
  generalize hk : l.length = k
  induction k using Nat.strongRecOn generalizing pre l with
  | ind k ih =>
    have hs := nextToken_spec chk (Lexer.mk (pre ++ l) (blen pre) l) pre rfl rfl
    cases hn : (Lexer.mk (pre ++ l) (blen pre) l).nextToken chk with
    | panic m =>
      rw [hn] at hs
      obtain ⟨ts, l', h1, -, h3⟩ := hs
      refine absurd ?_ (h ts l' h1)
      rcases h3 with h3 | h3
      · exact .inl h3.2
      · exact .inr h3.2
    | ok t sp lx =>
      obtain ⟨u, w, h1, h2, h3, h4, h5, h6, h7⟩ := (nextToken_reads_iff chk pre l t sp lx).1 hn
      obtain ⟨src, pos, rest⟩ := lx
      simp only at h1 h2 h3 h4 h6 h7
      by_cases ht : t = .eof
      · subst ht
        obtain ⟨rfl, rfl⟩ := reads_eof h3
        simp at h1
        subst h1
        exact ⟨[], .nil _ _ h2⟩
      · have hw : 0 < w.length := List.length_pos_iff.2 (reads_cons h3 ht)
        subst h1
        obtain ⟨toks, hh⟩ := ih rest.length (by rw [← hk]; simp; omega) (pre ++ (u ++ w)) rest
          (fun v r e => h (u ++ (w ++ v)) r (by rw [e]; simp)) rfl
        exact ⟨_, .cons _ u w rest t toks ht h2 h3 (by simpa [Nat.add_assoc] using hh)⟩

/-- What the lexer reads where a text is written. -/
theorem written_next {chk : Bool} {o : Nat} {l : List Char} {toks : List (Token × Span)} (h : Written chk o l toks) (pre : List Char)
    (ho : o = blen pre) :
    (toks = [] ∧ ∃ sp lx, (Lexer.mk (pre ++ l) o l).nextToken chk = .ok .eof sp lx) ∨
    ∃ t sp tl pre' l', toks = (t, sp) :: tl ∧ t ≠ .eof ∧ (Lexer.mk (pre ++ l) o l).nextToken chk = .ok t sp ⟨pre' ++ l', blen pre', l'⟩ ∧
      pre' ++ l' = pre ++ l ∧ Written chk (blen pre') l' tl := by
  subst ho
  cases h with
  | nil _ _ h =>
    have hf : Fits chk .eof [] [] := ⟨by simp, ⟨rfl, rfl⟩, by simp [NotHead]⟩
    have := nextToken_fits chk pre l [] [] .eof h hf
    simp at this
    exact .inl ⟨rfl, _, _, this⟩
  | cons _ u w rest t toks ht hs hf h =>
    refine .inr ⟨_, _, _, pre ++ (u ++ w), rest, rfl, ht, ?_, by simp, ?_⟩
    · rw [nextToken_reads chk pre u w rest t hs hf]
      simp [Nat.add_assoc]
    · simpa [Nat.add_assoc] using h

theorem written_unique {chk : Bool} {o : Nat} {l : List Char} {a b : List (Token × Span)} (ha : Written chk o l a) (pre : List Char)
    (ho : o = blen pre) (hb : Written chk o l b) : a = b := by
  induction a generalizing o l b pre with
  | nil =>
    rcases written_next ha pre ho with ⟨-, sp, lx, h1⟩ | ⟨t, sp, tl, pre', l', h, -⟩
    · rcases written_next hb pre ho with ⟨h2, -⟩ | ⟨t, sp, tl, pre', l', h2, h3, h4, -⟩
      · exact h2.symm
      · rw [h1] at h4
        cases h4
        exact absurd rfl h3
    · cases h
  | cons p a ih =>
    rcases written_next ha pre ho with ⟨h, -⟩ | ⟨t, sp, tl, pre', l', h1, h2, h3, h4, h5⟩
    · cases h
    · cases h1
      rcases written_next hb pre ho with ⟨-, sp', lx, h6⟩ | ⟨t', sp', tl', pre2, l2, rfl, h7, h8, h9, h10⟩
      · rw [h3] at h6
        cases h6
        exact absurd rfl h2
      · rw [h3] at h8
        injection h8 with e1 e2 e3
        injection e3 with e3 e4 e5
        subst e1 e2 e5
        rw [ih h5 pre' rfl (by rw [e4]; exact h10)]

/-- **C37**: every source in which there is neither `x'` nor `$` with a number too large is a sequence of tokens, invalid ones included,
in exactly one way. -/
theorem C37_every_source (chk : Bool) (src : List Char) (h : ∀ u r, src = u ++ r → ¬ Unlexable chk r) :
    ∃ toks, Written chk 0 src toks ∧ ∀ toks', Written chk 0 src toks' → toks' = toks := by
  obtain ⟨toks, ht⟩ := written_exists chk [] src h
  refine ⟨toks, ht, fun toks' ht' => ?_⟩
  exact (written_unique ht [] rfl ht').symm

/-- Non-vacuity: a text with a comment, an operator made of two characters and a number next to a bracket. -/
example : Written true 0 c!"a /*é*/<=(1.5)" [(.ident c!"a" Keyword.NOT_A_KEYWORD, ⟨0, 1⟩), (.ltEq, ⟨8, 10⟩),
    (.lParen, ⟨10, 11⟩), (.float c!"1.5", ⟨11, 14⟩), (.rParen, ⟨14, 15⟩)] :=
  (C37_written_iff true _ _ (by decide)).2 ⟨⟨c!"a /*é*/<=(1.5)", 15, []⟩, by decide +kernel⟩

/-- Non-vacuity: a stray character, `@@se` and a string that is not closed are invalid tokens. -/
example : Written true 0 c!"a € @@seX 'b" [(.ident c!"a" Keyword.NOT_A_KEYWORD, ⟨0, 1⟩), (.invalid, ⟨2, 5⟩), (.invalid, ⟨6, 10⟩),
    (.ident c!"X" Keyword.NOT_A_KEYWORD, ⟨10, 11⟩), (.invalid, ⟨12, 14⟩)] :=
  (C37_written_iff true _ _ (by decide)).2 ⟨⟨c!"a € @@seX 'b", 14, []⟩, by decide +kernel⟩

/-- Non-vacuity of `C37_every_source`. -/
example : ∀ u r, c!"a' x" = u ++ r → ¬ Unlexable true r := by
  intro u r h
  have key : ∀ k : Fin 5, (c!"a' x").drop k.val ≠ [] → ∀ r, r = (c!"a' x").drop k.val → ¬ Unlexable true r := by
    intro k
    match k with
    | 0 | 1 | 2 | 3 =>
      rintro - r hr (⟨c, r', h1, h2⟩ | ⟨-, ds, r', h1, -⟩)
      · rw [hr] at h2
        rcases h1 with rfl | rfl <;> cases h2
      · rw [hr] at h1; cases h1
    | 4 => intro h; exact absurd rfl h
  by_cases hr : r = []
  · subst hr
    rintro (⟨c, r', h1, h2⟩ | ⟨-, ds, r', h1, -⟩)
    · cases h2
    · cases h1
  · have hl := congrArg List.length h
    have : r.length ≠ 0 := by simpa using hr
    simp at hl
    have hd : (c!"a' x").drop u.length = r := by rw [h]; simp
    have hk : u.length < 5 := by omega
    exact key ⟨u.length, hk⟩ (by simp only [hd]; exact hr) r hd.symm

end SqlParse
