import Verif.Lexer
import Verif.Proofs.Text
/-! The lexer at the beginning of a longer source: on `a ++ b` it does what it does on `a`, as long as it stays inside `a`. -/
namespace SqlParse
variable (b : List Char)

theorem skipWhile_app {p : Char → Bool} {pos : Nat} {l : List Char} (h : (skipWhile p pos l).2 ≠ []) :
    skipWhile p pos (l ++ b) = ((skipWhile p pos l).1, (skipWhile p pos l).2 ++ b) := by
  induction l generalizing pos with
  | nil => exact absurd rfl h
  | cons c l ih =>
    simp only [skipWhile, List.cons_append] at h ⊢
    split
    · next hc => rw [if_pos hc] at h; exact ih h
    · rfl

theorem skipLine_app {pos : Nat} {l : List Char} (h : (skipLine pos l).2 ≠ []) :
    skipLine pos (l ++ b) = ((skipLine pos l).1, (skipLine pos l).2 ++ b) := by
  induction l generalizing pos with
  | nil => exact absurd rfl h
  | cons c l ih =>
    simp only [skipLine, List.cons_append] at h ⊢
    split
    · rfl
    · next hc => rw [if_neg hc] at h; exact ih h

theorem skipComment_app {pos : Nat} {l : List Char} {r : Nat × List Char} (h : skipComment pos l = some r) :
    skipComment pos (l ++ b) = some (r.1, r.2 ++ b) := by
  fun_induction skipComment pos l with
  | case1 => cases h
  | case2 pos c hc e es he => cases h; simp [skipComment, hc, he]
  | case3 pos c hc e es he ih =>
    rw [List.cons_append, List.cons_append, skipComment]
    simp only [hc, he, if_true, if_false, Bool.false_eq_true]
    exact ih h
  | case4 => cases h
  | case5 pos c cs hc ih =>
    rw [List.cons_append, skipComment.eq_def]
    simp only [hc, Bool.false_eq_true, if_false]
    exact ih h

theorem scanQuote_app {q : Char} {pos : Nat} {l : List Char} {r : Nat × Nat × List Char} (h : scanQuote q pos l = some r)
    (hr : r.2.2 ≠ []) : scanQuote q pos (l ++ b) = some (r.1, r.2.1, r.2.2 ++ b) := by
  fun_induction scanQuote q pos l with
  | case1 => cases h
  | case2 pos c hc e es ih =>
    rw [List.cons_append, List.cons_append, scanQuote]; simp only [hc, if_true]
    exact ih h
  | case3 => cases h
  | case4 pos c hc hq e es he ih =>
    rw [List.cons_append, List.cons_append, scanQuote]; simp only [hc, hq, he, if_true, if_false, Bool.false_eq_true]
    exact ih h
  | case5 pos c hc hq e es he =>
    rw [List.cons_append, List.cons_append, scanQuote]; simp [hc, hq, he]; cases h; simp
  | case6 pos c hc hq => cases h; exact absurd rfl hr
  | case7 pos c cs hc hq ih =>
    rw [List.cons_append, scanQuote.eq_def]; simp only [hc, hq, if_false, Bool.false_eq_true]
    exact ih h

theorem scanLetters_app {ws : List Char} {pos : Nat} {l : List Char} (h : (scanLetters pos ws l).2.2 ≠ []) :
    scanLetters pos ws (l ++ b) = ((scanLetters pos ws l).1, (scanLetters pos ws l).2.1, (scanLetters pos ws l).2.2 ++ b) := by
  induction ws generalizing pos l with
  | nil => simp [scanLetters]
  | cons w ws ih =>
    cases l with
    | nil => exact absurd rfl h
    | cons c l =>
      simp only [scanLetters, List.cons_append] at h ⊢
      split
      · next hc => rw [if_pos hc] at h; exact ih h
      · rfl

theorem scanDollar_app {chk : Bool} {v pos : Nat} {l : List Char} {r : Nat × Nat × List Char} (h : scanDollar chk v pos l = some r)
    (hr : r.2.2 ≠ []) : scanDollar chk v pos (l ++ b) = some (r.1, r.2.1, r.2.2 ++ b) := by
  induction l generalizing v pos with
  | nil => cases h; exact absurd rfl hr
  | cons c l ih =>
    simp only [scanDollar, List.cons_append] at h ⊢
    split
    · next hc =>
      rw [if_pos hc] at h
      split
      · next hv => rw [if_pos hv] at h; exact ih h
      · next hv =>
        rw [if_neg hv] at h
        split
        · next hk => rw [if_pos hk] at h; cases h
        · next hk => rw [if_neg hk] at h; exact ih h
    · next hc => rw [if_neg hc] at h; cases h; rfl

/-- The step with more text behind. -/
def LexStep.app : LexStep → LexStep
  | .skip pos rest => .skip pos (rest ++ b)
  | .tok t pos rest => .tok t pos (rest ++ b)
  | .text mk x y pos rest => .text mk x y pos (rest ++ b)
  | .panic m => .panic m

/-- The step does not end at the end of the text, or is a `;`. -/
def LexStep.inside : LexStep → Prop
  | .skip _ rest => rest ≠ []
  | .tok t _ rest => t = .semiColon ∨ rest ≠ []
  | .text _ _ _ _ rest => rest ≠ []
  | .panic _ => False

def Keeps (x u : LexStep) : Prop := u.inside → x = u.app b

theorem ite_keeps {c : Prop} [Decidable c] {x y u v : LexStep} (h1 : c → Keeps b x u) (h2 : ¬c → Keeps b y v) :
    Keeps b (if c then x else y) (if c then u else v) := by
  by_cases h : c
  · rw [if_pos h, if_pos h]; exact h1 h
  · rw [if_neg h, if_neg h]; exact h2 h

theorem lexChar_app (chk : Bool) (n n' start : Nat) (c : Char) (pos : Nat) (cs : List Char) :
    Keeps b (lexChar chk n' start c pos (cs ++ b)) (lexChar chk n start c pos cs) := by
  unfold lexChar
  dsimp only
  repeat' (with_reducible apply ite_keeps b <;> intro _)
  all_goals try exact fun _ => rfl
  all_goals try (cases cs with
    | nil => simp [Keeps, LexStep.inside, skipWhile]; done
    | cons e es =>
      simp only [List.cons_append]
      repeat' (with_reducible apply ite_keeps b <;> intro _)
      all_goals exact fun _ => rfl)
  -- @
  · cases cs with
    | nil => simp [Keeps, LexStep.inside]
    | cons e es =>
      by_cases h : e = '@'
      · subst h
        simp only [List.cons_append]
        cases es with
        | nil => simp [Keeps, LexStep.inside]
        | cons f fs =>
          simp only [List.cons_append]
          repeat' (with_reducible apply ite_keeps b <;> intro _)
          · intro h
            have hh := h.resolve_left (by split <;> simp)
            have e := scanLetters_app b hh
            rw [List.cons_append] at e
            simp only [e]; rfl
          · intro h
            have hh := h.resolve_left (by split <;> simp)
            have e := scanLetters_app b hh
            rw [List.cons_append] at e
            simp only [e]; rfl
          · exact fun _ => rfl
      · simp [h, Keeps, LexStep.app]
  -- $
  · cases cs with
    | nil => simp [Keeps, LexStep.inside]
    | cons e es =>
      simp only [List.cons_append]
      repeat' (with_reducible apply ite_keeps b <;> intro _)
      · exact fun _ => rfl
      · cases h : scanDollar chk (digVal e) (pos + e.utf8Size) es with
        | none => simp [Keeps, LexStep.inside]
        | some r =>
          intro hr
          rw [scanDollar_app b h (by simpa [LexStep.inside] using hr)]
          rfl
      · exact fun _ => rfl
  -- <
  · cases cs with
    | nil => simp [Keeps, LexStep.inside]
    | cons e es =>
      cases es with
      | nil =>
        simp only [List.cons_append, List.nil_append]
        intro h
        split at h
        all_goals simp_all [LexStep.inside, LexStep.app]
      | cons f fs =>
        simp only [List.cons_append]
        intro _
        by_cases h1 : e = '='
        · subst h1
          by_cases h2 : f = '>'
          · subst h2; rfl
          · simp [h2, LexStep.app]
        by_cases h2 : e = '>'
        · subst h2; rfl
        by_cases h3 : e = '<'
        · subst h3; rfl
        · simp [h1, h2, h3, LexStep.app]
  -- -
  · cases cs with
    | nil => simp [Keeps, LexStep.inside]
    | cons e es =>
      by_cases h : e = '-'
      · subst h
        intro hr
        rw [skipLine_app b hr]
        rfl
      · simp [h, Keeps, LexStep.app]
  -- /
  · cases cs with
    | nil => simp [Keeps, LexStep.inside]
    | cons e es =>
      by_cases h : e = '*'
      · subst h
        simp only [List.cons_append]
        cases h : skipComment (pos + 1) es with
        | none => simp [Keeps, LexStep.inside]
        | some r => intro _; rw [skipComment_app b h]; rfl
      by_cases h' : e = '/'
      · subst h'
        intro hr
        rw [skipLine_app b hr]
        rfl
      · simp [h, h', Keeps, LexStep.app]
  -- x
  · cases cs with
    | nil => simp [Keeps, LexStep.inside, skipWhile]
    | cons e es =>
      by_cases h : e = '\''
      · subst h; exact fun h => h.elim
      · intro hr
        have hr : (skipWhile isWord pos (e :: es)).2 ≠ [] := by simpa [h, LexStep.inside] using hr
        rw [skipWhile_app b hr]
        simp [h, LexStep.app]
  -- word
  · intro hr
    rw [skipWhile_app b hr]; rfl
  -- `
  · by_cases hr : (skipWhile (fun d => isWord d || d == '-') pos cs).2 = []
    · rw [hr]; exact fun h => by simp [LexStep.inside] at h
    · rw [skipWhile_app b hr]
      generalize (skipWhile (fun d => isWord d || d == '-') pos cs).1 = x
      generalize (skipWhile (fun d => isWord d || d == '-') pos cs).2 = y at hr ⊢
      cases y with
      | nil => exact absurd rfl hr
      | cons e es =>
        by_cases h : e = '`'
        · subst h; exact fun _ => rfl
        · simp [h, Keeps, LexStep.app]
  -- '
  · cases h : scanQuote '\'' pos cs with
    | none => simp [Keeps, LexStep.inside]
    | some r => intro hr; rw [scanQuote_app b h hr]; rfl
  -- "
  · cases h : scanQuote '"' pos cs with
    | none => simp [Keeps, LexStep.inside]
    | some r => intro hr; rw [scanQuote_app b h hr]; rfl
  -- digits
  · by_cases hr : (skipWhile isDig pos cs).2 = []
    · rw [hr]; exact fun h => by simp [LexStep.inside] at h
    · rw [skipWhile_app b hr]
      generalize (skipWhile isDig pos cs).1 = x
      generalize (skipWhile isDig pos cs).2 = y at hr ⊢
      cases y with
      | nil => exact absurd rfl hr
      | cons e es =>
        by_cases h : e = '.'
        · subst h
          intro hr
          simp only [List.cons_append]
          rw [skipWhile_app b hr]; rfl
        · simp [h, Keeps, LexStep.app]
  -- .
  · cases cs with
    | nil => simp [Keeps, LexStep.inside]
    | cons e es =>
      simp only [List.cons_append]
      apply ite_keeps b <;> intro _
      · intro hr
        rw [← List.cons_append, skipWhile_app b hr]; rfl
      · exact fun _ => rfl

/-- A text is no `;`. -/
def LexStep.noSemi : LexStep → Prop
  | .text mk _ _ _ _ => ∀ s, mk s ≠ .semiColon
  | _ => True

theorem ite_noSemi {c : Prop} [Decidable c] {u v : LexStep} (h1 : u.noSemi) (h2 : v.noSemi) :
    (if c then u else v).noSemi := by
  by_cases h : c
  · rw [if_pos h]; exact h1
  · rw [if_neg h]; exact h2

theorem lexChar_noSemi (chk : Bool) (n start : Nat) (c : Char) (pos : Nat) (cs : List Char) :
    (lexChar chk n start c pos cs).noSemi := by
  unfold lexChar
  dsimp only
  repeat' with_reducible apply ite_noSemi
  all_goals try trivial
  all_goals
    repeat' split
    all_goals first | trivial | (intro s; simp [mkWord])

/-! ### Slices and tokens -/

theorem dropBytes_app {l r : List Char} {n : Nat} (h : dropBytes l n = some r) : dropBytes (l ++ b) n = some (r ++ b) := by
  obtain ⟨a, rfl, rfl⟩ := dropBytes_eq h
  rw [List.append_assoc, dropBytes_append]

theorem takeBytes_app {l r : List Char} {n : Nat} (h : takeBytes l n = some r) : takeBytes (l ++ b) n = some r := by
  obtain ⟨a, rfl, rfl⟩ := takeBytes_eq h
  rw [List.append_assoc, takeBytes_append]

theorem slice_app {l r : List Char} {x y : Nat} (h : slice l x y = some r) : slice (l ++ b) x y = some r := by
  unfold slice at h ⊢
  split
  · next hc =>
    rw [if_pos hc] at h
    cases hd : dropBytes l x with
    | none => rw [hd] at h; cases h
    | some m =>
      rw [hd] at h
      rw [dropBytes_app b hd]
      exact takeBytes_app b h
  · next hc => rw [if_neg hc] at h; cases h

theorem nextLoop_app {chk : Bool} {src : List Char} {n k start : Nat} {cs : List Char} {t : Token} {sp : Span} {m : Lexer}
    (h : nextLoop chk src n start cs = .ok t sp m) (hk : n ≤ k) (ht : t = .semiColon ∨ m.rest ≠ []) (he : t ≠ .eof) :
    nextLoop chk (src ++ b) k start (cs ++ b) = .ok t sp ⟨src ++ b, m.pos, m.rest ++ b⟩ := by
  induction n generalizing k start cs with
  | zero => cases h
  | succ n ih =>
    obtain ⟨k, rfl⟩ : ∃ k', k = k' + 1 := ⟨k - 1, by omega⟩
    cases cs with
    | nil => cases h; exact absurd rfl he
    | cons c cs =>
      have key := lexChar_app b chk (blen src) (blen (src ++ b)) start c (start + c.utf8Size) cs
      simp only [nextLoop, List.cons_append] at h ⊢
      cases hs : lexChar chk (blen src) start c (start + c.utf8Size) cs with
      | skip pos rest =>
        rw [hs] at h key
        have hr : rest ≠ [] := by
          rintro rfl
          cases n with
          | zero => cases h
          | succ n => cases h; exact he rfl
        rw [key hr]
        exact ih h (by omega)
      | tok t' pos rest =>
        rw [hs] at h key
        cases h
        rw [key ht]; rfl
      | text mk x y pos rest =>
        rw [hs] at h key
        simp only at h
        cases hsl : slice src x y with
        | none => rw [hsl] at h; cases h
        | some s =>
          rw [hsl] at h
          cases h
          have hr : rest ≠ [] := by
            refine ht.resolve_left ?_
            have := lexChar_noSemi chk (blen src) start c (start + c.utf8Size) cs
            rw [hs] at this
            exact this s
          rw [key hr]
          simp only [LexStep.app]
          rw [slice_app b hsl]
      | panic m => rw [hs] at h; cases h

end SqlParse
