import Verif.Lexer
import Verif.Proofs.Text
/-! The lexer at the end of a longer source: on `a ++ b` behind `a` it does what it does on `b`, with all positions moved. -/
namespace SqlParse

theorem dropBytes_shift (a b : List Char) (n : Nat) : dropBytes (a ++ b) (n + blen a) = dropBytes b n := by
  induction a with
  | nil => simp
  | cons c a ih =>
    have := dropBytes_cons c (a ++ b) (n + blen a)
    rw [← ih, ← this]
    simp only [List.cons_append, blen_cons]
    congr 1; omega

theorem slice_shift (a b : List Char) (x y : Nat) : slice (a ++ b) (x + blen a) (y + blen a) = slice b x y := by
  unfold slice
  rw [dropBytes_shift]
  have : y + blen a - (x + blen a) = y - x := by omega
  rw [this]
  by_cases h : x ≤ y
  · rw [if_pos h, if_pos (by omega)]
  · rw [if_neg h, if_neg (by omega)]

variable (d : Nat)

theorem skipWhile_shift (p : Char → Bool) (pos : Nat) (l : List Char) :
    skipWhile p (pos + d) l = ((skipWhile p pos l).1 + d, (skipWhile p pos l).2) := by
  induction l generalizing pos with
  | nil => rfl
  | cons c l ih =>
    simp only [skipWhile]
    split
    · rw [← ih]; congr 1; omega
    · rfl

theorem skipLine_shift (pos : Nat) (l : List Char) :
    skipLine (pos + d) l = ((skipLine pos l).1 + d, (skipLine pos l).2) := by
  induction l generalizing pos with
  | nil => rfl
  | cons c l ih =>
    simp only [skipLine]
    split
    · simp; omega
    · rw [← ih]; congr 1; omega

theorem skipComment_shift (pos : Nat) (l : List Char) :
    skipComment (pos + d) l = (skipComment pos l).map fun r => (r.1 + d, r.2) := by
  fun_induction skipComment pos l with
  | case1 => rfl
  | case2 pos c hc e es he => simp [skipComment, hc, he]; omega
  | case3 pos c hc e es he ih =>
    rw [skipComment]
    simp only [hc, he, if_true, if_false, Bool.false_eq_true]
    rw [← ih]; congr 1; omega
  | case4 => simp [skipComment, *]
  | case5 pos c cs hc ih =>
    rw [skipComment.eq_def]
    simp only [hc, Bool.false_eq_true, if_false]
    rw [← ih]; congr 1; omega

theorem scanQuote_shift (q : Char) (pos : Nat) (l : List Char) :
    scanQuote q (pos + d) l = (scanQuote q pos l).map fun r => (r.1 + d, r.2.1 + d, r.2.2) := by
  fun_induction scanQuote q pos l with
  | case1 => rfl
  | case2 pos c hc e es ih =>
    rw [scanQuote]; simp only [hc, if_true]
    rw [← ih]; congr 1; omega
  | case3 => simp [scanQuote, *]
  | case4 pos c hc hq e es he ih =>
    rw [scanQuote]; simp only [hc, hq, he, if_true, if_false, Bool.false_eq_true]
    rw [← ih]; congr 1; omega
  | case5 pos c hc hq e es he =>
    rw [scanQuote]; simp [hc, hq, he]; omega
  | case6 pos c hc hq =>
    rw [scanQuote]; simp [hc, hq]; omega
  | case7 pos c cs hc hq ih =>
    rw [scanQuote.eq_def]; simp only [hc, hq, if_false, Bool.false_eq_true]
    rw [← ih]; congr 1; omega

theorem scanLetters_shift (ws : List Char) (pos : Nat) (l : List Char) :
    scanLetters (pos + d) ws l = ((scanLetters pos ws l).1, (scanLetters pos ws l).2.1 + d, (scanLetters pos ws l).2.2) := by
  induction ws generalizing pos l with
  | nil => simp [scanLetters]
  | cons w ws ih =>
    cases l with
    | nil => rfl
    | cons c l =>
      simp only [scanLetters]
      split
      · rw [← ih]; congr 1; omega
      · rfl

theorem scanDollar_shift (chk : Bool) (v pos : Nat) (l : List Char) :
    scanDollar chk v (pos + d) l = (scanDollar chk v pos l).map fun r => (r.1, r.2.1 + d, r.2.2) := by
  induction l generalizing v pos with
  | nil => rfl
  | cons c l ih =>
    have e : pos + d + c.utf8Size = pos + c.utf8Size + d := by omega
    simp only [scanDollar, e, ih]
    repeat' split
    all_goals rfl

/-- Move the positions in a step. -/
def LexStep.shift (d : Nat) : LexStep → LexStep
  | .skip pos rest => .skip (pos + d) rest
  | .tok t pos rest => .tok t (pos + d) rest
  | .text mk a b pos rest => .text mk (a + d) (b + d) (pos + d) rest
  | .panic m => .panic m

theorem ite_shift {c : Prop} [Decidable c] {x y u v : LexStep} (h1 : c → x = u.shift d) (h2 : ¬c → y = v.shift d) :
    (if c then x else y) = (if c then u else v).shift d := by
  by_cases h : c
  · rw [if_pos h, if_pos h]; exact h1 h
  · rw [if_neg h, if_neg h]; exact h2 h

theorem lexChar_shift (chk : Bool) (n start : Nat) (c : Char) (pos : Nat) (cs : List Char) :
    lexChar chk (n + d) (start + d) c (pos + d) cs = (lexChar chk n start c pos cs).shift d := by
  have e : ∀ k, pos + d + k = pos + k + d := by intro k; omega
  have e1 : start + d + 1 = start + 1 + d := by omega
  have e2 : ∀ k : Nat, k + d + 1 = k + 1 + d := by intro k; omega
  unfold lexChar
  dsimp only
  simp only [e, e1, skipWhile_shift d, skipLine_shift d, skipComment_shift d, scanQuote_shift d, scanLetters_shift d, scanDollar_shift d]
  repeat' (with_reducible apply ite_shift d <;> intro _)
  all_goals try rfl
  all_goals (try simp only [e2, skipWhile_shift d]
             repeat' split
             all_goals first | rfl | (simp_all [LexStep.shift]; done))

/-- Move the positions in a result; `a` is put before the source. -/
def LexOut.shift (a : List Char) : LexOut → LexOut
  | .ok t sp l => .ok t ⟨sp.start + blen a, sp.stop + blen a⟩ ⟨a ++ l.src, l.pos + blen a, l.rest⟩
  | .panic m => .panic m

theorem nextLoop_shift (chk : Bool) (a src : List Char) (n start : Nat) (cs : List Char) :
    nextLoop chk (a ++ src) n (start + blen a) cs = (nextLoop chk src n start cs).shift a := by
  induction n generalizing start cs with
  | zero => rfl
  | succ n ih =>
    cases cs with
    | nil => simp [nextLoop, LexOut.shift]; omega
    | cons c cs =>
      have e : start + blen a + c.utf8Size = start + c.utf8Size + blen a := by omega
      have e' : blen (a ++ src) = blen src + blen a := by rw [blen_append]; omega
      simp only [nextLoop, e, e', lexChar_shift]
      cases lexChar chk (blen src) start c (start + c.utf8Size) cs with
      | skip pos rest => exact ih pos rest
      | tok t pos rest => rfl
      | text mk x y pos rest =>
        simp only [LexStep.shift, slice_shift]
        cases slice src x y <;> rfl
      | panic m => rfl

/-- The same lexer on a longer source. -/
def Lexer.shift (a : List Char) (l : Lexer) : Lexer := ⟨a ++ l.src, l.pos + blen a, l.rest⟩

theorem nextToken_shift (chk : Bool) (a : List Char) (l : Lexer) : (l.shift a).nextToken chk = (l.nextToken chk).shift a := by
  simp only [Lexer.nextToken, Lexer.shift, nextLoop_shift]

theorem stdinLoop_shift (pos : Nat) (l : List Char) :
    stdinLoop (pos + d) l = (stdinLoop pos l).map fun r => (r.1 + d, r.2.1 + d, r.2.2) := by
  have e : ∀ x k : Nat, x + d + k = x + k + d := by intro x k; omega
  fun_induction stdinLoop pos l
  all_goals
    rw [stdinLoop.eq_def]
    simp_all

theorem readStdin_shift (a : List Char) (l : Lexer) :
    (l.shift a).readStdin = (l.readStdin).map fun r => (r.1, ⟨r.2.1.start + blen a, r.2.1.stop + blen a⟩, r.2.2.shift a) := by
  have e : blen (a ++ l.src) = blen l.src + blen a := by rw [blen_append]; omega
  have e2 : ∀ x : Nat, x + blen a + 1 = x + 1 + blen a := by intro x; omega
  simp only [Lexer.readStdin, Lexer.shift, skipWhile_shift, e]
  split
  · simp [slice_shift, Function.comp_def, Option.map_map]
  · next c cs _ =>
    simp only [stdinLoop_shift]
    cases stdinLoop (skipWhile isStdinBlank l.pos l.rest).fst (c :: cs) with
    | none =>
      simp only [Option.map_none, e2, ← apply_ite (· + blen a), slice_shift, Option.map_map, Function.comp_def]
    | some r =>
      simp only [Option.map_some, e2, ← apply_ite (· + blen a), slice_shift, Option.map_map, Function.comp_def]

end SqlParse
