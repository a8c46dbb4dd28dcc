import Verif.Proofs.Lexer
/-! C03, C04, C05, C06: theorems about the token stream of an arbitrary source text. -/
namespace SqlParse

/-- Call `next_token` (lexer.rs:221) `k` times: the tokens with their spans and the lexer afterwards;
`none` if one of the calls panics. -/
def lexN (chk : Bool) : Nat → Lexer → Option (List (Token × Span) × Lexer)
  | 0, lx => some ([], lx)
  | k + 1, lx =>
    match lx.nextToken chk with
    | .panic _ => none
    | .ok t sp lx' => (lexN chk k lx').map fun r => ((t, sp) :: r.1, r.2)

/-- Specification of the token stream: `Tiling chk o l toks r` says that the text `l`, which starts at
byte `o` of the source, consists of skipped text and of the tokens `toks` in turn, followed by `r`. -/
inductive Tiling (chk : Bool) : Nat → List Char → List (Token × Span) → List Char → Prop where
  | nil (o : Nat) (l : List Char) : Tiling chk o l [] l
  | cons (o : Nat) (ts w rest : List Char) (t : Token) (sp : Span) (toks : List (Token × Span)) (r : List Char)
      (hskip : Skipped ts (w ++ rest)) (hstart : sp.start = o + blen ts) (hstop : sp.stop = sp.start + blen w)
      (hlex : Lexeme chk t w rest) (heof : t = .eof ↔ w = []) (htail : Tiling chk sp.stop rest toks r) :
      Tiling chk o (ts ++ (w ++ rest)) ((t, sp) :: toks) r

theorem lexN_tiling {chk : Bool} {k : Nat} {lx lx' : Lexer} {toks} {pre : List Char}
    (h1 : lx.src = pre ++ lx.rest) (h2 : lx.pos = blen pre) (h : lexN chk k lx = some (toks, lx')) :
    Tiling chk lx.pos lx.rest toks lx'.rest := by
  induction k generalizing lx toks pre with
  | zero => simp [lexN] at h; obtain ⟨rfl, rfl⟩ := h; exact .nil _ _
  | succ k ih =>
    simp only [lexN] at h
    have hs := nextToken_spec chk lx pre h1 h2
    split at h
    · simp at h
    · next t sp lx1 heq =>
      rw [heq] at hs
      obtain ⟨ts, w, g1, g2, g3, g4, g5, g6, g7, g8⟩ := hs
      cases hr : lexN chk k lx1 with
      | none => simp [hr] at h
      | some r =>
        simp [hr] at h
        obtain ⟨rfl, h⟩ := h
        have hl : lx1.src = (pre ++ ts ++ w) ++ lx1.rest := by rw [g5, h1, g1]; simp
        have hp : lx1.pos = blen (pre ++ ts ++ w) := by rw [g6, g4, g3]; simp; omega
        have := ih (toks := r.1) hl hp (by rw [hr, ← h])
        rw [g1]
        rw [g6] at this
        exact .cons _ ts w lx1.rest t sp r.1 _ g2 (by rw [h2]; exact g3) g4 g7 g8 this

/-- **C04**: the source, up to where the lexer stands, is exactly the tokens in order with only blanks
and comments in between: nothing else is dropped. -/
theorem C04_only_trivia_skipped (chk : Bool) (src : List Char) (k : Nat) (toks : List (Token × Span)) (lx : Lexer)
    (h : lexN chk k (Lexer.new src) = some (toks, lx)) : Tiling chk 0 src toks lx.rest :=
  lexN_tiling (lx := Lexer.new src) (pre := []) rfl rfl h

theorem Tiling.start_le {chk : Bool} {o : Nat} {l r : List Char} {toks} (h : Tiling chk o l toks r) :
    ∀ p ∈ toks, o ≤ p.2.start := by
  induction h with
  | nil => simp
  | cons o ts w rest t sp toks r hskip hstart hstop hlex heof htail ih =>
    intro p hp
    rcases List.mem_cons.1 hp with rfl | hp
    · show o ≤ sp.start; omega
    · have := ih p hp; omega

theorem Tiling.pairwise {chk : Bool} {o : Nat} {l r : List Char} {toks} (h : Tiling chk o l toks r) :
    toks.Pairwise (fun p q => p.2.stop ≤ q.2.start) := by
  induction h with
  | nil => exact .nil
  | cons o ts w rest t sp toks r hskip hstart hstop hlex heof htail ih =>
    exact List.Pairwise.cons (fun p hp => htail.start_le p hp) ih

theorem Tiling.nil_eof {chk : Bool} {o : Nat} {r : List Char} {toks} (h : Tiling chk o [] toks r) :
    ∀ p ∈ toks, p.1 = .eof := by
  generalize hl : ([] : List Char) = l at h
  induction h with
  | nil => simp
  | cons o ts w rest t sp toks r hskip hstart hstop hlex heof htail ih =>
    have h' := hl.symm
    simp at h'
    obtain ⟨h1, h2, h3⟩ := h'
    intro p hp
    rcases List.mem_cons.1 hp with rfl | hp
    · exact heof.2 h2
    · exact ih h3.symm p hp

theorem Tiling.sticky {chk : Bool} {o : Nat} {l r : List Char} {toks} (h : Tiling chk o l toks r) :
    toks.Pairwise (fun p q => p.1 = .eof → q.1 = .eof) := by
  induction h with
  | nil => exact .nil
  | cons o ts w rest t sp toks r hskip hstart hstop hlex heof htail ih =>
    refine List.Pairwise.cons (fun p hp ht => ?_) ih
    simp only at ht
    subst ht
    obtain ⟨hw, hr⟩ := hlex
    subst hr
    exact htail.nil_eof p hp

/-- Where each token of a tiling lies in the whole source. -/
theorem Tiling.mem {chk : Bool} {o : Nat} {l r : List Char} {toks} (h : Tiling chk o l toks r) (pre : List Char)
    (ho : o = blen pre) : ∀ p ∈ toks, ∃ a w b, pre ++ l = a ++ (w ++ b) ∧ p.2.start = blen a ∧
      p.2.stop = blen a + blen w ∧ Lexeme chk p.1 w b ∧ (p.1 = .eof ↔ w = []) := by
  induction h generalizing pre with
  | nil => simp
  | cons o ts w rest t sp toks r hskip hstart hstop hlex heof htail ih =>
    intro p hp
    rcases List.mem_cons.1 hp with rfl | hp
    · refine ⟨pre ++ ts, w, rest, by simp, ?_, ?_, hlex, heof⟩
      · simp only [hstart, ho, blen_append]
      · simp only [hstart, hstop, ho, blen_append]
    · obtain ⟨a, w', b, h1, h2⟩ := ih (pre ++ ts ++ w) (by simp only [hstart, hstop, ho, blen_append]) p hp
      exact ⟨a, w', b, by rw [← h1]; simp, h2⟩

theorem Tiling.exists_eof {chk : Bool} {o : Nat} {l r : List Char} {toks} (h : Tiling chk o l toks r)
    (hl : l.length < toks.length) : ∃ p ∈ toks, p.1 = .eof := by
  induction h with
  | nil => simp at hl
  | cons o ts w rest t sp toks r hskip hstart hstop hlex heof htail ih =>
    by_cases ht : t = .eof
    · exact ⟨_, List.mem_cons_self .., ht⟩
    · have hw : w ≠ [] := fun hw => ht (heof.2 hw)
      have := List.length_pos_iff.2 hw
      obtain ⟨p, hp, he⟩ := ih (by simp at hl; omega)
      exact ⟨p, List.mem_cons_of_mem _ hp, he⟩

/-- **C03**: the first `k` tokens of any source occupy successive, non-overlapping, non-empty byte ranges
inside the source, on character boundaries; the end of file token is the empty range at the end, it comes
after at most as many tokens as the source has characters, and only it follows. -/
theorem C03_token_spans (chk : Bool) (src : List Char) (k : Nat) (toks : List (Token × Span)) (lx : Lexer)
    (h : lexN chk k (Lexer.new src) = some (toks, lx)) :
    (∀ p ∈ toks, Boundary src p.2.start ∧ Boundary src p.2.stop ∧ p.2.stop ≤ blen src ∧
      (if p.1 = .eof then p.2 = ⟨blen src, blen src⟩ else p.2.start < p.2.stop)) ∧
    toks.Pairwise (fun p q => p.2.stop ≤ q.2.start) ∧
    toks.Pairwise (fun p q => p.1 = .eof → q.1 = .eof) ∧
    (src.length < k → ∃ p ∈ toks, p.1 = .eof) := by
  have ht := C04_only_trivia_skipped chk src k toks lx h
  have hlen : toks.length = k := by
    generalize Lexer.new src = lx0 at h
    clear ht
    induction k generalizing lx0 toks with
    | zero => simp [lexN] at h; simp [← h.1]
    | succ k ih =>
      simp only [lexN] at h
      split at h
      · simp at h
      · next t sp lx1 heq =>
        cases hr : lexN chk k lx1 with
        | none => simp [hr] at h
        | some r =>
          simp [hr] at h
          obtain ⟨rfl, h⟩ := h
          simp [ih r.1 lx1 (by rw [hr, ← h])]
  refine ⟨?_, ht.pairwise, ht.sticky, fun hk => ht.exists_eof (by omega)⟩
  intro p hp
  obtain ⟨a, w, b, h1, h2, h3, h4, h5⟩ := ht.mem [] rfl p hp
  simp at h1
  subst h1
  refine ⟨⟨a, w ++ b, rfl, h2⟩, ⟨a ++ w, b, by simp, by simp [h3]⟩, by simp; omega, ?_⟩
  split
  · next he =>
    rw [he] at h4
    obtain ⟨rfl, rfl⟩ := h4
    obtain ⟨t, ⟨s, e⟩⟩ := p
    simp at h2 h3 ⊢
    omega
  · next he =>
    have hw : w ≠ [] := fun hw => he (h5.2 hw)
    have := blen_pos_of_ne hw
    omega

/-- **C05**: the slice of the source under a token's span is a text that the token stands for (`Lexeme`:
words, numbers and string tokens carry exactly that text, without the quotes for quoted tokens). -/
theorem C05_token_text (chk : Bool) (src : List Char) (k : Nat) (toks : List (Token × Span)) (lx : Lexer)
    (h : lexN chk k (Lexer.new src) = some (toks, lx)) :
    ∀ p ∈ toks, ∃ w rest, slice src p.2.start p.2.stop = some w ∧
      dropBytes src p.2.stop = some rest ∧ Lexeme chk p.1 w rest := by
  intro p hp
  obtain ⟨a, w, b, h1, h2, h3, h4, h5⟩ := (C04_only_trivia_skipped chk src k toks lx h).mem [] rfl p hp
  simp at h1
  subst h1
  refine ⟨w, b, ?_, ?_, h4⟩
  · rw [h2, h3]; exact slice_mid a w b
  · rw [h3]
    have := dropBytes_append (a ++ w) b
    simpa using this

/-- Non-vacuity: a source with multi-byte characters, comments and quotes is lexed. -/
example : ∃ toks lx, lexN true 6 (Lexer.new c!"a/*é*/'é''' -- é\n x ") = some (toks, lx) ∧
    toks = [(.ident c!"a" Keyword.NOT_A_KEYWORD, ⟨0, 1⟩), (.singleQuotedString c!"é''", ⟨7, 13⟩),
      (.ident c!"x" Keyword.NOT_A_KEYWORD, ⟨21, 22⟩),
      (.eof, ⟨23, 23⟩), (.eof, ⟨23, 23⟩), (.eof, ⟨23, 23⟩)] := by
  refine ⟨_, _, rfl, ?_⟩
  decide +kernel

/-! ### Keywords (C06) -/

theorem kwSearch_none (w : List Char) (l : List (List Char)) (i : Nat) (h : w ∉ l) :
    kwSearch w l i = Keyword.NOT_A_KEYWORD := by
  induction l generalizing i with
  | nil => rfl
  | cons a l ih =>
    simp at h
    simp [kwSearch, h.1, ih _ h.2]

theorem kwSearch_get (l : List (List Char)) (hnd : l.Nodup) (i j : Nat) (w : List Char) (h : l[j]? = some w) :
    kwSearch w l i = ⟨i + j⟩ := by
  induction l generalizing i j with
  | nil => simp at h
  | cons a l ih =>
    simp only [List.nodup_cons] at hnd
    cases j with
    | zero => simp at h; simp [kwSearch, h]
    | succ j =>
      simp at h
      have : w ≠ a := by rintro rfl; exact hnd.1 (List.mem_of_getElem? h)
      simp [kwSearch, this, ih hnd.2 (i + 1) j h]; omega

/-- The order in which the keyword list is sorted (`_` before the letters). -/
def kwCode (c : Char) : Nat := if c.toNat = 95 then 0 else c.toNat
def kwLt : List Char → List Char → Bool
  | _, [] => false
  | [], _ :: _ => true
  | a :: as, b :: bs => Nat.blt (kwCode a) (kwCode b) || (Nat.beq (kwCode a) (kwCode b) && kwLt as bs)
def kwSorted : List (List Char) → Bool
  | [] => true
  | a :: l => (match l with | [] => true | b :: _ => kwLt a b) && kwSorted l

theorem kwLt_irrefl (a : List Char) : kwLt a a = false := by
  induction a with
  | nil => rfl
  | cons x a ih =>
    have : (kwCode x).blt (kwCode x) = false := by rw [Bool.eq_false_iff]; simp [Nat.blt_eq]
    simp [kwLt, ih, this]

theorem kwLt_trans (a b c : List Char) (h1 : kwLt a b = true) (h2 : kwLt b c = true) : kwLt a c = true := by
  induction a generalizing b c with
  | nil =>
    cases c with
    | nil => cases b <;> simp [kwLt] at h2
    | cons => rfl
  | cons x a ih =>
    cases b with
    | nil => simp [kwLt] at h1
    | cons y b =>
      cases c with
      | nil => simp [kwLt] at h2
      | cons z c =>
        simp [kwLt] at h1 h2 ⊢
        rcases h1 with h1 | ⟨h1, h1'⟩ <;> rcases h2 with h2 | ⟨h2, h2'⟩
        · left; omega
        · left; omega
        · left; omega
        · right; exact ⟨by omega, ih _ _ h1' h2'⟩

theorem kwSorted_pairwise (l : List (List Char)) (h : kwSorted l = true) :
    l.Pairwise (fun a b => kwLt a b = true) := by
  induction l with
  | nil => exact .nil
  | cons a l ih =>
    simp only [kwSorted, Bool.and_eq_true] at h
    refine .cons ?_ (ih h.2)
    have hp := ih h.2
    cases l with
    | nil => simp
    | cons b l =>
      have hab : kwLt a b = true := h.1
      intro c hc
      rcases List.mem_cons.1 hc with rfl | hc
      · exact hab
      · exact kwLt_trans _ _ _ hab (List.rel_of_pairwise_cons hp hc)

theorem kwNames_nodup : kwNames.Nodup := by
  have h : kwSorted kwNames = true := by decide +kernel
  refine (kwSorted_pairwise _ h).imp ?_
  rintro a b hab rfl
  rw [kwLt_irrefl] at hab
  exact absurd hab (by simp)

/-- Every listed name is an upper case word. -/
theorem kwNames_upper : ∀ w ∈ kwNames, upper w = w := by decide +kernel

/-- **C06** (recognition): a word is recognised as keyword `k` iff its upper-casing is the name of `k`;
otherwise it is recognised as no keyword. -/
theorem C06_recognised_iff (s : List Char) (k : Keyword) (hk : 2 ≤ k.idx) :
    Keyword.ofStr (upper s) = k ↔ k.name = some (upper s) := by
  constructor
  · intro h
    by_cases hm : upper s ∈ kwNames
    · obtain ⟨j, hj⟩ := List.getElem?_of_mem hm
      have := kwSearch_get kwNames kwNames_nodup 2 j _ hj
      rw [Keyword.ofStr, this] at h
      subst h
      have h2 : ¬ (2 + j < 2) := by omega
      simp [Keyword.name, h2, hj]
    · rw [Keyword.ofStr, kwSearch_none _ _ _ hm] at h
      subst h
      simp [Keyword.NOT_A_KEYWORD] at hk
  · intro h
    have h2 : ¬ (k.idx < 2) := by omega
    simp [Keyword.name, h2] at h
    rw [Keyword.ofStr, kwSearch_get kwNames kwNames_nodup 2 _ _ h]
    obtain ⟨i⟩ := k
    simp at hk ⊢; omega

theorem C06_not_a_keyword (s : List Char) :
    Keyword.ofStr (upper s) = Keyword.NOT_A_KEYWORD ↔ upper s ∉ kwNames := by
  constructor
  · intro h hm
    obtain ⟨j, hj⟩ := List.getElem?_of_mem hm
    rw [Keyword.ofStr, kwSearch_get kwNames kwNames_nodup 2 j _ hj] at h
    simp [Keyword.NOT_A_KEYWORD] at h
  · exact fun h => kwSearch_none _ _ _ h

/-- **C06** (own name): every keyword is recognised from its own name. -/
theorem C06_own_name (k : Keyword) (w : List Char) (h : k.name = some w) : Keyword.ofStr w = k := by
  have hk : 2 ≤ k.idx := by
    by_cases h' : k.idx < 2
    · simp [Keyword.name, h'] at h
    · omega
  have hw : upper w = w := by
    have h2 : ¬ (k.idx < 2) := by omega
    simp [Keyword.name, h2] at h
    exact kwNames_upper w (List.mem_of_getElem? h)
  have := (C06_recognised_iff w k hk).2 (by rw [hw]; exact h)
  rwa [hw] at this

/-- `w` is a word: letters, digits and underscores, not starting with a digit. -/
def IsWordText (w : List Char) : Prop := w ≠ [] ∧ (∀ c ∈ w, isWord c = true) ∧ ∀ c ∈ w.head?, isDig c = false

theorem skipWhile_append (p : Char → Bool) (pos : Nat) (u r : List Char) (hu : ∀ c ∈ u, p c = true)
    (hr : NotHead p r) : skipWhile p pos (u ++ r) = (pos + blen u, r) := by
  induction u generalizing pos with
  | nil =>
    cases r with
    | nil => simp [skipWhile]
    | cons c r => simp [NotHead] at hr; simp [skipWhile, hr]
  | cons c u ih =>
    simp at hu
    simp [skipWhile, hu.1, ih _ hu.2]; omega

theorem lexChar_word (chk : Bool) (n start : Nat) (c : Char) (pos : Nat) (cs : List Char)
    (hc : isWordStart c = true) (hx : (c = 'x' ∨ c = 'X') → cs.head? ≠ some '\'') :
    lexChar chk n start c pos cs = .text mkWord start (skipWhile isWord pos cs).1 (skipWhile isWord pos cs).1
      (skipWhile isWord pos cs).2 := by
  have hne : ∀ d, isWordStart d = false → (c == d) = false := by
    intro d hd
    simp only [beq_eq_false_iff_ne]
    rintro rfl; simp [hd] at hc
  unfold lexChar
  simp only [hne ' ' rfl, hne '\t' rfl, hne '\n' rfl, hne '\r' rfl, hne '?' rfl, hne ';' rfl, hne '\\' rfl,
    hne '[' rfl, hne ']' rfl, hne '&' rfl, hne '^' rfl, hne '{' rfl, hne '}' rfl, hne '(' rfl, hne ')' rfl,
    hne ',' rfl, hne '+' rfl, hne '*' rfl, hne '%' rfl, hne '#' rfl, hne '@' rfl, hne '~' rfl, hne ':' rfl,
    hne '$' rfl, hne '=' rfl, hne '!' rfl, hne '<' rfl, hne '>' rfl, hne '|' rfl, hne '-' rfl, hne '/' rfl,
    Bool.false_or, Bool.false_eq_true, if_false, hc, if_true]
  split
  · next h =>
    simp at h
    split
    · simp at hx; exact absurd h (by simp [hx])
    · rfl
  · rfl

/-- **C06** (at the lexer): wherever a word stands in a source, it becomes one identifier token that
carries the word and the keyword of its upper-casing.  (`x'` and `X'` start a hex literal instead.) -/
theorem C06_word_token (chk : Bool) (pre w rest : List Char) (hw : IsWordText w) (hr : NotHead isWord rest)
    (hx : (w = c!"x" ∨ w = c!"X") → rest.head? ≠ some '\'') :
    (Lexer.mk (pre ++ (w ++ rest)) (blen pre) (w ++ rest)).nextToken chk =
      .ok (.ident w (Keyword.ofStr (upper w))) ⟨blen pre, blen pre + blen w⟩
        ⟨pre ++ (w ++ rest), blen pre + blen w, rest⟩ := by
  obtain ⟨h1, h2, h3⟩ := hw
  cases w with
  | nil => exact absurd rfl h1
  | cons c cs =>
    simp at h2 h3
    have hc : isWordStart c = true := by
      have := h2.1
      simp [isWord, h3] at this
      simp [isWordStart]; exact this
    have hsk := skipWhile_append isWord (blen pre + c.utf8Size) cs rest h2.2 hr
    simp only [Lexer.nextToken, nextLoop, List.cons_append]
    rw [lexChar_word _ _ _ _ _ _ hc]
    · simp only [hsk]
      have := slice_mid pre (c :: cs) rest
      simp only [List.cons_append, blen_cons] at this
      rw [Nat.add_assoc, this]
      rfl
    · intro hh
      cases cs with
      | nil => simp; exact hx (by simpa using hh)
      | cons d ds =>
        simp
        rintro rfl
        simp at h2
        exact absurd h2.2.1 (by decide)

/-- **C06** (case): two words that differ only in ASCII case are the same keyword. -/
theorem C06_case_insensitive (s s' : List Char) (h : upper s = upper s') :
    (mkWord s).kw = (mkWord s').kw := by simp [mkWord, Token.kw, h]

/-- Non-vacuity: the word `SeLeCt` meets the hypotheses of `C06_word_token` and is the keyword SELECT. -/
example : IsWordText c!"SeLeCt" ∧ NotHead isWord c!" 1" ∧ Keyword.ofStr (upper c!"SeLeCt") = Keyword.SELECT ∧
    Keyword.SELECT.name = some c!"SELECT" ∧ Keyword.ofStr (upper c!"SELECTX") = Keyword.NOT_A_KEYWORD := by
  refine ⟨⟨by simp, by decide, by decide⟩, by simp [NotHead]; decide, ?_, ?_, ?_⟩ <;> decide +kernel

end SqlParse
