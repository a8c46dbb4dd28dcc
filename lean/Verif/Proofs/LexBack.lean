import Verif.Proofs.LexFwd
/-! C37: the lexer reads exactly the texts that are written token by token. -/
namespace SqlParse

theorem nextLoop_start_le {chk : Bool} {n : Nat} {pre rest : List Char} {t : Token} {sp : Span} {lx : Lexer}
    (hn : rest.length < n) (h : nextLoop chk (pre ++ rest) n (blen pre) rest = .ok t sp lx) : blen pre ≤ sp.start := by
  have := nextLoop_spec chk (pre ++ rest) n pre rest rfl hn
  rw [h] at this
  obtain ⟨ts, w, -, -, h3, -⟩ := this
  omega

theorem not_glued_float {w : List Char} (h : '.' ∈ w) (r : List Char) (hl : w ≠ ['.']) : NotHead (glued w) r := by
  cases r with
  | nil => simp [NotHead]
  | cons d r =>
    rw [notHead_cons]
    simp only [glued, Bool.or_eq_false_iff]
    refine ⟨⟨?_, by simp [hl]⟩, ?_⟩
    · rw [List.contains_eq_mem, decide_eq_false_iff_not]
      intro hm
      simp at hm
      rcases hm with ⟨rfl, -⟩ | ⟨rfl, -⟩ | ⟨rfl, -⟩ | ⟨rfl, -⟩ | ⟨rfl, -⟩ | ⟨rfl, -⟩ | ⟨rfl, -⟩ | ⟨rfl, -⟩ | ⟨rfl, -⟩ | ⟨rfl, -⟩ |
        ⟨rfl, -⟩ | ⟨rfl, -⟩ | ⟨rfl, -⟩ | ⟨rfl, -⟩ | ⟨rfl, -⟩ | ⟨rfl, -⟩ | ⟨rfl, -⟩ | ⟨rfl, -⟩ | ⟨rfl, -⟩ <;> simp at h
    · have : w.all isDig = false := by
        rw [List.all_eq_false]
        exact ⟨'.', h, by decide⟩
      simp [this]

/-- A token that has been read does not run into the text after it. -/
theorem not_glued {chk : Bool} {n : Nat} {pre w rest : List Char} {t : Token} (hn : (w ++ rest).length ≤ n)
    (ht : t ≠ .invalid)
    (h : nextLoop chk (pre ++ (w ++ rest)) (n + 1) (blen pre) (w ++ rest) =
      .ok t ⟨blen pre, blen pre + blen w⟩ ⟨pre ++ (w ++ rest), blen pre + blen w, rest⟩) : NotHead (glued w) rest := by
  cases rest with
  | nil => simp [NotHead]
  | cons d r =>
    rw [notHead_cons]
    cases hg : glued w d with
    | false => rfl
    | true =>
      exfalso
      simp only [glued, Bool.or_eq_true] at hg
      rcases hg with (hg | hg) | hg
      · simp only [List.contains_eq_mem, List.mem_cons, Prod.mk.injEq, List.not_mem_nil, or_false, decide_eq_true_eq] at hg
        have key : ∀ u : List Char, u ≠ [] → ∀ r', w ++ d :: r = u ++ r' →
            nextLoop chk (pre ++ (w ++ d :: r)) (n + 1) (blen pre) (w ++ d :: r) =
              nextLoop chk (pre ++ (w ++ d :: r)) n (blen (pre ++ u)) r' → False := by
          intro u hu r' hr hx
          rw [hx] at h
          have hpos := blen_pos_of_ne hu
          have hlen : r'.length < n := by
            have := congrArg List.length hr
            rw [List.length_append (as := u)] at this
            have := List.length_pos_iff.2 hu
            omega
          rw [hr, ← List.append_assoc] at h
          have := nextLoop_start_le hlen h
          simp at this; omega
        rcases hg with h' | h' | h' | h' | h' | h' | h' | h' | h' | h' | h' | h' | h' | h' | h' | h' | h' | h' | h' <;>
          obtain ⟨rfl, rfl⟩ := h'
        all_goals first
          | (simp [nextLoop, lexChar] at h; done)
          | skip
        · have e : ('@').utf8Size = 1 := rfl
          cases r with
          | nil => simp [nextLoop, lexChar] at h
          | cons c r =>
            obtain ⟨u, -, hu, -⟩ := scanLetters_spec c!"SESSION" (blen pre + 1 + 1) (c :: r)
            obtain ⟨v, -, hv, -⟩ := scanLetters_spec c!"GLOBAL" (blen pre + 1 + 1) (c :: r)
            have h1 := congrArg (fun o => match o with | .ok _ sp _ => sp.stop | .panic _ => 0) h
            simp [nextLoop, lexChar, e] at h1
            by_cases hS : upChar c = 'S'
            · simp [hS] at h1; omega
            · by_cases hG : upChar c = 'G'
              · simp [hG] at h1; omega
              · simp [hS, hG] at h1
        · cases r with
          | nil => simp [nextLoop, lexChar] at h
          | cons c r =>
            by_cases hc : c = '>'
            · subst hc; simp [nextLoop, lexChar] at h
            · simp [nextLoop, lexChar, hc] at h
        · have e : ('-').utf8Size = 1 := rfl
          rcases skipLine_spec (blen pre + 1) ('-' :: r) with ⟨b, x, h1, h2, -⟩ | ⟨h1, h2, -⟩
          · refine key ('-' :: (b ++ [x])) (by simp) (skipLine (blen pre + 1) ('-' :: r)).2 (by simpa using h1) ?_
            simp [nextLoop, lexChar, e, h2, Nat.add_assoc]
          · refine key ('-' :: '-' :: r) (by simp) [] (by simp) ?_
            simp [nextLoop, lexChar, e, h2, h1, Nat.add_assoc]
        · have e : ('/').utf8Size = 1 := rfl
          have e' : ('*').utf8Size = 1 := rfl
          cases hc : skipComment (blen pre + 1 + 1) r with
          | none => simp [nextLoop, lexChar, e, hc] at h
          | some q =>
            obtain ⟨b, h1, h2, -⟩ := skipComment_spec _ _ _ _ hc
            refine key ('/' :: '*' :: (b ++ ['*', '/'])) (by simp) q.2 (by simpa using h1) ?_
            simp [nextLoop, lexChar, e, e', hc, h2]
            congr 1; omega
        · have e : ('/').utf8Size = 1 := rfl
          rcases skipLine_spec (blen pre + 1) ('/' :: r) with ⟨b, x, h1, h2, -⟩ | ⟨h1, h2, -⟩
          · refine key ('/' :: (b ++ [x])) (by simp) (skipLine (blen pre + 1) ('/' :: r)).2 (by simpa using h1) ?_
            simp [nextLoop, lexChar, e, h2, Nat.add_assoc]
          · refine key ('/' :: '/' :: r) (by simp) [] (by simp) ?_
            simp [nextLoop, lexChar, e, h2, h1, Nat.add_assoc]
      · simp only [Bool.and_eq_true, beq_iff_eq] at hg
        obtain ⟨rfl, hd⟩ := hg
        obtain ⟨u, h1, h2, h3, h4⟩ := skipWhile_spec isDig (blen pre + 1) (d :: r)
        generalize (skipWhile isDig (blen pre + 1) (d :: r)).2 = r' at *
        have hu : u ≠ [] := by
          rintro rfl
          simp at h1
          rw [← h1, notHead_cons, hd] at h4
          exact absurd h4 (by simp)
        have hf : Fits chk (.float ('.' :: u)) ('.' :: u) r' := by
          refine ⟨by simp, ⟨rfl, [], u, rfl, by simp, h3, .inr hu, h4⟩, ?_⟩
          exact not_glued_float (by simp) r' (by simpa using hu)
        have hx := nextLoop_fits chk n pre ('.' :: u) r' _ hf
        rw [show ['.'] ++ d :: r = '.' :: u ++ r' by simp [h1]] at h
        rw [hx] at h
        injection h with _ h _
        simp at h
        have := blen_pos_of_ne hu
        omega
      · simp only [Bool.and_eq_true, bne_iff_ne, ne_eq, beq_iff_eq, List.all_eq_true] at hg
        obtain ⟨⟨hw, hall⟩, rfl⟩ := hg
        obtain ⟨u, h1, h2, h3, h4⟩ := skipWhile_spec isDig (blen pre + 1) r
        generalize (skipWhile isDig (blen pre + 1) r).2 = r' at *
        have hf : Fits chk (.float (w ++ '.' :: u)) (w ++ '.' :: u) r' := by
          refine ⟨by simp, ⟨rfl, w, u, rfl, hall, h3, .inl hw, h4⟩, ?_⟩
          exact not_glued_float (by simp) r' (by cases w <;> simp at hw ⊢)
        have hx := nextLoop_fits chk n pre (w ++ '.' :: u) r' _ hf
        rw [show w ++ '.' :: r = w ++ '.' :: u ++ r' by simp [h1]] at h
        rw [hx] at h
        injection h with _ h _
        have e : ('.').utf8Size = 1 := rfl
        simp [e] at h

/-- One call of `next_token`. -/
theorem nextToken_iff (chk : Bool) (pre l : List Char) (t : Token) (sp : Span) (lx : Lexer) (ht : t ≠ .invalid) :
    (Lexer.mk (pre ++ l) (blen pre) l).nextToken chk = .ok t sp lx ↔
      ∃ u w, l = u ++ (w ++ lx.rest) ∧ Skipped u (w ++ lx.rest) ∧ Fits chk t w lx.rest ∧ (t = .eof → lx.rest = []) ∧
        sp = ⟨blen pre + blen u, blen pre + blen u + blen w⟩ ∧ lx.src = pre ++ l ∧ lx.pos = sp.stop := by
  constructor
  · intro h
    have hs := nextToken_spec chk (Lexer.mk (pre ++ l) (blen pre) l) pre rfl rfl
    rw [h] at hs
    obtain ⟨u, w, g1, g2, g3, g4, g5, g6, g7, g8⟩ := hs
    simp only at g1
    obtain ⟨src, pos, rest⟩ := lx
    obtain ⟨s, e⟩ := sp
    simp only at g1 g2 g3 g4 g5 g6 g7
    subst g1 g3 g4 g5 g6
    refine ⟨u, w, rfl, g2, ⟨ht, g7, ?_⟩, ?_, rfl, rfl, rfl⟩
    · simp only [Lexer.nextToken] at h
      obtain ⟨m, hm, h1⟩ := skipped_steps chk ((u ++ (w ++ rest)).length + 1) pre u (w ++ rest) g2 (by simp; omega)
      rw [h1] at h
      simp only [List.length_append] at hm
      obtain ⟨m, rfl⟩ : ∃ k, m = k + 1 := ⟨m - 1, by omega⟩
      refine not_glued (chk := chk) (n := m) (pre := pre ++ u) (t := t) (by simp; omega) ht ?_
      simpa using h
    · rintro rfl
      exact g7.2
  · rintro ⟨u, w, h1, h2, h3, -, h4, h5, h6⟩
    obtain ⟨src, pos, rest⟩ := lx
    simp only at h1 h2 h3 h5 h6
    subst h1 h4 h5 h6
    exact nextToken_fits chk pre u w rest t h2 h3

end SqlParse
