import Verif.Proofs.LaidApp
/-! A text that ends with a newline and `;`: without these two characters it has the same tokens, without the `;`. -/
namespace SqlParse

theorem getLast?_mem {α : Type} {l : List α} {c : α} (h : l.getLast? = some c) : c ∈ l := List.mem_of_getLast? h

/-- Tokens that end with a newline or `;`. -/
theorem readsAs_last {chk : Bool} {t : Token} {w r : List Char} {c : Char} (ht : t ≠ .eof) (h : ReadsAs chk t w r) (hl : w.getLast? = some c)
    (hc : c = '\n' ∨ c = ';') : (t = .invalid ∧ r = []) ∨ (t = .semiColon ∧ w = [';']) := by
  have hw : isWord c = false := by rcases hc with rfl | rfl <;> decide
  have hd : isDig c = false := by rcases hc with rfl | rfl <;> decide
  have hq : c ≠ '\'' ∧ c ≠ '"' ∧ c ≠ '`' ∧ c ≠ '$' ∧ c ≠ '-' ∧ c ≠ '.' ∧ c ≠ '@' := by rcases hc with rfl | rfl <;> decide
  have hs : starts c = true := by rcases hc with rfl | rfl <;> decide
  have hu : upChar c = c := by rcases hc with rfl | rfl <;> decide
  have hm := getLast?_mem hl
  have hup : ∀ k, upper w = k → c ∈ k := by
    rintro k rfl
    rw [← hu]
    exact List.mem_map_of_mem hm
  rcases h with ⟨h1, h2, -⟩ | ⟨h1, h2⟩
  · cases t
    case ident s k =>
      rcases h2 with ⟨rfl, -, h2, -⟩ | ⟨rfl, -⟩
      · have := h2 c hm; rw [hw] at this; cases this
      · simp [List.getLast?_cons] at hl; exact absurd hl.symm hq.2.2.1
    case integer s => obtain ⟨rfl, -, h2, -⟩ := h2; have := h2 c hm; rw [hd] at this; cases this
    case float s =>
      obtain ⟨rfl, a, b, rfl, ha, hb, -⟩ := h2
      rcases List.mem_append.1 hm with h | h
      · have := ha c h; rw [hd] at this; cases this
      · rcases List.mem_cons.1 h with h | h
        · exact absurd h hq.2.2.2.2.2.1
        · have := hb c h; rw [hd] at this; cases this
    case singleQuotedString s => obtain ⟨rfl, -⟩ := h2; simp [List.getLast?_cons] at hl; exact absurd hl.symm hq.1
    case doubleQuotedString s => obtain ⟨rfl, -⟩ := h2; simp [List.getLast?_cons] at hl; exact absurd hl.symm hq.2.1
    case dollarArg n =>
      obtain ⟨ds, rfl, -, h2, -⟩ := h2
      rcases List.mem_cons.1 hm with h | h
      · exact absurd h hq.2.2.2.1
      · have := h2 c h; rw [hd] at this; cases this
    case atAtGlobal => have := hup _ h2; rcases hc with rfl | rfl <;> exact absurd this (by decide)
    case atAtSession => have := hup _ h2; rcases hc with rfl | rfl <;> exact absurd this (by decide)
    case eof => exact absurd rfl ht
    case invalid => exact absurd rfl h1
    case semiColon => obtain ⟨l, e, h2⟩ := h2; cases e; exact .inr ⟨rfl, by simpa using h2⟩
    all_goals
      obtain ⟨l, e, h2⟩ := h2
      cases e
      exfalso
      simp only [List.mem_cons, List.not_mem_nil, or_false] at h2
      rcases hc with rfl | rfl <;> first | (subst h2; simp at hm; done) | (rcases h2 with rfl | rfl <;> simp at hm)
  · cases h2 with
    | char d _ h => simp at hm; subst hm; rw [hs] at h; cases h
    | dollar _ h => simp at hm; exact absurd hm hq.2.2.2.1
    | atAt u _ k hk h hu' =>
      exfalso
      rcases List.mem_cons.1 hm with h | hm
      · exact hq.2.2.2.2.2.2 h
      rcases List.mem_cons.1 hm with h | hm
      · exact hq.2.2.2.2.2.2 h
      have h3 : c ∈ upper u := by rw [← hu]; exact List.mem_map_of_mem hm
      have h4 := h.subset h3
      simp only [scopes, List.mem_cons, List.not_mem_nil, or_false] at hk
      rcases hk with rfl | rfl <;> (rcases hc with rfl | rfl <;> exact absurd h4 (by decide))
    | comment body h => exact .inl ⟨h1, rfl⟩
    | backQuote u _ h _ =>
      exfalso
      rcases List.mem_cons.1 hm with h' | hm
      · exact hq.2.2.1 h'
      rcases h c hm with h | h
      · rw [hw] at h; cases h
      · exact hq.2.2.2.2.1 h
    | quote q body hq' h => exact .inl ⟨h1, rfl⟩

theorem notHead_less {p : Char → Bool} {r b : List Char} (h : NotHead p (r ++ b)) : NotHead p r := by
  cases r with
  | nil => intro c hc; cases hc
  | cons c r => exact h

theorem lexeme_less {chk : Bool} {t : Token} {w r b : List Char} (ht : t ≠ .eof) (h : Lexeme chk t w (r ++ b)) : Lexeme chk t w r := by
  cases t
  case eof => exact absurd rfl ht
  case ident s k =>
    rcases h with ⟨h1, h2, h3, h4, h5, h6⟩ | h
    · exact .inl ⟨h1, h2, h3, h4, notHead_less h5, h6⟩
    · exact .inr h
  case integer s => exact ⟨h.1, h.2.1, h.2.2.1, notHead_less h.2.2.2⟩
  case float s =>
    obtain ⟨h1, a, c, h2, h3, h4, h5, h6⟩ := h
    exact ⟨h1, a, c, h2, h3, h4, h5, notHead_less h6⟩
  case singleQuotedString s => exact ⟨h.1, h.2.1, notHead_less h.2.2⟩
  case doubleQuotedString s => exact ⟨h.1, h.2.1, notHead_less h.2.2⟩
  case dollarArg n =>
    obtain ⟨ds, h1, h2, h3, h4, h5, h6⟩ := h
    exact ⟨ds, h1, h2, h3, h4, notHead_less h5, h6⟩
  all_goals exact h

theorem readsAs_less {chk : Bool} {t : Token} {w r b : List Char} (ht : t ≠ .eof) (h : ReadsAs chk t w (r ++ b)) (hb : b ≠ []) : ReadsAs chk t w r := by
  rcases h with ⟨h1, h2, h3⟩ | ⟨h1, h2⟩
  · exact .inl ⟨h1, lexeme_less ht h2, notHead_less h3⟩
  · refine .inr ⟨h1, ?_⟩
    generalize hx : r ++ b = x at h2
    have hne : x ≠ [] := by rw [← hx]; simp [hb]
    cases h2 with
    | char c _ h => exact .char c _ h
    | dollar _ h => rw [← hx] at h; exact .dollar _ (notHead_less h)
    | atAt u _ k hk h hu h' =>
      refine .atAt u _ k hk h hu fun k' hk' c hc => h' k' hk' c ?_
      rw [← hx]
      cases r with
      | nil => cases hc
      | cons => exact hc
    | comment => exact absurd rfl hne
    | backQuote u _ h h' => rw [← hx] at h'; exact .backQuote u _ h (notHead_less h')
    | quote => exact absurd rfl hne

theorem skipped_less {u r b : List Char} (h : Skipped u (r ++ b)) (hr : r ≠ []) : Skipped u r := by
  generalize hx : r ++ b = x at h
  induction h with
  | nil => exact .nil _
  | cons u us rest h hs ih =>
    refine .cons u us _ ?_ (ih hx)
    generalize he : us ++ rest = x at h
    have hn : x ≠ [] := by rw [← he, ← hx]; simp [hr]
    cases h with
    | blank c _ h => exact .blank c _ h
    | line a e body _ ha hb he => exact .line a e body _ ha hb he
    | lastLine => exact absurd rfl hn
    | block body _ hb => exact .block body _ hb

theorem app_last {l u us : List Char} {c : Char} (h : u ++ us = l ++ [c]) :
    (us = [] ∧ u = l ++ [c]) ∨ ∃ us', us = us' ++ [c] ∧ l = u ++ us' := by
  rcases List.eq_nil_or_concat us with rfl | ⟨us', x, rfl⟩
  · exact .inl ⟨rfl, by simpa using h⟩
  · rw [List.concat_eq_append, ← List.append_assoc] at h
    obtain ⟨h1, h2⟩ := List.append_inj' h rfl
    cases h2
    exact .inr ⟨us', by simp, h1.symm⟩

theorem trivia_nl {u l x : List Char} (h : Trivia u x) (hu : u = l ++ ['\n']) : Skipped l [] := by
  cases h with
  | blank c _ h =>
    cases l with
    | nil => exact .nil _
    | cons => have := congrArg List.length hu; simp at this
  | line a e body _ ha hb he =>
    have h1 : a :: a :: (body ++ [e]) = (a :: a :: body) ++ [e] := rfl
    rw [h1] at hu
    have h2 := (List.append_inj' hu rfl).1
    have := Skipped.cons _ [] [] (.lastLine a body ha hb) (.nil _)
    rw [← h2]
    simpa using this
  | lastLine a body ha hb =>
    exfalso
    have hm : '\n' ∈ a :: a :: body := by rw [hu]; simp
    simp only [List.mem_cons] at hm
    rcases hm with h | h | h
    · rcases ha with rfl | rfl <;> exact absurd h (by decide)
    · rcases ha with rfl | rfl <;> exact absurd h (by decide)
    · exact (hb _ h).1 rfl
  | block body _ hb =>
    exfalso
    have := congrArg List.getLast? hu
    simp [List.getLast?_cons, List.getLast?_append] at this

theorem skipped_cut {l u r : List Char} (h : Skipped u r) (hu : u = l ++ ['\n']) : Skipped l [] := by
  induction h generalizing l with
  | nil => simp at hu
  | cons u us rest h hs ih =>
    rcases app_last hu with ⟨rfl, hu'⟩ | ⟨us', rfl, rfl⟩
    · exact trivia_nl h hu'
    · have ih := ih rfl
      refine .cons u us' [] ?_ ih
      generalize he : us' ++ ['\n'] ++ rest = x at h
      have hn : x ≠ [] := by rw [← he]; simp
      cases h with
      | blank c _ h => exact .blank c _ h
      | line a e body _ ha hb he => exact .line a e body _ ha hb he
      | lastLine => exact absurd rfl hn
      | block body _ hb => exact .block body _ hb

theorem skipped_noSemi {l u : List Char} (h : Skipped u []) (hu : u = l ++ ['\n', ';']) : False := by
  generalize hr : ([] : List Char) = r at h
  have tr : ∀ {u x m : List Char}, Trivia u x → u = m ++ [';'] → (∀ m', m ≠ m' ++ ['\n']) ∧ m ≠ [] := by
    intro u x m h hu
    cases h with
    | blank c _ h =>
      cases m with
      | nil => simp at hu; subst hu; rcases h with h | h | h | h <;> cases h
      | cons => have := congrArg List.length hu; simp at this
    | line a e body _ ha hb he =>
      have := congrArg List.getLast? hu
      simp [List.getLast?_cons, List.getLast?_append] at this
      subst this
      rcases he with h | h <;> cases h
    | lastLine a body ha hb =>
      refine ⟨?_, ?_⟩
      · rintro m' rfl
        have hm : '\n' ∈ a :: a :: body := by rw [hu]; simp
        simp only [List.mem_cons] at hm
        rcases hm with h | h | h
        · rcases ha with rfl | rfl <;> exact absurd h (by decide)
        · rcases ha with rfl | rfl <;> exact absurd h (by decide)
        · exact (hb _ h).1 rfl
      · rintro rfl; simp at hu
    | block body _ hb =>
      have := congrArg List.getLast? hu
      simp [List.getLast?_cons, List.getLast?_append] at this
  induction h generalizing l with
  | nil => simp at hu
  | cons u us rest h hs ih =>
    have e : l ++ ['\n', ';'] = (l ++ ['\n']) ++ [';'] := by simp
    rw [e] at hu
    rcases app_last hu with ⟨rfl, hu'⟩ | ⟨us', rfl, hu'⟩
    · exact (tr h hu').1 l rfl
    · rcases app_last hu'.symm with ⟨rfl, -⟩ | ⟨us'', rfl, -⟩
      · cases hs' : ([] ++ [';'] : List Char) with
        | nil => cases hs'
        | cons => 
          rw [hs'] at hs
          generalize hy : _ :: _ = y at hs
          cases hs with
          | nil => cases hy
          | cons v vs _ hv hvs =>
            have : v ++ vs = [] ++ [';'] := by rw [← hy, ← hs']
            rcases app_last this with ⟨-, hv'⟩ | ⟨vs', hvs', hv'⟩
            · exact (tr hv hv').2 rfl
            · have : v = [] := by cases v with | nil => rfl | cons => cases hv'
              subst this
              cases hv
      · exact ih (l := us'') (by simp) hr

theorem gap_len {data : Data} {p : Tk} {o o' : Nat} {l l' : List Char} (h : Gap data p o l o' l') : o' + blen l' = o + blen l := by
  cases h with
  | none => rfl
  | data => simp; omega

theorem gap_none {data : Data} {p : Tk} {o o' : Nat} {l l' : List Char} (h : Gap data p o l o' l') (hd : data.after p = none) : o' = o ∧ l' = l := by
  cases h with
  | none => exact ⟨rfl, rfl⟩
  | data past _ lead d hda => rw [hd] at hda; cases hda

/-- The span of the last `;`, and the end. -/
def lastSemi (n : Nat) : List Tk := [(.semiColon, ⟨n + 1, n + 2⟩), (.eof, ⟨n + 2, n + 2⟩)]

/-- The text without the newline and `;` at its end has the same tokens, without the `;`; or the last token is invalid. -/
theorem laid_cut {chk : Bool} {data : Data} {o : Nat} {l L : List Char} {ts : List Tk} (h : Laid chk data o L ts) (hL : L = l ++ ['\n', ';'])
    (hs : ';' ∉ l) (hd : ¬ ['$', '$'] <:+: l) :
    (∃ pre, ts = pre ++ lastSemi (o + blen l) ∧ Laid chk data o l (pre ++ [(.eof, ⟨o + blen l, o + blen l⟩)]) ∧
      ∀ p ∈ pre, p.1 ≠ .semiColon ∧ p.1 ≠ .doubleDollar) ∨ ∃ pre s s', ts = pre ++ [(.invalid, s), (.eof, s')] := by
  induction h generalizing l with
  | eof o u h => exact (skipped_noSemi h hL).elim
  | tok o o' u w rest rest' t ts ht hsk hf hg h ih =>
    have hwne := readsAs_ne ht hf
    rcases List.eq_nil_or_concat rest with hr | ⟨rest0, c, hr⟩
    · -- the token is at the end
      subst hr
      have hr' : rest' = [] := gap_nil hg rfl
      subst hr'
      have hts := laid_nil h
      rcases List.eq_nil_or_concat w with hw | ⟨w0, c, hw⟩
      · exact absurd hw hwne
      · rw [List.concat_eq_append] at hw
        have hc : c = ';' := by
          have := congrArg List.getLast? hL
          simpa [hw, List.getLast?_append] using this
        subst hc
        rcases readsAs_last ht hf (by rw [hw]; simp) (.inr rfl) with ⟨h1, -⟩ | ⟨h1, h2⟩
        · exact .inr ⟨[], _, _, by rw [hts, h1]; rfl⟩
        · have hu : u = l ++ ['\n'] := by
            rw [h2] at hL
            have e : l ++ ['\n', ';'] = (l ++ ['\n']) ++ [';'] := by simp
            rw [e, List.append_nil] at hL
            exact (List.append_inj' hL rfl).1
          have hlen : o' = o + blen u + blen w := by
            have := gap_len hg
            simpa using this
          have n1 : '\n'.utf8Size = 1 := by decide
          have n2 : ';'.utf8Size = 1 := by decide
          refine .inl ⟨[], ?_, ?_, by simp⟩
          · rw [hts, hlen, h1, h2, hu]
            simp [lastSemi, n1, n2, Nat.add_assoc]
          · exact .eof o l (skipped_cut hsk hu)
    · rw [List.concat_eq_append] at hr
      subst hr
      have e : l ++ ['\n', ';'] = (l ++ ['\n']) ++ [';'] := by simp
      rw [e, ← List.append_assoc, ← List.append_assoc] at hL
      obtain ⟨hL1, hc⟩ := List.append_inj' hL rfl
      cases hc
      clear hL
      rcases app_last hL1 with ⟨hr, hL⟩ | ⟨rest1, hr, hL⟩
      · subst hr
        exfalso
        have hl : w.getLast? = some '\n' := by
          have := congrArg List.getLast? hL
          rcases List.eq_nil_or_concat w with hw | ⟨w0, c, hw⟩
          · exact absurd hw hwne
          · rw [List.concat_eq_append] at hw
            subst hw
            simpa [← List.append_assoc] using this
        rcases readsAs_last ht hf hl (.inl rfl) with ⟨-, h1⟩ | ⟨-, h1⟩
        · simp at h1
        · rw [h1] at hl; simp at hl
      · subst hr
        have h1 : t ≠ .semiColon := by
          rintro rfl
          rcases hf with ⟨-, hf, -⟩ | ⟨hf, -⟩
          · obtain ⟨x, e, hf⟩ := hf
            cases e
            simp at hf
            subst hf
            exact hs (by rw [hL]; simp)
          · cases hf
        have h2 : t ≠ .doubleDollar := by
          rintro rfl
          rcases hf with ⟨-, hf, -⟩ | ⟨hf, -⟩
          · obtain ⟨x, e, hf⟩ := hf
            cases e
            simp at hf
            subst hf
            exact hd ⟨u, rest1, by rw [hL]⟩
          · cases hf
        have hg' : o' = o + blen u + blen w ∧ rest' = rest1 ++ ['\n'] ++ [';'] := by
          exact gap_none hg (by simp [Data.after, h1, h2])
        obtain ⟨rfl, rfl⟩ := hg'
        have hlen : o + blen u + blen w + blen rest1 = o + blen l := by rw [hL]; simp; omega
        have e : rest1 ++ ['\n'] ++ [';'] = rest1 ++ ['\n', ';'] := by simp
        rcases ih (l := rest1) e (fun h => hs (by rw [hL]; simp [h])) (fun h => hd (by rw [hL]; exact h.trans ⟨u ++ w, [], by simp⟩)) with
          ⟨pre, h3, h4, h5⟩ | ⟨pre, s, s', h3⟩
        · refine .inl ⟨(t, ⟨o + blen u, o + blen u + blen w⟩) :: pre, by rw [h3, hlen]; rfl, ?_, ?_⟩
          · rw [hlen] at h4
            rw [List.append_assoc] at hL
            have hsk' : Skipped u ((w ++ rest1) ++ (['\n'] ++ [';'])) := by simpa using hsk
            have hf' : ReadsAs chk t w (rest1 ++ (['\n'] ++ [';'])) := by simpa using hf
            have := Laid.tok (checked := chk) (data := data) o _ u w rest1 rest1 t _ ht (skipped_less hsk' (by simp [hwne])) (readsAs_less ht hf' (by simp))
              (.none _ _ (by simp [Data.after, h1, h2])) h4
            rw [hL]
            rw [hL] at this
            exact this
          · intro p hp
            rcases List.mem_cons.1 hp with rfl | hp
            · exact ⟨h1, h2⟩
            · exact h5 p hp
        · exact .inr ⟨_ :: pre, s, s', by rw [h3]; rfl⟩

end SqlParse
