import Verif.Proofs.Script
/-! The data after `COPY .. FROM STDIN`. -/
namespace SqlParse

/-- `l = u ++ t` is cut where the line `\.` begins. -/
def Cut (l u t r : List Char) : Prop := l = u ++ t ∧ EndsNL u ∧ EndLine t r

theorem endsNL_cons {c : Char} {u : List Char} (h : EndsNL (c :: u)) : (c = '\n' ∧ u = []) ∨ EndsNL u := by
  obtain ⟨u', h⟩ := h
  cases u' with
  | nil => simp at h; exact .inl h
  | cons a u' => simp at h; exact .inr ⟨u', h.2⟩

theorem EndsNL.cons {u : List Char} (h : EndsNL u) (c : Char) : EndsNL (c :: u) := by
  obtain ⟨u', rfl⟩ := h
  exact ⟨c :: u', rfl⟩

/-- Every cut of `c :: cs` is right after `c = '\n'`, or a cut of `cs`. -/
theorem cut_cons {c : Char} {cs u t r : List Char} (h : Cut (c :: cs) u t r) :
    (c = '\n' ∧ u = [c] ∧ t = cs ∧ EndLine cs r) ∨ ∃ u', u = c :: u' ∧ Cut cs u' t r := by
  obtain ⟨h1, h2, h3⟩ := h
  cases u with
  | nil => obtain ⟨u', h⟩ := h2; simp at h
  | cons a u =>
    simp at h1
    obtain ⟨rfl, rfl⟩ := h1
    rcases endsNL_cons h2 with ⟨rfl, rfl⟩ | h2
    · left; exact ⟨rfl, rfl, by simp, by simpa using h3⟩
    · right; exact ⟨u, rfl, rfl, h2, h3⟩

theorem Cut.cons {cs u t r : List Char} (h : Cut cs u t r) (c : Char) : Cut (c :: cs) (c :: u) t r :=
  ⟨by rw [h.1]; rfl, h.2.1.cons c, h.2.2⟩

theorem not_cut_nil {u t r : List Char} (h : Cut [] u t r) : False := by
  obtain ⟨h1, ⟨u', h2⟩, h3⟩ := h
  simp at h1
  rw [h1.1] at h2; simp at h2

/-- The loop finds the first cut. -/
def LoopSpec (pos : Nat) (l : List Char) : Option (Nat × Nat × List Char) → Prop
  | some (e, p, r) => ∃ u t, Cut l u t r ∧ (∀ u' t' r', Cut l u' t' r' → u.length ≤ u'.length) ∧ e = pos + blen u ∧
      p + blen r = pos + blen l
  | none => ∀ u t r, ¬ Cut l u t r

theorem LoopSpec.cons {c : Char} {cs : List Char} {pos pos' : Nat} {o} (h : LoopSpec pos' cs o) (hp : pos' = pos + c.utf8Size)
    (hc : ∀ r, c = '\n' → ¬ EndLine cs r) : LoopSpec pos (c :: cs) o := by
  cases o with
  | none =>
    intro u t r hcut
    rcases cut_cons hcut with ⟨h1, h2, h3, h4⟩ | ⟨u', rfl, h1⟩
    · exact hc r h1 h4
    · exact h _ _ _ h1
  | some x =>
    obtain ⟨e, p, r⟩ := x
    obtain ⟨u, t, h1, h2, h3, h4⟩ := h
    refine ⟨c :: u, t, h1.cons c, ?_, by simp; omega, by simp; omega⟩
    intro u' t' r' hcut
    rcases cut_cons hcut with ⟨g1, g2, g3, g4⟩ | ⟨u'', rfl, g1⟩
    · exact absurd g4 (hc r' g1)
    · have := h2 _ _ _ g1
      simp; omega

theorem stdinLoop_first (pos : Nat) (l : List Char) : LoopSpec pos l (stdinLoop pos l) := by
  have s1 : '\n'.utf8Size = 1 := rfl
  have s2 : '\\'.utf8Size = 1 := rfl
  have s3 : '.'.utf8Size = 1 := rfl
  induction hn : l.length using Nat.strongRecOn generalizing l pos with
  | _ n ih =>
  cases l with
  | nil => intro u t r h; exact not_cut_nil h
  | cons c cs =>
    unfold stdinLoop
    split
    · next hc =>
      simp at hc; subst hc
      split
      · next ds =>
        refine ⟨['\n'], '\\' :: '.' :: '\n' :: ds, ⟨rfl, ⟨[], rfl⟩, .inl rfl⟩, ?_, by simp [s1], by simp [s1, s2, s3]; omega⟩
        intro u' t' r' h
        obtain ⟨-, ⟨w, rfl⟩, -⟩ := h
        simp
      · refine ⟨['\n'], ['\\', '.'], ⟨rfl, ⟨[], rfl⟩, .inr ⟨rfl, rfl⟩⟩, ?_, by simp [s1], by simp [s1, s2, s3]⟩
        intro u' t' r' h
        obtain ⟨-, ⟨w, rfl⟩, -⟩ := h
        simp
      · next d ds hd =>
        have h1 := ih (d :: ds).length (by simp at hn ⊢; omega) (pos + 3) (d :: ds) rfl
        refine LoopSpec.cons (pos' := pos + 1) (LoopSpec.cons (pos' := pos + 2) (LoopSpec.cons h1 (by omega) (by simp)) (by omega) (by simp)) (by omega) ?_
        intro r _ h
        rcases h with h | ⟨h, -⟩
        · simp at h; exact hd h.1
        · simp at h
      · next d ds hd1 hd2 hd3 =>
        have h1 := ih (d :: ds).length (by simp at hn ⊢; omega) (pos + 2) (d :: ds) rfl
        refine LoopSpec.cons (pos' := pos + 1) (LoopSpec.cons h1 (by omega) (by simp)) (by omega) ?_
        intro r _ h
        rcases h with h | ⟨h, -⟩
        · simp at h; exact hd1 _ h.1 h.2
        · simp at h; exact hd2 h.1 h.2
      · intro u t r h
        rcases cut_cons h with ⟨-, -, -, h | ⟨h, -⟩⟩ | ⟨u', -, h'⟩
        · simp at h
        · simp at h
        · rcases cut_cons h' with ⟨h, -⟩ | ⟨u', -, h⟩
          · cases h
          · exact not_cut_nil h
      · next h1 h2 h3 h4 h5 =>
        refine LoopSpec.cons (ih cs.length (by simp at hn ⊢; omega) (pos + 1) cs rfl) (by omega) ?_
        intro r _ h
        rcases h with rfl | ⟨rfl, -⟩
        · exact h1 _ rfl
        · exact h2 rfl
    · next hc =>
      refine LoopSpec.cons (ih cs.length (by simp at hn ⊢; omega) _ cs rfl) rfl ?_
      intro r h
      subst h
      simp at hc

theorem slice_mid' {a b c : List Char} {i j : Nat} (hi : i = blen a) (hj : j = blen a + blen b) :
    slice (a ++ (b ++ c)) i j = some b := by
  subst hi hj
  exact slice_mid a b c

/-- `read_from_stdin` returns the data. -/
theorem readStdin_data {lx lx' : Lexer} {d : List Char} {sp : Span} (pre : List Char) (h1 : lx.src = pre ++ lx.rest)
    (h2 : lx.pos = blen pre) (h : lx.readStdin = some (d, sp, lx')) :
    ∃ lead, CopyData lx.rest lead d lx'.rest ∧ sp = ⟨lx.pos + blen lead, lx.pos + blen lead + blen d⟩ := by
  obtain ⟨u, g1, g2, g3, g4⟩ := skipWhile_spec isStdinBlank lx.pos lx.rest
  unfold Lexer.readStdin at h
  generalize hr : skipWhile isStdinBlank lx.pos lx.rest = r at *
  obtain ⟨p, rest⟩ := r
  simp only at g1 g2 g4 h
  have hbl : ∀ c ∈ u, isBlankNotNL c = true := g3
  have hsrc : lx.src = (pre ++ u) ++ rest := by rw [h1, g1]; simp
  have hp : p = blen (pre ++ u) := by rw [g2, h2]; simp
  cases rest with
  | nil =>
    simp only at h
    rw [hsrc] at h
    have : slice (pre ++ u ++ []) (blen (pre ++ u ++ [])) (blen (pre ++ u ++ [])) = some [] := by
      have := slice_mid (pre ++ u) [] []
      simpa using this
    rw [this] at h
    simp at h
    obtain ⟨rfl, rfl, rfl⟩ := h
    refine ⟨u, ⟨u, [], [], by simp, by simpa using g1, hbl, by simp, .inr ⟨rfl, by simp⟩, .inr ⟨rfl, rfl, ?_⟩⟩, by simp [h2]⟩
    rintro ⟨u, t, r, h1, h2, h3⟩
    exact not_cut_nil ⟨by simpa using h1, h2, h3⟩
  | cons c cs =>
    simp only at h
    have hhead : isBlankNotNL c = false := by
      have := g4 c (by simp)
      exact this
    have key : ∃ nl body st, c :: cs = nl ++ body ∧ (nl = ['\n'] ∨ (nl = [] ∧ ∀ c ∈ body.head?, c ≠ '\n')) ∧
        (if (c == '\n') = true then p + 1 else p) = st ∧ st = blen (pre ++ u ++ nl) := by
      by_cases hc : c = '\n'
      · subst hc
        refine ⟨['\n'], cs, p + 1, rfl, .inl rfl, by simp, ?_⟩
        rw [hp]; simp only [blen_append]; rfl
      · refine ⟨[], c :: cs, p, rfl, .inr ⟨rfl, by simpa using hc⟩, by simp [hc], by simpa using hp⟩
    obtain ⟨nl, body, st, k1, k2, k3, k4⟩ := key
    rw [k3] at h
    have hloop := stdinLoop_first p (c :: cs)
    have hnl : ∀ {x : List Char}, EndsNL x → ∀ {y}, c :: cs = x ++ y → ∃ d, x = nl ++ d := by
      intro x hx y hy
      rcases k2 with rfl | ⟨rfl, -⟩
      · obtain ⟨w, rfl⟩ := hx
        rw [k1] at hy
        cases w with
        | nil => exact ⟨[], rfl⟩
        | cons a w => simp at hy; exact ⟨w ++ ['\n'], by simp [hy.1.symm]⟩
      · exact ⟨x, rfl⟩
    revert h hloop
    split
    · next stop pos' rest' heq =>
      intro h hloop
      rw [heq] at hloop
      obtain ⟨x, t, c1, c2, c3, c4⟩ := hloop
      obtain ⟨dd, rfl⟩ := hnl c1.2.1 c1.1
      have hs : slice lx.src st stop = some dd := by
        rw [hsrc, c1.1, show (pre ++ u ++ (nl ++ dd ++ t)) = (pre ++ u ++ nl) ++ (dd ++ t) by simp]
        refine slice_mid' k4 ?_
        rw [c3, hp]; simp; omega
      rw [hs] at h
      simp at h
      obtain ⟨rfl, rfl, rfl⟩ := h
      have e1 := c1.1
      refine ⟨u ++ nl, ⟨u, nl, t, rfl, by rw [g1, e1], hbl, ?_, ?_, .inl ⟨c1.2.1, c1.2.2, ?_⟩⟩, by
        rw [k4, c3, hp, h2]; simp; omega⟩
      · rw [← e1]; simpa using hhead
      · rcases k2 with rfl | ⟨rfl, k2⟩
        · exact .inl rfl
        · right
          refine ⟨rfl, ?_⟩
          have : body = dd ++ t := by rw [e1] at k1; simpa using k1.symm
          rw [← this]; exact k2
      · intro u' t' r' h1 h2 h3
        exact c2 u' t' r' ⟨by rw [e1, h1], h2, h3⟩
    · next heq =>
      intro h hloop
      rw [heq] at hloop
      have hs : slice lx.src st (blen lx.src) = some body := by
        have e : lx.src = (pre ++ u ++ nl) ++ (body ++ []) := by rw [hsrc, k1]; simp
        rw [e]
        refine slice_mid' k4 ?_
        simp; omega
      rw [hs] at h
      simp at h
      obtain ⟨rfl, rfl, rfl⟩ := h
      refine ⟨u ++ nl, ⟨u, nl, [], rfl, by rw [g1, k1]; simp, hbl, ?_, ?_, .inr ⟨rfl, rfl, ?_⟩⟩, by
        rw [k4, hsrc, k1, h2]; simp; omega⟩
      · rw [List.append_nil, ← k1]; simpa using hhead
      · rcases k2 with rfl | ⟨rfl, k2⟩
        · exact .inl rfl
        · exact .inr ⟨rfl, by simpa using k2⟩
      · rintro ⟨u', t', r', h1, h2, h3⟩
        exact hloop u' t' r' ⟨by rw [k1, h1], h2, h3⟩

theorem endLine_unique {t r r' : List Char} (h : EndLine t r) (h' : EndLine t r') : r = r' := by
  rcases h with rfl | ⟨rfl, rfl⟩
  · rcases h' with h' | ⟨h', -⟩
    · simpa using h'
    · simp at h'
  · rcases h' with h' | ⟨-, rfl⟩
    · simp at h'
    · rfl

theorem blanks_unique {p : Char → Bool} {u v u' v' : List Char} (h : u ++ v = u' ++ v') (hu : ∀ c ∈ u, p c = true)
    (hu' : ∀ c ∈ u', p c = true) (hv : ∀ c ∈ v.head?, p c = false) (hv' : ∀ c ∈ v'.head?, p c = false) : u = u' ∧ v = v' := by
  induction u generalizing u' with
  | nil =>
    cases u' with
    | nil => exact ⟨rfl, by simpa using h⟩
    | cons c u' =>
      have h : v = c :: (u' ++ v') := by simpa using h
      have h1 := hv c (by rw [h]; rfl)
      rw [hu' c (by simp)] at h1
      cases h1
  | cons c u ih =>
    cases u' with
    | nil =>
      have h : v' = c :: (u ++ v) := by simpa using h.symm
      have h1 := hv' c (by rw [h]; rfl)
      rw [hu c (by simp)] at h1
      cases h1
    | cons c' u' =>
      simp at h
      obtain ⟨rfl, h⟩ := h
      obtain ⟨h1, h2⟩ := ih h (fun c hc => hu c (by simp [hc])) (fun c hc => hu' c (by simp [hc]))
      exact ⟨by rw [h1], h2⟩

theorem copyData_unique {text lead d rest lead' d' rest' : List Char} (h : CopyData text lead d rest)
    (h' : CopyData text lead' d' rest') : lead = lead' ∧ d = d' ∧ rest = rest' := by
  obtain ⟨b, nl, tail, rfl, e1, e2, e3, e4, e5⟩ := h
  obtain ⟨b', nl', tail', rfl, f1, f2, f3, f4, f5⟩ := h'
  obtain ⟨rfl, h1⟩ := blanks_unique (e1 ▸ f1) e2 f2 e3 f3
  have hnl : nl = nl' := by
    rcases e4 with rfl | ⟨rfl, e4⟩
    · rcases f4 with rfl | ⟨rfl, f4⟩
      · rfl
      · have h1 : d' ++ tail' = '\n' :: (d ++ tail) := by simpa using h1.symm
        exact absurd rfl (f4 '\n' (by rw [h1]; rfl))
    · rcases f4 with rfl | ⟨rfl, f4⟩
      · have h1 : d ++ tail = '\n' :: (d' ++ tail') := by simpa using h1
        exact absurd rfl (e4 '\n' (by rw [h1]; rfl))
      · rfl
  subst hnl
  rcases e5 with ⟨g1, g2, g3⟩ | ⟨rfl, rfl, g3⟩
  · rcases f5 with ⟨k1, k2, k3⟩ | ⟨rfl, rfl, k3⟩
    · have a1 := g3 _ _ _ h1 k1 k2
      have a2 := k3 _ _ _ h1.symm g1 g2
      have hd : nl ++ d = nl ++ d' ∧ tail = tail' := List.append_inj h1 (by omega)
      obtain ⟨hd, rfl⟩ := hd
      exact ⟨rfl, by simpa using hd, endLine_unique g2 k2⟩
    · exact absurd ⟨_, _, _, by rw [List.append_nil] at h1; exact h1.symm, g1, g2⟩ k3
  · rcases f5 with ⟨k1, k2, k3⟩ | ⟨rfl, rfl, k3⟩
    · exact absurd ⟨_, _, _, by rw [List.append_nil] at h1; exact h1, k1, k2⟩ g3
    · exact ⟨rfl, by simpa using h1, rfl⟩

end SqlParse
