import Verif.Api
import Verif.Proofs.Lexer
/-!
Facts that hold for every parser program, by induction on `Prog`: the base invariant of the parser state
is preserved, the position only moves forward, issues and the argument log are only appended to.
-/
namespace SqlParse

/-- `sp` is the span of an occurrence of the token `t` in `src`. -/
def TokOK (chk : Bool) (src : List Char) (t : Token) (sp : Span) : Prop :=
  ∃ a w b, src = a ++ (w ++ b) ∧ sp.start = blen a ∧ sp.stop = blen a + blen w ∧ Lexeme chk t w b ∧
    (t = .eof ↔ w = []) ∧ IsToken chk src t sp

/-- A recorded issue carries the source text under its span. -/
def IssueOK (src : List Char) (i : Issue) : Prop :=
  slice src i.span.start i.span.stop = some i.segment ∧
  ∀ f ∈ i.fragments, slice src f.span.start f.span.stop = some f.segment

/-- Base invariant of the parser state. -/
structure BInv (s : St) : Prop where
  lex : LexInv s.checked s.lx
  tok : TokOK s.checked s.lx.src s.token s.span
  pos : s.span.stop ≤ s.lx.pos
  peek : ∀ t sp, s.peeked = some (t, sp) → TokOK s.checked s.lx.src t sp ∧ s.span.stop ≤ sp.start ∧
    sp.stop = s.lx.pos ∧ s.token.isKw .LEFT = true

/-- How the state may change. -/
structure Mono (s s' : St) : Prop where
  src : s'.lx.src = s.lx.src
  isrc : s'.issueSrc = s.issueSrc
  opts : s'.opts = s.opts
  chk : s'.checked = s.checked
  stop : s.span.stop ≤ s'.span.stop
  start : s.span.start ≤ s'.span.start
  pos : s.lx.pos ≤ s'.lx.pos
  issues : ∃ l, s'.issues = s.issues ++ l ∧ ∀ i ∈ l, IssueOK s.issueSrc i
  log : ∃ l, s'.argLog = s.argLog ++ l ∧ ∀ x ∈ l, s.span.start ≤ x.start
  arg : s'.arg + s.argLog.length = s.arg + s'.argLog.length
  data : ∃ l, s'.dataLog = s.dataLog ++ l ∧ ∀ x ∈ l, s.span.start ≤ x.1.start

theorem Mono.refl (s : St) : Mono s s :=
  ⟨rfl, rfl, rfl, rfl, Nat.le_refl _, Nat.le_refl _, Nat.le_refl _, ⟨[], by simp⟩, ⟨[], by simp⟩, rfl, ⟨[], by simp⟩⟩

theorem Mono.trans {a b c : St} (h1 : Mono a b) (h2 : Mono b c) : Mono a c := by
  obtain ⟨l1, h3, h4⟩ := h1.issues
  obtain ⟨l2, h5, h6⟩ := h2.issues
  obtain ⟨m1, h7, k1⟩ := h1.log
  obtain ⟨m2, h8, k2⟩ := h2.log
  obtain ⟨d1, g1, g2⟩ := h1.data
  obtain ⟨d2, g3, g4⟩ := h2.data
  refine ⟨h2.src.trans h1.src, h2.isrc.trans h1.isrc, h2.opts.trans h1.opts, h2.chk.trans h1.chk,
    Nat.le_trans h1.stop h2.stop, Nat.le_trans h1.start h2.start, Nat.le_trans h1.pos h2.pos,
    ⟨l1 ++ l2, by simp [h5, h3], ?_⟩, ⟨m1 ++ m2, by simp [h8, h7], ?_⟩, ?_, ⟨d1 ++ d2, by simp [g3, g1], ?_⟩⟩
  · intro i hi
    rcases List.mem_append.1 hi with hi | hi
    · exact h4 i hi
    · rw [← h1.isrc]; exact h6 i hi
  · intro x hx
    rcases List.mem_append.1 hx with hx | hx
    · exact k1 x hx
    · exact Nat.le_trans h1.start (k2 x hx)
  · have := h1.arg; have := h2.arg; omega
  · intro x hx
    rcases List.mem_append.1 hx with hx | hx
    · exact g2 x hx
    · exact Nat.le_trans h1.start (g4 x hx)

/-- A step relation for outcomes. -/
def Good (s : St) {α : Type} : Out α → Prop
  | .ok _ s' => BInv s' ∧ Mono s s'
  | .err s' => BInv s' ∧ Mono s s'
  | _ => True

theorem TokOK.bounds {chk : Bool} {src : List Char} {t : Token} {sp : Span} (h : TokOK chk src t sp) :
    Boundary src sp.start ∧ Boundary src sp.stop ∧ sp.start ≤ sp.stop ∧ sp.stop ≤ blen src := by
  obtain ⟨a, w, b, h1, h2, h3, -⟩ := h
  refine ⟨⟨a, w ++ b, h1, h2⟩, ⟨a ++ w, b, by simp [h1], by simp [h3]⟩, by omega, ?_⟩
  subst h1; simp; omega

theorem TokOK.isToken {chk : Bool} {src : List Char} {t : Token} {sp : Span} (h : TokOK chk src t sp) : IsToken chk src t sp := by
  obtain ⟨a, w, b, h1, h2, h3, h4, h5, h6⟩ := h
  exact h6

theorem nextToken_tok {chk : Bool} {lx lx' : Lexer} {t : Token} {sp : Span} (h : LexInv chk lx)
    (heq : lx.nextToken chk = .ok t sp lx') : TokOK chk lx.src t sp := by
  obtain ⟨⟨pre, h1, h2⟩, hr⟩ := h
  have := nextToken_spec chk lx pre h1 h2
  rw [heq] at this
  obtain ⟨ts, w, g1, g2, g3, g4, g5, g6, g7, g8⟩ := this
  exact ⟨pre ++ ts, w, lx'.rest, by rw [h1, g1]; simp, by simp [g3], by rw [g4, g3]; simp, g7, g8, lx, lx', hr, heq⟩

theorem next_good {s : St} (h : BInv s) : Good s s.next := by
  unfold St.next
  split
  · next t sp hp =>
    obtain ⟨h1, h2, h3, h4⟩ := h.peek t sp hp
    have hb := h1.bounds
    have hs := h.tok.bounds
    refine ⟨⟨h.lex, h1, Nat.le_of_eq h3, by simp⟩, ?_⟩
    exact ⟨rfl, rfl, rfl, rfl, by simp; omega, by simp; omega, Nat.le_refl _, ⟨[], by simp⟩, ⟨[], by simp⟩, rfl, ⟨[], by simp⟩⟩
  · next hp =>
    split
    · next t sp lx heq =>
      obtain ⟨g1, g2, g3, g4, g5, g6, g7, g8⟩ := nextToken_inv h.lex heq
      have ht := nextToken_tok h.lex heq
      have hs := h.tok.bounds
      have := h.pos
      refine ⟨⟨g1, by simpa [g2] using ht, by simp; omega, by simp [hp]⟩, ?_⟩
      exact ⟨by simpa using g2, rfl, rfl, rfl, by simp; omega, by simp; omega, by simp; omega, ⟨[], by simp⟩,
        ⟨[], by simp⟩, rfl, ⟨[], by simp⟩⟩
    · trivial

/-- After a successful `next` nothing is peeked, and the new token starts after the old one. -/
theorem next_ok {s s' : St} (h : BInv s) (heq : s.next = .ok () s') :
    s.span.stop ≤ s'.span.start ∧ s'.peeked = none ∧ s'.delim = s.delim ∧ s'.permit = s.permit ∧
      s'.issues = s.issues ∧ s'.argLog = s.argLog ∧ s'.arg = s.arg ∧
      (s'.token ≠ .eof → s'.span.start < s'.span.stop) := by
  unfold St.next at heq
  split at heq
  · next t sp hp =>
    obtain ⟨h1, h2, h3, h4⟩ := h.peek t sp hp
    simp at heq; subst heq
    refine ⟨h2, rfl, rfl, rfl, rfl, rfl, rfl, ?_⟩
    obtain ⟨a, w, b, g1, g2, g3, g4, g5, -⟩ := h1
    intro ht
    have : w ≠ [] := fun hw => ht (g5.2 hw)
    have := blen_pos_of_ne this
    simp; omega
  · next hp =>
    split at heq
    · next t sp lx hn =>
      obtain ⟨g1, g2, g3, g4, g5, g6, g7, g8⟩ := nextToken_inv h.lex hn
      have := h.pos
      simp at heq; subst heq
      exact ⟨by simp; omega, hp, rfl, rfl, rfl, rfl, rfl, g8⟩
    · simp at heq

theorem mkFrags_ok {src : List Char} {frs : List (String × Span)} {fs : List Fragment}
    (h : mkFrags src frs = some fs) : ∀ f ∈ fs, slice src f.span.start f.span.stop = some f.segment := by
  induction frs generalizing fs with
  | nil => simp [mkFrags] at h; subst h; simp
  | cons a r ih =>
    obtain ⟨m, sp⟩ := a
    simp only [mkFrags] at h
    split at h
    · next seg fs' h1 h2 =>
      simp at h; subst h
      intro f hf
      rcases List.mem_cons.1 hf with rfl | hf
      · exact h1
      · exact ih h2 f hf
    · simp at h

theorem issue_ok {s s' : St} {l : Level} {m : Msg} {sp : Span} {fr} (heq : s.issue l m sp fr = .ok () s') :
    ∃ seg fs, slice s.issueSrc sp.start sp.stop = some seg ∧ mkFrags s.issueSrc fr = some fs ∧
      s' = { s with issues := s.issues ++ [⟨l, m, sp, seg, fs⟩] } := by
  unfold St.issue at heq
  split at heq
  · next seg fs h1 h2 => simp at heq; exact ⟨seg, fs, h1, h2, heq.symm⟩
  · simp at heq

theorem issue_good {s : St} (h : BInv s) (l : Level) (m : Msg) (sp : Span) (fr) : Good s (s.issue l m sp fr) := by
  unfold St.issue
  split
  · next seg fs h1 h2 =>
    refine ⟨⟨h.lex, h.tok, h.pos, h.peek⟩, ?_⟩
    refine ⟨rfl, rfl, rfl, rfl, Nat.le_refl _, Nat.le_refl _, Nat.le_refl _, ⟨[⟨l, m, sp, seg, fs⟩], rfl, ?_⟩, ⟨[], by simp⟩, rfl, ⟨[], by simp⟩⟩
    intro i hi
    simp at hi; subst hi
    exact ⟨h1, mkFrags_ok h2⟩
  · trivial

theorem stdinLoop_spec (pos : Nat) (l : List Char) (e p : Nat) (r : List Char)
    (h : stdinLoop pos l = some (e, p, r)) :
    ∃ u v, l = u ++ (v ++ r) ∧ e = pos + blen u ∧ p = e + blen v := by
  have h1 : '\n'.utf8Size = 1 := rfl
  have h2 : '\\'.utf8Size = 1 := rfl
  have h3 : '.'.utf8Size = 1 := rfl
  induction hn : l.length using Nat.strongRecOn generalizing l pos with
  | _ n ih =>
  cases l with
  | nil => simp [stdinLoop] at h
  | cons c cs =>
    unfold stdinLoop at h
    split at h
    · next hc =>
      simp at hc; subst hc
      split at h
      · next ds =>
        simp at h
        obtain ⟨rfl, rfl, rfl⟩ := h
        exact ⟨['\n'], ['\\', '.', '\n'], by simp, by simp [h1], by simp [h1, h2, h3]⟩
      · simp at h
        obtain ⟨rfl, rfl, rfl⟩ := h
        exact ⟨['\n'], ['\\', '.'], by simp, by simp [h1], by simp [h2, h3]⟩
      · next d ds _ =>
        obtain ⟨u, v, g1, g2, g3⟩ := ih (d :: ds).length (by simp at hn ⊢; omega) _ _ h rfl
        exact ⟨'\n' :: '\\' :: '.' :: u, v, by simp [g1], by simp [h1, h2, h3]; omega, g3⟩
      · next d ds _ _ _ =>
        obtain ⟨u, v, g1, g2, g3⟩ := ih (d :: ds).length (by simp at hn ⊢; omega) _ _ h rfl
        exact ⟨'\n' :: '\\' :: u, v, by simp [g1], by simp [h1, h2]; omega, g3⟩
      · simp at h
      · obtain ⟨u, v, g1, g2, g3⟩ := ih cs.length (by simp at hn ⊢; omega) _ _ h rfl
        exact ⟨'\n' :: u, v, by simp [g1], by simp [h1]; omega, g3⟩
    · obtain ⟨u, v, g1, g2, g3⟩ := ih cs.length (by simp at hn ⊢; omega) _ _ h rfl
      exact ⟨c :: u, v, by simp [g1], by simp; omega, g3⟩

theorem stdinLoop_pos {pos : Nat} {l : List Char} {e p : Nat} {r : List Char}
    (h : stdinLoop pos l = some (e, p, r)) : pos < e := by
  induction hn : l.length using Nat.strongRecOn generalizing l pos with
  | _ n ih =>
  cases l with
  | nil => simp [stdinLoop] at h
  | cons c cs =>
    have := utf8Size_pos c
    unfold stdinLoop at h
    split at h
    · split at h
      · simp at h; omega
      · simp at h; omega
      · next d ds _ => have := ih (d :: ds).length (by simp at hn ⊢; omega) h rfl; omega
      · next d ds _ _ _ => have := ih (d :: ds).length (by simp at hn ⊢; omega) h rfl; omega
      · simp at h
      · have := ih cs.length (by simp at hn ⊢; omega) h rfl; omega
    · have := ih cs.length (by simp at hn ⊢; omega) h rfl; omega

/-- `read_from_stdin` never fails. -/
theorem readStdin_ok {lx : Lexer} (h : ∃ q, lx.src = q ++ lx.rest ∧ lx.pos = blen q) : ∃ d sp lx', lx.readStdin = some (d, sp, lx') ∧
      (∃ q, lx'.src = q ++ lx'.rest ∧ lx'.pos = blen q) ∧ lx'.src = lx.src ∧ lx.pos ≤ sp.start ∧ sp.start ≤ sp.stop ∧ sp.stop ≤ lx'.pos ∧
      slice lx.src sp.start sp.stop = some d := by
  obtain ⟨pre, h1, h2⟩ := h
  obtain ⟨u, g1, g2, g3, g4⟩ := skipWhile_spec isStdinBlank lx.pos lx.rest
  unfold Lexer.readStdin
  generalize hr : skipWhile isStdinBlank lx.pos lx.rest = r at *
  obtain ⟨p, rest⟩ := r
  simp only at g1 g2 g4 ⊢
  have hsrc : lx.src = pre ++ u ++ rest := by rw [h1, g1]; simp
  have hp : p = blen (pre ++ u) := by rw [g2, h2]; simp
  have hfin : ∀ (st en pos' : Nat) (rest' : List Char), Boundary lx.src st → Boundary lx.src en → lx.pos ≤ st → st ≤ en →
      en ≤ pos' → (∃ q, lx.src = q ++ rest' ∧ pos' = blen q) →
      ∃ d sp lx', (slice lx.src st en).map (fun s => (s, (⟨st, en⟩ : Span), (⟨lx.src, pos', rest'⟩ : Lexer))) = some (d, sp, lx') ∧
      (∃ q, lx'.src = q ++ lx'.rest ∧ lx'.pos = blen q) ∧ lx'.src = lx.src ∧ lx.pos ≤ sp.start ∧ sp.start ≤ sp.stop ∧ sp.stop ≤ lx'.pos ∧
      slice lx.src sp.start sp.stop = some d := by
    intro st en pos' rest' hb1 hb2 hle hle2 hle3 hq
    obtain ⟨m, hm⟩ := slice_isSome hb1 hb2 hle2
    obtain ⟨q, hq1, hq2⟩ := hq
    exact ⟨m, ⟨st, en⟩, ⟨lx.src, pos', rest'⟩, by rw [hm]; rfl, ⟨q, hq1, hq2⟩, rfl, hle, hle2, hle3, hm⟩
  cases rest with
  | nil =>
    simp only
    have : blen lx.src = p := by rw [hsrc, hp]; simp
    rw [this]
    refine hfin p p p [] ?_ ?_ (by omega) (Nat.le_refl _) (Nat.le_refl _) ⟨pre ++ u, by simpa using hsrc, hp⟩
    · exact ⟨pre ++ u, [], hsrc, hp⟩
    · exact ⟨pre ++ u, [], hsrc, hp⟩
  | cons c cs =>
    simp only
    have hstart : ∀ st, st = (if (c == '\n') = true then p + 1 else p) → Boundary lx.src st ∧ p ≤ st ∧ (c = '\n' ∧ st = p + 1 ∨ st = p) := by
      intro st hst
      split at hst
      · next hc =>
        simp at hc; subst hc
        refine ⟨⟨pre ++ u ++ ['\n'], cs, by rw [hsrc]; simp, ?_⟩, by omega, .inl ⟨rfl, hst⟩⟩
        rw [hst, hp, blen_append (pre ++ u)]; rfl
      · exact ⟨⟨pre ++ u, c :: cs, hsrc, by omega⟩, by omega, .inr hst⟩
    generalize hst : (if (c == '\n') = true then p + 1 else p) = st
    obtain ⟨hs1, hs2, hs3⟩ := hstart st hst.symm
    split
    · next stop pos' rest' heq =>
      obtain ⟨x, v, k1, k2, k3⟩ := stdinLoop_spec _ _ _ _ _ heq
      have hx : st ≤ stop := by
        rcases hs3 with ⟨rfl, hs3⟩ | hs3
        · cases x with
          | nil =>
            -- the loop never stops before the first newline
            exfalso
            simp at k2
            subst k2
            have := stdinLoop_pos heq
            omega
          | cons y x =>
            have := utf8Size_pos y
            simp at k2; omega
        · omega
      refine hfin st stop pos' rest' hs1 ⟨pre ++ u ++ x, v ++ rest', by rw [hsrc, k1]; simp, ?_⟩ (by omega) hx (by omega)
        ⟨pre ++ u ++ x ++ v, by rw [hsrc, k1]; simp, ?_⟩
      · rw [k2, hp, blen_append (pre ++ u)]
      · rw [k3, k2, hp, blen_append (pre ++ u ++ x), blen_append (pre ++ u)]
    · have hle := hs1.le
      refine hfin st (blen lx.src) (blen lx.src) [] hs1 (boundary_end _) (by omega) hle (Nat.le_refl _) ⟨lx.src, by simp, rfl⟩

/-- What `read_from_stdin` guarantees about positions; it never fails. -/
theorem readStdin_spec {chk : Bool} {lx : Lexer} (h : LexInv chk lx) : ∃ d sp lx', lx.readStdin = some (d, sp, lx') ∧
    LexInv chk lx' ∧ lx'.src = lx.src ∧ lx.pos ≤ sp.start ∧ sp.start ≤ sp.stop ∧ sp.stop ≤ lx'.pos ∧
    slice lx.src sp.start sp.stop = some d := by
  obtain ⟨d, sp, lx', a1, a2, a3, a4⟩ := readStdin_ok h.1
  exact ⟨d, sp, lx', a1, ⟨a2, by rw [a3]; exact .stdin h.2 a1⟩, a3, a4⟩

theorem op_good {α : Type} (o : Op α) {s : St} (h : BInv s) : Good s (o.run s) := by
  cases o with
  | cur => exact ⟨h, Mono.refl s⟩
  | next => exact next_good h
  | leftParenAhead =>
    simp only [Op.run]
    split
    · next hk =>
      split
      · exact ⟨h, Mono.refl s⟩
      · next hp =>
        split
        · next t sp lx heq =>
          obtain ⟨g1, g2, g3, g4, g5, g6, g7, g8⟩ := nextToken_inv h.lex heq
          have ht := nextToken_tok h.lex heq
          have := h.pos
          refine ⟨⟨g1, by simpa [g2] using h.tok, by show s.span.stop ≤ lx.pos; omega, ?_⟩, ?_⟩
          · intro t' sp' hh
            simp at hh
            obtain ⟨rfl, rfl⟩ := hh
            exact ⟨by simpa [g2] using ht, by show s.span.stop ≤ sp.start; omega, by show sp.stop = lx.pos; omega, hk⟩
          · exact ⟨g2, rfl, rfl, rfl, Nat.le_refl _, Nat.le_refl _, by show s.lx.pos ≤ lx.pos; omega, ⟨[], by simp⟩,
              ⟨[], by simp⟩, rfl, ⟨[], by simp⟩⟩
        · trivial
    · exact ⟨h, Mono.refl s⟩
  | issue l m sp fr => exact issue_good h _ _ _ _
  | issueIf f l v sp =>
    simp only [Op.run]
    split
    · exact issue_good h _ _ _ _
    · exact ⟨h, Mono.refl s⟩
  | takeArg =>
    simp only [Op.run]
    have h0 : BInv { s with arg := s.arg + 1, argLog := s.argLog ++ [s.span] } := ⟨h.lex, h.tok, h.pos, h.peek⟩
    have hm : Mono s { s with arg := s.arg + 1, argLog := s.argLog ++ [s.span] } :=
      ⟨rfl, rfl, rfl, rfl, Nat.le_refl _, Nat.le_refl _, Nat.le_refl _, ⟨[], by simp⟩, ⟨[s.span], rfl, by simp⟩, by simp; omega, ⟨[], by simp⟩⟩
    have hn := next_good h0
    split
    · next heq => rw [heq] at hn; exact ⟨hn.1, hm.trans hn.2⟩
    · next heq => rw [heq] at hn; exact ⟨hn.1, hm.trans hn.2⟩
    · trivial
    · trivial
  | delim => exact ⟨h, Mono.refl s⟩
  | setDelim t =>
    exact ⟨⟨h.lex, h.tok, h.pos, h.peek⟩,
      ⟨rfl, rfl, rfl, rfl, Nat.le_refl _, Nat.le_refl _, Nat.le_refl _, ⟨[], by simp⟩, ⟨[], by simp⟩, rfl, ⟨[], by simp⟩⟩⟩
  | permit => exact ⟨h, Mono.refl s⟩
  | setPermit b =>
    exact ⟨⟨h.lex, h.tok, h.pos, h.peek⟩,
      ⟨rfl, rfl, rfl, rfl, Nat.le_refl _, Nat.le_refl _, Nat.le_refl _, ⟨[], by simp⟩, ⟨[], by simp⟩, rfl, ⟨[], by simp⟩⟩⟩
  | dialect => exact ⟨h, Mono.refl s⟩
  | arguments => exact ⟨h, Mono.refl s⟩
  | listHack => exact ⟨h, Mono.refl s⟩
  | stdin =>
    simp only [Op.run]
    obtain ⟨d, sp, lx', g1, g2, g3, g4, g5, g6, g7⟩ := readStdin_spec h.lex
    rw [g1]
    simp only
    have hpos := h.pos
    have hm : Mono s { s with lx := lx', dataLog := s.dataLog ++ [(s.span, d, sp)] } :=
      ⟨g3, rfl, rfl, rfl, Nat.le_refl _, Nat.le_refl _, by show s.lx.pos ≤ lx'.pos; omega, ⟨[], by simp⟩, ⟨[], by simp⟩, rfl,
        ⟨[(s.span, d, sp)], rfl, by simp⟩⟩
    have hn : Good { s with lx := lx', dataLog := s.dataLog ++ [(s.span, d, sp)] } (St.next { s with lx := lx', dataLog := s.dataLog ++ [(s.span, d, sp)] }) := by
      cases hp : s.peeked with
      | none => exact next_good ⟨g2, by simpa [g3] using h.tok, by show s.span.stop ≤ lx'.pos; omega, by simp⟩
      | some q =>
        obtain ⟨t, sp'⟩ := q
        obtain ⟨k1, k2, k3, k4⟩ := h.peek t sp' hp
        have hb := k1.bounds
        have hs := h.tok.bounds
        simp only [St.next]
        refine ⟨⟨g2, by simpa [g3] using k1, by show sp'.stop ≤ lx'.pos; omega, by simp⟩, ?_⟩
        exact ⟨rfl, rfl, rfl, rfl, by simp; omega, by simp; omega, Nat.le_refl _, ⟨[], by simp⟩, ⟨[], by simp⟩, rfl, ⟨[], by simp⟩⟩
    split
    · next heq => rw [heq] at hn; exact ⟨hn.1, hm.trans hn.2⟩
    · next heq => rw [heq] at hn; exact ⟨hn.1, hm.trans hn.2⟩
    · trivial
    · trivial

theorem Good.mono {s s1 : St} {α : Type} {out : Out α} (hm : Mono s s1) (h : Good s1 out) : Good s out := by
  cases out with
  | ok a s' => exact ⟨h.1, hm.trans h.2⟩
  | err s' => exact ⟨h.1, hm.trans h.2⟩
  | panic m => trivial
  | oof => trivial

/-- Calls respect the base invariant. -/
def CallsGood (R : ∀ α, Fn α → St → Out α) : Prop := ∀ α (f : Fn α) s, BInv s → Good s (R α f s)

theorem loopN_good {σ β : Type} {step : σ → St → Out (Step σ β)} (h : ∀ x s, BInv s → Good s (step x s)) (n : Nat)
    (x : σ) (s : St) (hs : BInv s) : Good s (loopN step n x s) := by
  induction n generalizing x s with
  | zero => trivial
  | succ n ih =>
    have h1 := h x s hs
    unfold loopN
    split
    · next heq => rw [heq] at h1; exact (ih _ _ h1.1).mono h1.2
    · next heq => rw [heq] at h1; exact h1
    · next heq => rw [heq] at h1; exact h1
    · trivial
    · trivial

/-- Every program respects the base invariant and moves forward. -/
theorem runWith_good {R : ∀ α, Fn α → St → Out α} (hR : CallsGood R) (n : Nat) {α : Type} (p : Prog α) (s : St)
    (hs : BInv s) : Good s (runWith R n p s) := by
  induction p generalizing s with
  | ret a => exact ⟨hs, Mono.refl s⟩
  | bind p f ihp ihf =>
    have h1 := ihp s hs
    unfold runWith
    split
    · next heq => rw [heq] at h1; exact (ihf _ _ h1.1).mono h1.2
    · next heq => rw [heq] at h1; exact h1
    · trivial
    · trivial
  | op o => exact op_good o hs
  | throw => exact ⟨hs, Mono.refl s⟩
  | tryP p ih =>
    have h1 := ih s hs
    unfold runWith
    split
    · next heq => rw [heq] at h1; exact h1
    · next heq => rw [heq] at h1; exact h1
    · trivial
    · trivial
  | loop body x ih => exact loopN_good (fun x s hs => ih x s hs) n x s hs
  | call f => exact hR _ f s hs
  | panic m => trivial

theorem runFn_good (n : Nat) : CallsGood (runFn n) := by
  induction n with
  | zero => intro α f s _; trivial
  | succ n ih => intro α f s hs; exact runWith_good ih n (body f) s hs

theorem run_good (n : Nat) {α : Type} (p : Prog α) (s : St) (hs : BInv s) : Good s (p.run n s) :=
  runWith_good (runFn_good n) n p s hs

end SqlParse
