import Verif.Proofs.Kw
import Verif.Spec.RoundTrip
import Verif.Theorems.Grammar
/-! C31, C33, C07: names, DROP TABLE statements and strings are read back as they were written. -/
namespace SqlParse
variable {chk : Bool} {o : Nat} {rest w v : List Char} {t : Token} {toks : List Tk} {opts : Opts}

/-! ### Writing -/

theorem Skipped.blank {u : List Char} (h : Skipped u rest) : Skipped (' ' :: u) rest :=
  .cons [' '] u rest (.blank _ _ (.inl rfl)) h

theorem w_blank (h : Written chk (o + 1) rest toks) : Written chk o (' ' :: rest) toks := by
  have e : (' ').utf8Size = 1 := rfl
  cases h with
  | nil _ u h => exact .nil _ _ h.blank
  | cons _ u w r t toks ht hs hf h =>
    have := Written.cons (checked := chk) o (' ' :: u) w r t toks ht hs.blank hf (by simpa [e, Nat.add_assoc, Nat.add_comm, Nat.add_left_comm] using h)
    simpa [e, Nat.add_assoc, Nat.add_comm, Nat.add_left_comm] using this

theorem w_tok (ht : t ≠ .eof) (hf : Fits chk t w rest) (h : Written chk (o + blen w) rest toks) :
    Written chk o (w ++ rest) ((t, ⟨o, o + blen w⟩) :: toks) := by
  have := Written.cons (checked := chk) o [] w rest t toks ht (.nil _) (.inl hf) (by simpa using h)
  simpa using this

theorem fits_period (h : NotHead isDig rest) : Fits chk .period ['.'] rest := by
  refine ⟨by simp, ⟨_, rfl, by simp⟩, ?_⟩
  intro c hc
  have := h c hc
  simp [glued, this]
  intro h'; exact absurd h' (by decide)

theorem fits_comma : Fits chk .comma [','] rest := by
  refine ⟨by simp, ⟨_, rfl, by simp⟩, ?_⟩
  intro c hc
  simp [glued, isDig]

/-- A keyword and a blank. -/
theorem w_kw {k : Keyword} (hn : w ≠ []) (hw : w.all isWord = true) (hd : ∀ c ∈ w.head?, isDig c = false)
    (hg : glued w ' ' = false) (hk : Keyword.ofStr (upper w) = k) (h : Written chk (o + blen w + 1) rest toks) :
    Written chk o (w ++ ' ' :: rest) ((.ident w k, ⟨o, o + blen w⟩) :: toks) := by
  refine w_tok (by simp) ⟨by simp, .inl ⟨rfl, hn, by simpa using hw, hd, ?_, hk.symm⟩, ?_⟩ (w_blank h)
  · intro c hc
    simp at hc
    subst hc; rfl
  · intro c hc
    simp at hc
    subst hc; exact hg

/-- What may come directly after a name. -/
def nameStop (c : Char) : Bool := isWord c || c == '"' || c == '\''

theorem NotHead.imp {p q : Char → Bool} (h : NotHead p rest) (hi : ∀ c, p c = false → q c = false) : NotHead q rest :=
  fun c hc => hi c (h c hc)

/-- The token of a name. -/
theorem name_tok (h : NameText opts w v) : ∃ t, t ≠ .eof ∧ (∀ k, k.reserved = true → t.isKw k = false) ∧
    (∀ chk rest, NotHead nameStop rest → Fits chk t w rest) ∧
    (w.head? = none ∨ ∃ c ∈ w.head?, isDig c = false) ∧
    ∀ e sp r, e.opts = opts → e.args = noArgs → Idn e ((t, sp) :: r) (.ident v sp) r := by
  cases h with
  | word hn hw hd hr =>
    refine ⟨.ident w (Keyword.ofStr (upper w)), by simp, ?_, ?_, ?_, ?_⟩
    · intro k hk
      simp only [Token.isKw, decide_eq_false_iff_not]
      rintro rfl
      rw [hr] at hk; cases hk
    · intro chk rest h
      refine ⟨by simp, .inl ⟨rfl, hn, hw, hd, h.imp (by simp +contextual [nameStop]), rfl⟩, ?_⟩
      intro c hc
      have hc' := h c hc
      simp only [nameStop, Bool.or_eq_false_iff] at hc'
      cases hg : glued w c with
      | false => rfl
      | true =>
        exfalso
        simp only [glued, Bool.or_eq_true] at hg
        rcases hg with (hg | hg) | hg
        · simp only [List.contains_eq_mem, List.mem_cons, Prod.mk.injEq, List.not_mem_nil, or_false, decide_eq_true_eq] at hg
          rcases hg with h' | h' | h' | h' | h' | h' | h' | h' | h' | h' | h' | h' | h' | h' | h' | h' | h' | h' | h' <;>
            obtain ⟨rfl, rfl⟩ := h'
          all_goals first
            | (exact absurd (hw _ (List.mem_cons_self ..)) (by decide))
            | (exact absurd hc'.2 (by decide))
        · simp only [Bool.and_eq_true, beq_iff_eq] at hg
          obtain ⟨rfl, -⟩ := hg
          exact absurd (hw _ (List.mem_cons_self ..)) (by decide)
        · simp only [Bool.and_eq_true, bne_iff_ne, ne_eq, beq_iff_eq, List.all_eq_true] at hg
          obtain ⟨⟨-, hg⟩, -⟩ := hg
          cases w with
          | nil => exact hn rfl
          | cons a w =>
            have h1 := hd a (by simp)
            have h2 := hg a (by simp)
            rw [h1] at h2; cases h2
    · right
      cases w with
      | nil => exact absurd rfl hn
      | cons a w => exact ⟨a, by simp, hd a (by simp)⟩
    · intro e sp r he hg
      subst he
      refine .word hr (fun h => absurd h (kwSearch_ne _ _ _ (Nat.le_refl 2))) ?_
      simp [Env.noArg, argTk, hg, noArgs]
  | backQuoted hd hv =>
    refine ⟨.ident v .QUOTED_IDENTIFIER, by simp, ?_, ?_, ?_, ?_⟩
    · intro k hk
      simp only [Token.isKw, decide_eq_false_iff_not]
      rintro rfl
      revert hk; decide +kernel
    · intro chk rest h
      refine ⟨by simp, .inr ⟨rfl, hv, rfl⟩, ?_⟩
      intro c hc
      simp [glued]
      intro h'; exact absurd h' (by decide)
    · exact .inr ⟨'`', by simp, rfl⟩
    · intro e sp r he hg
      subst he
      exact .word (by decide +kernel) (fun _ => hd) (by simp [Env.noArg, argTk, hg, noArgs])
  | doubleQuoted hd hv =>
    refine ⟨.doubleQuotedString v, by simp, fun _ _ => rfl, ?_, ?_, ?_⟩
    · intro chk rest h
      refine ⟨by simp, ⟨rfl, hv, h.imp (by simp +contextual [nameStop])⟩, ?_⟩
      intro c hc
      simp [glued]
      intro h'; exact absurd h' (by decide)
    · exact .inr ⟨'"', by simp, rfl⟩
    · intro e sp r he hg
      subst he
      exact .quoted hd

theorem sepText_head {sep : List Char} {ws vs : List (List Char)} (h : NamesText opts ws vs) : NotHead isDig (sepText sep ws ++ rest) := by
  have key : ∀ w v r, NameText opts w v → NotHead isDig (w ++ r) := by
    intro w v r h
    obtain ⟨t, h1, -, h3, h4 | ⟨c, hc, hd⟩, -⟩ := name_tok h
    · have := lexeme_pos h1 (h3 true [] (by simp [NotHead])).2.1
      cases w with
      | nil => simp at this
      | cons => simp at h4
    · cases w with
      | nil => simp at hc
      | cons a w =>
        simp at hc
        subst hc
        rw [List.cons_append, notHead_cons]
        exact hd
  cases h with
  | one h => exact key _ _ _ h
  | cons h hs =>
    cases hs with
    | one h' => simp only [sepText, List.append_assoc]; exact key _ _ _ h
    | cons h' hs' => simp only [sepText, List.append_assoc]; exact key _ _ _ h

/-- The first token of a name. -/
def NameFirst (ts : List Tk) : Prop := ∃ t sp tl, ts = (t, sp) :: tl ∧ ∀ k, k.reserved = true → t.isKw k = false

theorem dotted_toks {ws vs : List (List Char)} (h : NamesText opts ws vs) (chk : Bool) (o : Nat) (rest : List Char) (toks : List Tk)
    (hr : NotHead nameStop rest) (hw : Written chk (o + blen (sepText ['.'] ws)) rest toks) :
    ∃ ts, Written chk o (sepText ['.'] ws ++ rest) (ts ++ toks) ∧ NameFirst ts ∧
      ∀ e r, e.opts = opts → e.args = noArgs → Next (· ≠ .period) r →
        ∃ p i, Dotted e (ts ++ r) p i r ∧ p.map (fun q => identText q.1) ++ [identText i] = vs.map some := by
  induction h generalizing o with
  | @one w v h =>
    obtain ⟨t, h1, h2, h3, h4, h5⟩ := name_tok h
    refine ⟨[(t, ⟨o, o + blen w⟩)], w_tok h1 (h3 _ _ hr) hw, ⟨t, _, [], rfl, h2⟩, ?_⟩
    intro e r he hg hn
    exact ⟨[], _, .last (h5 e _ r he hg) hn, rfl⟩
  | @cons w v ws vs h hs ih =>
    obtain ⟨t, h1, h2, h3, h4, h5⟩ := name_tok h
    have he : sepText ['.'] (w :: ws) = w ++ (['.'] ++ sepText ['.'] ws) := by cases hs <;> rfl
    have e1 : ('.').utf8Size = 1 := rfl
    rw [he] at hw ⊢
    obtain ⟨ts, g1, -, g3⟩ := ih (o + blen w + 1) (by simpa [e1, Nat.add_assoc] using hw)
    refine ⟨(t, ⟨o, o + blen w⟩) :: (.period, ⟨o + blen w, o + blen w + 1⟩) :: ts, ?_, ⟨t, _, _, rfl, h2⟩, ?_⟩
    · simp only [List.append_assoc, List.cons_append, List.nil_append]
      have hf : NotHead nameStop ('.' :: (sepText ['.'] ws ++ rest)) := by rw [notHead_cons]; rfl
      refine w_tok h1 (h3 _ _ hf) ?_
      have := w_tok (chk := chk) (o := o + blen w) (t := .period) (w := ['.']) (by simp) (fits_period (sepText_head hs)) g1
      simpa [e1] using this
    · intro e r he hg hn
      obtain ⟨p, i, g4, g5⟩ := g3 e r he hg hn
      exact ⟨(.ident v ⟨o, o + blen w⟩, ⟨o + blen w, o + blen w + 1⟩) :: p, i, .dot (h5 e _ _ he hg) g4, by simp only [List.map_cons, List.cons_append, g5]; rfl⟩

theorem qualifiedParts_eq (p : List (Ast × Span)) (i : Ast) :
    qualifiedParts (nd% QualifiedName [p, i]) = p.map (fun q => identText q.1) ++ [identText i] := by
  show (List.map toF p).map _ ++ _ = _
  rw [List.map_map]
  rfl

/-- A list of dotted names with commas. -/
theorem names_toks {wss vss : List (List (List Char))} (h : DottedTexts opts wss vss) (chk : Bool) (o : Nat) (rest : List Char)
    (toks : List Tk) (hr : NotHead nameStop rest)
    (hw : Written chk (o + blen (sepText c!", " (wss.map (sepText ['.'])))) rest toks) :
    ∃ ts, Written chk o (sepText c!", " (wss.map (sepText ['.'])) ++ rest) (ts ++ toks) ∧ NameFirst ts ∧
      ∀ e r, e.opts = opts → e.args = noArgs → Next (fun t => t ≠ .period ∧ t ≠ .comma) r →
        ∃ l, CommaL (QName e) (ts ++ r) l r ∧ l.map qualifiedParts = vss.map (·.map some) := by
  induction h generalizing o with
  | @one ws vs h =>
    obtain ⟨ts, g1, g2, g3⟩ := dotted_toks h chk o rest toks hr hw
    refine ⟨ts, g1, g2, ?_⟩
    intro e r he hg hn
    obtain ⟨t, sp, tl, rfl, hp, hc⟩ := Next.elim hn
    obtain ⟨p, i, g4, g5⟩ := g3 e ((t, sp) :: tl) he hg hp
    exact ⟨_, .one (.mk g4) hc, by simp [qualifiedParts_eq, g5]⟩
  | @cons ws vs wss vss h hs ih =>
    have he : sepText c!", " ((ws :: wss).map (sepText ['.'])) =
        sepText ['.'] ws ++ (c!", " ++ sepText c!", " (wss.map (sepText ['.']))) := by cases hs <;> rfl
    have e1 : (',').utf8Size = 1 := rfl
    have e2 : (' ').utf8Size = 1 := rfl
    rw [he] at hw ⊢
    obtain ⟨ts2, g1, -, g3⟩ := ih (o + blen (sepText ['.'] ws) + 1 + 1) (by
      have hl : ∀ x : Nat, o + (blen (sepText ['.'] ws) + (1 + (1 + x))) = o + blen (sepText ['.'] ws) + 1 + 1 + x := by omega
      rw [← hl]; simpa [e1, e2, Nat.add_assoc] using hw)
    have hx := w_tok (chk := chk) (o := o + blen (sepText ['.'] ws)) (t := .comma) (w := [',']) (by simp) fits_comma
      (w_blank (by simpa [e1] using g1))
    have hf : NotHead nameStop ([','] ++ ' ' :: (sepText c!", " (wss.map (sepText ['.'])) ++ rest)) := by
      rw [List.cons_append, notHead_cons]; rfl
    obtain ⟨ts1, k1, k2, k3⟩ := dotted_toks h chk o _ _ hf hx
    refine ⟨ts1 ++ (.comma, ⟨o + blen (sepText ['.'] ws), o + blen (sepText ['.'] ws) + blen [',']⟩) :: ts2, ?_, ?_, ?_⟩
    · simpa using k1
    · obtain ⟨t, sp, tl, rfl, ht⟩ := k2
      exact ⟨t, sp, _, rfl, ht⟩
    · intro e r he hg hn
      obtain ⟨p, i, g4, g5⟩ := k3 e ((.comma, ⟨o + blen (sepText ['.'] ws), o + blen (sepText ['.'] ws) + blen [',']⟩) :: (ts2 ++ r)) he hg
        (by show Token.comma ≠ .period; simp)
      obtain ⟨l, g6, g7⟩ := g3 e r he hg hn
      exact ⟨_ :: l, .cons (by simpa using QName.mk g4) g6, by simp [qualifiedParts_eq, g5, g7]⟩

theorem Next.imp {q q' : Token → Prop} {ts : List Tk} (h : Next q ts) (hi : ∀ t, q t → q' t) : Next q' ts := by
  cases ts with
  | nil => exact h
  | cons p ts => exact hi _ h

theorem next_append {q : Token → Prop} {ts r : List Tk} (h : NameFirst ts) (hq : ∀ t : Token, (∀ k, k.reserved = true → t.isKw k = false) → q t) :
    Next q (ts ++ r) := by
  obtain ⟨t, sp, tl, rfl, ht⟩ := h
  exact hq t ht

/-- **C31**: a dotted name of any length, its parts written in any way, is returned as exactly these parts in this
order, and no issue is added. -/
theorem C31_qualified_name (chk : Bool) (iss : Issues) (opts : Opts) (ws vs : List (List Char))
    (hu : opts.warnUnquoted = false) (hc : opts.warnCaps = false) (h : NamesText opts ws vs) :
    ∃ v, Api.one.Returns chk (c!"TRUNCATE TABLE " ++ sepText ['.'] ws) iss opts (some v) iss.issues ∧
      truncatedTable v = vs.map some := by
  have ho : opts.noStyle = opts := by cases opts; cases hu; cases hc; rfl
  obtain ⟨ts, g1, g2, g3⟩ := dotted_toks h chk 15 [] [] (by simp [NotHead]) (.nil _ _ (.nil _))
  simp only [List.append_nil] at g1
  have hw : Written chk 0 (c!"TRUNCATE TABLE " ++ sepText ['.'] ws)
      ((.ident c!"TRUNCATE" .TRUNCATE, ⟨0, 8⟩) :: (.ident c!"TABLE" .TABLE, ⟨9, 14⟩) :: ts) :=
    w_kw (w := c!"TRUNCATE") (by simp) rfl (by decide) (by decide) (by decide +kernel)
      (w_kw (w := c!"TABLE") (by simp) rfl (by decide) (by decide) (by decide +kernel) g1)
  obtain ⟨p, i, g4, g5⟩ := g3 (Env.start opts noData noArgs ((.ident c!"TRUNCATE" .TRUNCATE, ⟨0, 8⟩) :: (.ident c!"TABLE" .TABLE, ⟨9, 14⟩) :: ts))
    [eofTk (c!"TRUNCATE TABLE " ++ sepText ['.'] ws)] ho rfl (by show Token.eof ≠ .period; simp)
  refine ⟨_, C38_statement chk _ iss opts _ hu hc (isStatement_written hw (.truncate (.mk (k := some ⟨9, 14⟩) rfl (.some rfl) (.mk g4)))), ?_⟩
  have hq := qualifiedParts_eq p i
  rw [g5] at hq
  exact hq

/-- **C33**: for every list of dotted names, the text DROP TABLE [IF EXISTS] with these names and commas is parsed to
exactly these names, with no issue. -/
theorem C33_drop_table (chk : Bool) (iss : Issues) (opts : Opts) (ifExists : Bool) (wss vss : List (List (List Char)))
    (hu : opts.warnUnquoted = false) (hc : opts.warnCaps = false) (h : DottedTexts opts wss vss) :
    ∃ v, Api.one.Returns chk (c!"DROP TABLE " ++ ((if ifExists then c!"IF EXISTS " else []) ++ sepText c!", " (wss.map (sepText ['.']))))
        iss opts (some v) iss.issues ∧ droppedTables v = some (ifExists, vss.map (·.map some)) := by
  have ho : opts.noStyle = opts := by cases opts; cases hu; cases hc; rfl
  cases ifExists with
  | false =>
    obtain ⟨ts, g1, g2, g3⟩ := names_toks h chk 11 [] [] (by simp [NotHead]) (.nil _ _ (.nil _))
    simp only [List.append_nil] at g1
    have hw : Written chk 0 (c!"DROP TABLE " ++ ([] ++ sepText c!", " (wss.map (sepText ['.']))))
        ((.ident c!"DROP" .DROP, ⟨0, 4⟩) :: (.ident c!"TABLE" .TABLE, ⟨5, 10⟩) :: ts) :=
      w_kw (w := c!"DROP") (by simp) rfl (by decide) (by decide) (by decide +kernel)
        (w_kw (w := c!"TABLE") (by simp) rfl (by decide) (by decide) (by decide +kernel) g1)
    obtain ⟨l, g4, g5⟩ := g3 (Env.start opts noData noArgs ((.ident c!"DROP" .DROP, ⟨0, 4⟩) :: (.ident c!"TABLE" .TABLE, ⟨5, 10⟩) :: ts))
      [eofTk (c!"DROP TABLE " ++ ([] ++ sepText c!", " (wss.map (sepText ['.']))))] ho rfl
      (by show Token.eof ≠ .period ∧ Token.eof ≠ .comma; simp)
    refine ⟨_, C38_statement chk _ iss opts _ hu hc (isStatement_written hw (.drop (.mk (tmp := none) rfl (.none rfl) (.table (ie := none) rfl (.none ?_) g4
      (fun _ => rfl))))), ?_⟩
    · exact next_append g2 fun t ht => ht _ (by decide +kernel)
    · show some (false, (l.map toF).map qualifiedParts) = _
      rw [← g5]
      simp [toF]
  | true =>
    obtain ⟨ts, g1, g2, g3⟩ := names_toks h chk 21 [] [] (by simp [NotHead]) (.nil _ _ (.nil _))
    simp only [List.append_nil] at g1
    have hw : Written chk 0 (c!"DROP TABLE " ++ (c!"IF EXISTS " ++ sepText c!", " (wss.map (sepText ['.']))))
        ((.ident c!"DROP" .DROP, ⟨0, 4⟩) :: (.ident c!"TABLE" .TABLE, ⟨5, 10⟩) :: (.ident c!"IF" .IF, ⟨11, 13⟩) ::
          (.ident c!"EXISTS" .EXISTS, ⟨14, 20⟩) :: ts) :=
      w_kw (w := c!"DROP") (by simp) rfl (by decide) (by decide) (by decide +kernel)
        (w_kw (w := c!"TABLE") (by simp) rfl (by decide) (by decide) (by decide +kernel)
          (w_kw (w := c!"IF") (by simp) rfl (by decide) (by decide) (by decide +kernel)
            (w_kw (w := c!"EXISTS") (by simp) rfl (by decide) (by decide) (by decide +kernel) g1)))
    obtain ⟨l, g4, g5⟩ := g3 (Env.start opts noData noArgs ((.ident c!"DROP" .DROP, ⟨0, 4⟩) :: (.ident c!"TABLE" .TABLE, ⟨5, 10⟩) ::
        (.ident c!"IF" .IF, ⟨11, 13⟩) :: (.ident c!"EXISTS" .EXISTS, ⟨14, 20⟩) :: ts))
      [eofTk (c!"DROP TABLE " ++ (c!"IF EXISTS " ++ sepText c!", " (wss.map (sepText ['.']))))] ho rfl
      (by show Token.eof ≠ .period ∧ Token.eof ≠ .comma; simp)
    refine ⟨_, C38_statement chk _ iss opts _ hu hc (isStatement_written hw (.drop (.mk (tmp := none) rfl (.none rfl)
      (.table (ie := some (joinSpan ⟨11, 13⟩ ⟨14, 20⟩)) rfl (.some (.cons rfl (.one rfl))) g4 (fun _ => rfl))))), ?_⟩
    show some (true, (l.map toF).map qualifiedParts) = _
    rw [← g5]
    simp [toF]

/-- Non-vacuity: a name with three parts, one of them in back quotes. -/
example : NamesText {} [c!"db", c!"`my-table`", c!"x1"] [c!"db", c!"my-table", c!"x1"] :=
  .cons (.word (by decide) (by decide) (by decide) (by decide +kernel))
    (.cons (.backQuoted (o := {}) (v := c!"my-table") (by decide) (by decide)) (.one (.word (by decide) (by decide) (by decide) (by decide +kernel))))

/-- Non-vacuity: two names, in PostgreSQL. -/
example : DottedTexts { dialect := .postgreSQL } [[c!"\"a b\""], [c!"s", c!"T"]] [[c!"a b"], [c!"s", c!"T"]] :=
  .cons (.one (.doubleQuoted rfl (.plain _ _ (by decide) (by decide) (.plain _ _ (by decide) (by decide) (.plain _ _ (by decide) (by decide) .nil)))))
    (.one (.cons (.word (by decide) (by decide) (by decide) (by decide +kernel))
      (.one (.word (by decide) (by decide) (by decide) (by decide +kernel)))))

/-! ### Strings -/

theorem quoteBody_double {q : Char} (text : List Char) (hb : '\\' ∉ text) :
    QuoteBody q (text.flatMap (fun c => if c = q then [q, q] else [c])) := by
  induction text with
  | nil => exact .nil
  | cons c text ih =>
    simp only [List.mem_cons, not_or] at hb
    have ih := ih hb.2
    rw [List.flatMap_cons]
    by_cases hc : c = q
    · rw [if_pos hc]
      exact .double _ ih
    · rw [if_neg hc]
      exact .plain _ _ (fun h => hb.1 h.symm) hc ih

theorem decodeLoop_double (text : List Char) :
    decodeLoop (text.flatMap (fun c => if c = '\'' then ['\'', '\''] else [c])) = text := by
  induction text with
  | nil => rfl
  | cons c text ih =>
    rw [List.flatMap_cons]
    by_cases hc : c = '\''
    · subst hc
      simp only [if_pos, List.cons_append, List.nil_append, decodeLoop, ih]
    · rw [if_neg hc, List.cons_append, List.nil_append, decodeLoop]
      · rw [ih]
      · intro h; exact absurd h hc
      · intro _ _ h; exact absurd h hc

theorem flatMap_id {q : Char} (text : List Char) (h : q ∉ text) : text.flatMap (fun c => if c = q then [q, q] else [c]) = text := by
  induction text with
  | nil => rfl
  | cons c text ih =>
    simp only [List.mem_cons, not_or] at h
    rw [List.flatMap_cons, if_neg (fun hc => h.1 hc.symm), ih h.2]
    rfl

theorem decodeSingle_double (text : List Char) :
    decodeSingle (text.flatMap (fun c => if c = '\'' then ['\'', '\''] else [c])) = text := by
  unfold decodeSingle
  split
  · next h =>
    have h1 : '\'' ∉ text := by
      intro hm
      simp at h
      have := h.1 '\'' hm
      simp at this
    exact flatMap_id _ h1
  · exact decodeLoop_double text

/-- The statement `SELECT s` where `s` is a string. -/
theorem select_string {chk : Bool} {iss : Issues} {opts : Opts} {w v : List Char} {t : Token}
    (hu : opts.warnUnquoted = false) (hc : opts.warnCaps = false) (ht : t ≠ .eof) (hf : Fits chk t w []) (hv : t.strVal? = some v) :
    ∃ s, Api.one.Returns chk (c!"SELECT " ++ w) iss opts (some s) iss.issues ∧ selectedString s = some v := by
  have hk : t.kw = .NOT_A_KEYWORD ∧ ∀ k, t.isKw k = false := by
    cases t <;> simp [Token.strVal?] at hv <;> exact ⟨rfl, fun _ => rfl⟩
  have hx : Written chk 7 w [(t, ⟨7, 7 + blen w⟩)] := by simpa using w_tok (o := 7) ht hf (.nil _ _ (.nil _))
  have hw : Written chk 0 (c!"SELECT " ++ w) [(.ident c!"SELECT" .SELECT, ⟨0, 6⟩), (t, ⟨7, 7 + blen w⟩)] :=
    w_kw (w := c!"SELECT") (by simp) rfl (by decide) (by decide) (by decide +kernel) hx
  refine ⟨_, C38_statement chk _ iss opts _ hu hc (isStatement_written (args := noArgs) hw (.query (.one (.select (.noFrom (fl := []) rfl (.nil ?_)
    (.one (.plain (.mk (T := .leaf (.sstring v ⟨7, 7 + blen w⟩)) (.opd (.str (.mk (.one ((stringText_eq t).trans hv) rfl))) (.stop ?_)) trivial) rfl) ?_) rfl)) rfl))), ?_⟩
  · show selectFlagWords.lookup t.kw = none
    rw [hk.1]; decide +kernel
  · show Token.eof ∈ stopSyms ∨ _
    exact .inl (by decide)
  · show Token.eof ≠ .comma
    simp
  · rfl

/-- **C07** (single quotes): a text without backslashes, put in single quotes with the quotes in it doubled, is a string
literal whose value is the text.  (What is missing: backslashes, see `C07_violated`.) -/
theorem C07_single_quoted_partial (chk : Bool) (iss : Issues) (opts : Opts) (text : List Char) (hb : '\\' ∉ text)
    (hu : opts.warnUnquoted = false) (hc : opts.warnCaps = false) :
    ∃ s, Api.one.Returns chk (c!"SELECT " ++ quoted '\'' text) iss opts (some s) iss.issues ∧ selectedString s = some text := by
  refine select_string (t := .singleQuotedString (text.flatMap (fun c => if c = '\'' then ['\'', '\''] else [c]))) hu hc (by simp) ?_ ?_
  · refine ⟨by simp, ⟨rfl, quoteBody_double _ hb, by simp [NotHead]⟩, by simp [NotHead]⟩
  · simp only [Token.strVal?, decodeSingle_double]

/-- **C07** (double quotes): the same in double quotes, for a text that contains no double quote either.  (What is missing:
backslashes and double quotes, see `C07_violated`.) -/
theorem C07_double_quoted_partial (chk : Bool) (iss : Issues) (opts : Opts) (text : List Char) (hb : '\\' ∉ text) (hq : '"' ∉ text)
    (hu : opts.warnUnquoted = false) (hc : opts.warnCaps = false) :
    ∃ s, Api.one.Returns chk (c!"SELECT " ++ quoted '"' text) iss opts (some s) iss.issues ∧ selectedString s = some text := by
  refine select_string (t := .doubleQuotedString (text.flatMap (fun c => if c = '"' then ['"', '"'] else [c]))) hu hc (by simp) ?_ ?_
  · refine ⟨by simp, ⟨rfl, quoteBody_double _ hb, by simp [NotHead]⟩, by simp [NotHead]⟩
  · rw [flatMap_id _ hq]
    simp [Token.strVal?, decodeDouble, hb, hq]

/-! Exactly which literals have the right value. -/

theorem Denotes.body {esc : Char → Char} {q : Char} {l t : List Char} (h : Denotes esc q l t) : QuoteBody q l := by
  induction h with
  | nil => exact .nil
  | plain c h1 h2 _ ih => exact .plain _ _ h1 h2 ih
  | double _ ih => exact .double _ ih
  | escape d _ ih => exact .escape _ _ ih

theorem decodeLoop_cons {c : Char} {l : List Char} (h : c ≠ '\'') : decodeLoop (c :: l) = c :: decodeLoop l := by
  rw [decodeLoop]
  · intro h'; exact absurd h' h
  · intro _ _ h'; exact absurd h' h

theorem decodeSingle_loop (l : List Char) : decodeSingle l = decodeLoop l := by
  unfold decodeSingle
  split
  · next h =>
    simp only [List.contains_eq_mem, Bool.and_eq_true, Bool.not_eq_true', decide_eq_false_iff_not] at h
    rw [← unquote_eq, unquote_plain h.1]
  · rfl

/-- A backslash that is too much stays too much. -/
theorem denotes_ahead {esc : Char → Char} (he : ∀ c, esc c = '\\' → c = '\\') {l t : List Char} (h : Denotes esc '\'' l t) (k : Nat) :
    List.replicate (k + 1) '\\' ++ decodeLoop l ≠ t := by
  induction h generalizing k with
  | nil => simp [List.replicate_succ]
  | plain c h1 h2 _ ih =>
    intro e
    simp only [List.replicate_succ, List.cons_append, List.cons.injEq] at e
    exact h1 e.1.symm
  | double _ ih =>
    intro e
    simp only [List.replicate_succ, List.cons_append, List.cons.injEq] at e
    exact absurd e.1 (by decide)
  | escape d _ ih =>
    intro e
    simp only [List.replicate_succ, List.cons_append, List.cons.injEq] at e
    cases he d e.1.symm
    rw [decodeLoop_cons (by decide), decodeLoop_cons (by decide)] at e
    apply ih (k + 1)
    rw [← e.2]
    simp [List.replicate_succ', List.append_assoc]

theorem denotes_single {esc : Char → Char} (he : ∀ c, esc c = '\\' → c = '\\') {l t : List Char} (h : Denotes esc '\'' l t) :
    decodeSingle l = t ↔ '\\' ∉ l := by
  rw [decodeSingle_loop]
  induction h with
  | nil => simp [decodeLoop]
  | plain c h1 h2 _ ih =>
    rw [decodeLoop_cons h2]
    simp only [List.cons.injEq, true_and, List.mem_cons, not_or, ih]
    exact ⟨fun h => ⟨fun h' => h1 h'.symm, h⟩, fun h => h.2⟩
  | double _ ih =>
    simp only [decodeLoop, List.cons.injEq, true_and, List.mem_cons, not_or, ih]
    exact ⟨fun h => ⟨by decide, by decide, h⟩, fun h => h.2.2⟩
  | @escape d l t h ih =>
    simp only [List.mem_cons, true_or, not_true_eq_false, iff_false]
    rw [decodeLoop_cons (by decide)]
    intro e
    simp only [List.cons.injEq] at e
    cases he d e.1.symm
    rw [decodeLoop_cons (by decide)] at e
    exact denotes_ahead he h 0 e.2

/-- **C07** (single quotes, exactly): whatever the escapes stand for, the value of a single quoted literal is the text it
stands for if and only if there is no backslash in it.  (The only condition on `esc`: just `\\\\` stands for a backslash.) -/
theorem C07_single_quoted_iff (chk : Bool) (iss : Issues) (opts : Opts) (esc : Char → Char) (he : ∀ c, esc c = '\\' → c = '\\')
    (body text : List Char) (h : Denotes esc '\'' body text) (hu : opts.warnUnquoted = false) (hc : opts.warnCaps = false) :
    ∃ s v, Api.one.Returns chk (c!"SELECT '" ++ body ++ c!"'") iss opts (some s) iss.issues ∧ selectedString s = some v ∧
      (v = text ↔ '\\' ∉ body) := by
  obtain ⟨s, h1, h2⟩ := select_string (chk := chk) (iss := iss) (w := '\'' :: (body ++ ['\'']))
    (t := .singleQuotedString body) hu hc (by simp) ⟨by simp, ⟨rfl, h.body, by simp [NotHead]⟩, by simp [NotHead]⟩ rfl
  exact ⟨s, _, by simpa using h1, h2, denotes_single he h⟩

/-- The inside of a double quoted literal for `text`. -/
abbrev dbl (text : List Char) : List Char := text.flatMap (fun c => if c = '"' then ['"', '"'] else [c])

theorem dbl_cons {c : Char} {t : List Char} (h : c ≠ '"') : dbl (c :: t) = c :: dbl t := by simp [dbl, h]
theorem dbl_quote {t : List Char} : dbl ('"' :: t) = '"' :: '"' :: dbl t := rfl

/-- A double quote that is too much stays too much. -/
theorem dbl_ahead (t : List Char) (k : Nat) : List.replicate (k + 1) '"' ++ decodeLoop (dbl t) ≠ t := by
  induction t generalizing k with
  | nil => simp [List.replicate_succ]
  | cons c t ih =>
    intro e
    simp only [List.replicate_succ, List.cons_append, List.cons.injEq] at e
    obtain ⟨rfl, e⟩ := e
    rw [dbl_quote, decodeLoop_cons (by decide), decodeLoop_cons (by decide)] at e
    apply ih (k + 1)
    refine Eq.trans ?_ e
    simp [List.replicate_succ', List.append_assoc]

/-- Characters that were lost stay lost. -/
theorem dbl_behind (n : Nat) (t w : List Char) (hn : t.length ≤ n) (hw : w ≠ []) (hq : '"' ∉ w) : decodeLoop (dbl t) ≠ w ++ t := by
  induction n generalizing t w with
  | zero =>
    cases t with
    | nil => intro e; simp [decodeLoop] at e; exact hw e
    | cons => simp at hn
  | succ n ih =>
    cases w with
    | nil => exact absurd rfl hw
    | cons a w =>
    simp only [List.mem_cons, not_or] at hq
    cases t with
    | nil => intro e; simp [decodeLoop] at e
    | cons c t =>
    simp only [List.length_cons, Nat.add_le_add_iff_right] at hn
    by_cases h1 : c = '"'
    · subst h1
      rw [dbl_quote, decodeLoop_cons (by decide)]
      intro e
      simp only [List.cons_append, List.cons.injEq] at e
      exact hq.1 e.1
    · rw [dbl_cons h1]
      by_cases h2 : c = '\''
      · subst h2
        cases t with
        | nil => intro e; simp [decodeLoop] at e
        | cons d t =>
        by_cases h3 : d = '"'
        · subst h3
          rw [dbl_quote]
          intro e
          rw [decodeLoop, decodeLoop_cons (by decide)] at e
          simp only [List.cons_append, List.cons.injEq] at e
          cases w with
          | nil => simp at e
          | cons b w =>
            simp only [List.cons_append, List.cons.injEq] at e
            exact hq.2 (e.2.1 ▸ List.mem_cons_self ..)
        · rw [dbl_cons h3, decodeLoop]
          intro e
          simp only [List.cons_append, List.cons.injEq] at e
          refine ih t (w ++ ['\'', d]) (by simp at hn; omega) (by simp) ?_ (by simpa using e.2)
          simp only [List.mem_append, List.mem_cons, List.not_mem_nil, or_false, not_or]
          exact ⟨hq.2, by decide, fun h => h3 h.symm⟩
      · rw [decodeLoop_cons h2]
        intro e
        simp only [List.cons_append, List.cons.injEq] at e
        refine ih t (w ++ [c]) hn (by simp) ?_ (by simpa using e.2)
        simp only [List.mem_append, List.mem_cons, List.not_mem_nil, or_false, not_or]
        exact ⟨hq.2, fun h => h1 h.symm⟩

theorem dbl_paired (n : Nat) (t : List Char) (hn : t.length ≤ n) : decodeLoop (dbl t) = t ↔ Paired t := by
  induction n generalizing t with
  | zero =>
    cases t with
    | nil => exact ⟨fun _ => .nil, fun _ => rfl⟩
    | cons => simp at hn
  | succ n ih =>
    cases t with
    | nil => exact ⟨fun _ => .nil, fun _ => rfl⟩
    | cons c t =>
    simp only [List.length_cons, Nat.add_le_add_iff_right] at hn
    by_cases h1 : c = '"'
    · subst h1
      constructor
      · rw [dbl_quote, decodeLoop_cons (by decide), decodeLoop_cons (by decide)]
        intro e
        simp only [List.cons.injEq, true_and] at e
        exact absurd e (dbl_ahead t 0)
      · intro h
        cases h with
        | plain _ _ h2 => exact absurd rfl h2
    · rw [dbl_cons h1]
      by_cases h2 : c = '\''
      · subst h2
        cases t with
        | nil => exact ⟨fun _ => .last, fun _ => rfl⟩
        | cons d t =>
        by_cases h3 : d = '"'
        · subst h3
          rw [dbl_quote, decodeLoop, decodeLoop_cons (by decide)]
          simp only [List.cons.injEq, true_and]
          rw [ih t (by simp at hn; omega)]
          refine ⟨.pair, fun h => ?_⟩
          cases h with
          | plain _ h => exact absurd rfl h
          | pair h => exact h
        · rw [dbl_cons h3, decodeLoop]
          simp only [List.cons.injEq, true_and]
          constructor
          · intro e
            exact absurd e (dbl_behind t.length t [d] (Nat.le_refl _) (by simp) (by simpa using fun h => h3 h.symm))
          · intro h
            cases h with
            | plain _ h => exact absurd rfl h
            | pair h => exact absurd rfl h3
      · rw [decodeLoop_cons h2]
        simp only [List.cons.injEq, true_and]
        rw [ih t hn]
        refine ⟨.plain _ h2 h1, fun h => ?_⟩
        cases h with
        | last => exact absurd rfl h2
        | plain _ _ _ h => exact h
        | pair h => exact absurd rfl h2

theorem dbl_mem (c : Char) (t : List Char) : c ∈ dbl t ↔ c ∈ t := by
  induction t with
  | nil => simp
  | cons d t ih =>
    by_cases h : d = '"'
    · subst h; rw [dbl_quote]; simp [ih]
    · rw [dbl_cons h]; simp [ih]

/-- **C07** (double quotes, exactly): a text without backslashes, put in double quotes with the double quotes in it doubled,
is a literal whose value is the text if and only if there is no double quote in it, or its quotes happen to be paired. -/
theorem C07_double_quoted_iff (chk : Bool) (iss : Issues) (opts : Opts) (text : List Char) (hb : '\\' ∉ text)
    (hu : opts.warnUnquoted = false) (hc : opts.warnCaps = false) :
    ∃ s v, Api.one.Returns chk (c!"SELECT " ++ quoted '"' text) iss opts (some s) iss.issues ∧ selectedString s = some v ∧
      (v = text ↔ '"' ∉ text ∨ Paired text) := by
  obtain ⟨s, h1, h2⟩ := select_string (chk := chk) (iss := iss) (w := quoted '"' text)
    (t := .doubleQuotedString (dbl text)) hu hc (by simp) ⟨by simp, ⟨rfl, quoteBody_double _ hb, by simp [NotHead]⟩, by simp [NotHead]⟩ rfl
  refine ⟨s, _, h1, h2, ?_⟩
  unfold decodeDouble
  by_cases hq : '"' ∈ text
  · simp only [List.contains_eq_mem, dbl_mem, hq, hb]
    simp only [decide_true, Bool.not_true, Bool.false_and, Bool.false_eq_true, if_false, not_true_eq_false, false_or]
    exact dbl_paired _ _ (Nat.le_refl _)
  · simp only [List.contains_eq_mem, dbl_mem, hq, hb]
    simp [dbl, flatMap_id _ hq]

/-- Non-vacuity: a text with an escape, one with a doubled quote, and one in which the value is right by luck. -/
example : Denotes (fun c => if c = 'n' then '\n' else c) '\'' c!"a\\nb''c" c!"a\nb'c" ∧ Paired c!"x'\"y" := by
  refine ⟨.plain _ (by decide) (by decide) (.escape 'n' (.plain _ (by decide) (by decide) (.double (.plain _ (by decide) (by decide) .nil)))), ?_⟩
  exact .plain _ (by decide) (by decide) (.pair (.plain _ (by decide) (by decide) .nil))

/-- **C07** does not hold in full: the literal "a""b" has the value a""b; the backslash in 'a\'b' is kept and the
letter after the quote is lost. -/
theorem C07_violated :
    (∃ s, Api.one.Returns true (c!"SELECT " ++ quoted '"' c!"a\"b") (Issues.new []) {} (some s) [] ∧ selectedString s = some c!"a\"\"b") ∧
    (∃ s, Api.one.Returns true c!"SELECT 'a\\'b'" (Issues.new []) {} (some s) [] ∧ selectedString s = some c!"a\\'") := by
  constructor
  · refine select_string (iss := Issues.new []) (t := .doubleQuotedString c!"a\"\"b") rfl rfl (by simp) ?_ (by decide)
    refine ⟨by simp, ⟨rfl, ?_, by simp [NotHead]⟩, by simp [NotHead]⟩
    exact .plain _ _ (by decide) (by decide) (.double _ (.plain _ _ (by decide) (by decide) .nil))
  · refine select_string (iss := Issues.new []) (w := c!"'a\\'b'") (t := .singleQuotedString c!"a\\'b") rfl rfl (by simp) ?_ (by decide)
    refine ⟨by simp, ⟨rfl, ?_, by simp [NotHead]⟩, by simp [NotHead]⟩
    exact .plain _ _ (by decide) (by decide) (.escape _ _ (.plain _ _ (by decide) (by decide) .nil))

/-- Non-vacuity: a text with a quote and a letter that is not ASCII. -/
example : '\\' ∉ c!"it's é" ∧ quoted '\'' c!"it's é" = c!"'it''s é'" := by decide

end SqlParse
