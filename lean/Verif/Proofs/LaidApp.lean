import Verif.Proofs.LexFwd
import Verif.Spec.GrammarScript
/-! Texts can be put together, with a newline between them: the tokens of the first one are followed by the tokens of the second one. -/
namespace SqlParse

theorem notHead_app {p : Char → Bool} {r b : List Char} (h : NotHead p r) (hp : p '\n' = false) : NotHead p (r ++ '\n' :: b) := by
  cases r with
  | nil => intro c hc; simp at hc; subst hc; exact hp
  | cons c r => exact h

theorem notHead_more {p : Char → Bool} {r b : List Char} (h : NotHead p r) (hr : r ≠ []) : NotHead p (r ++ b) := by
  cases r with
  | nil => exact absurd rfl hr
  | cons c r => exact h

theorem skipped_more {u r b : List Char} (h : Skipped u r) (hr : r ≠ []) : Skipped u (r ++ b) := by
  induction h with
  | nil => exact .nil _
  | cons u us rest h hs ih =>
    refine .cons u us _ ?_ (ih hr)
    rw [← List.append_assoc]
    generalize he : us ++ rest = x at h
    have hx : x ≠ [] := by rw [← he]; simp [hr]
    cases h with
    | blank c _ h => exact .blank c _ h
    | line a e body _ ha hb he => exact .line a e body _ ha hb he
    | lastLine => exact absurd rfl hx
    | block body _ hb => exact .block body _ hb

theorem skipped_nl {u v r : List Char} (h : Skipped u []) (hv : Skipped v r) : Skipped (u ++ '\n' :: v) r := by
  generalize hn : ([] : List Char) = x at h
  induction h with
  | nil => exact .cons ['\n'] v r (.blank _ _ (.inr (.inr (.inl rfl)))) hv
  | cons u us rest h hs ih =>
    subst hn
    have ih := ih rfl
    generalize he : us ++ [] = x at h
    cases h with
    | blank c _ h => rw [List.append_assoc]; exact .cons _ _ _ (.blank c _ h) ih
    | line a e body _ ha hb he => rw [List.append_assoc]; exact .cons _ _ _ (.line a e body _ ha hb he) ih
    | lastLine a body ha hb =>
      have : us = [] := by simpa using he
      subst this
      have : (a :: a :: body ++ [] ++ '\n' :: v) = (a :: a :: (body ++ ['\n'])) ++ v := by simp
      rw [this]
      exact .cons _ _ _ (.line a '\n' body _ ha hb (.inl rfl)) hv
    | block body _ hb => rw [List.append_assoc]; exact .cons _ _ _ (.block body _ hb) ih

theorem glued_nl (w : List Char) : glued w '\n' = false := by
  unfold glued
  have h : ∀ l : List (List Char × Char), (∀ p ∈ l, p.2 ≠ '\n') → l.contains (w, '\n') = false := by
    intro l hl
    rw [Bool.eq_false_iff]
    intro hc
    exact hl _ (List.contains_iff_mem.1 hc) rfl
  rw [h _ (by decide)]
  simp [show isDig '\n' = false from by decide]

theorem readsAs_ne {chk : Bool} {t : Token} {w r : List Char} (ht : t ≠ .eof) (h : ReadsAs chk t w r) : w ≠ [] := by
  rintro rfl
  rcases h with ⟨h1, h2, -⟩ | ⟨-, h2⟩
  · cases t <;> simp_all [Lexeme, punct, upper] <;> (obtain ⟨rfl, h2⟩ := h2; simp at h2)
  · cases h2

theorem lexeme_app {chk : Bool} {t : Token} {w r b : List Char} (ht : t ≠ .eof) (h : Lexeme chk t w r) : Lexeme chk t w (r ++ '\n' :: b) := by
  cases t
  case eof => exact absurd rfl ht
  case ident s k =>
    rcases h with ⟨h1, h2, h3, h4, h5, h6⟩ | h
    · exact .inl ⟨h1, h2, h3, h4, notHead_app h5 (by decide), h6⟩
    · exact .inr h
  case integer s => exact ⟨h.1, h.2.1, h.2.2.1, notHead_app h.2.2.2 (by decide)⟩
  case float s =>
    obtain ⟨h1, a, c, h2, h3, h4, h5, h6⟩ := h
    exact ⟨h1, a, c, h2, h3, h4, h5, notHead_app h6 (by decide)⟩
  case singleQuotedString s => exact ⟨h.1, h.2.1, notHead_app h.2.2 (by decide)⟩
  case doubleQuotedString s => exact ⟨h.1, h.2.1, notHead_app h.2.2 (by decide)⟩
  case dollarArg n =>
    obtain ⟨ds, h1, h2, h3, h4, h5, h6⟩ := h
    exact ⟨ds, h1, h2, h3, h4, notHead_app h5 (by decide), h6⟩
  all_goals exact h

theorem junk_more {w r b : List Char} (h : Junk w r) (hr : r ≠ []) : Junk w (r ++ b) := by
  cases h with
  | char c _ h => exact .char c _ h
  | dollar _ h => exact .dollar _ (notHead_more h hr)
  | atAt u _ k hk h hu hx =>
    refine .atAt u _ k hk h hu fun k' hk' c hc => hx k' hk' c ?_
    cases r with
    | nil => exact absurd rfl hr
    | cons => exact hc
  | comment => exact absurd rfl hr
  | backQuote u _ h hx => exact .backQuote u _ h (notHead_more hx hr)
  | quote => exact absurd rfl hr

theorem readsAs_app {chk : Bool} {t : Token} {w r b : List Char} (ht : t ≠ .eof) (h : ReadsAs chk t w r) (hr : t = .invalid → r ≠ []) :
    ReadsAs chk t w (r ++ '\n' :: b) := by
  rcases h with ⟨h1, h2, h3⟩ | ⟨h1, h2⟩
  · exact .inl ⟨h1, lexeme_app ht h2, notHead_app h3 (glued_nl w)⟩
  · exact .inr ⟨h1, junk_more h2 (hr h1)⟩

theorem copyData_more {l lead d rest b : List Char} (h : CopyData l lead d rest) (hr : rest ≠ []) : CopyData (l ++ b) lead d (rest ++ b) := by
  obtain ⟨blanks, nl, tail, h1, h2, h3, h4, h5, h6⟩ := h
  rcases h6 with ⟨h6, h7, h8⟩ | ⟨-, h6, -⟩
  · have ht : tail = '\\' :: '.' :: '\n' :: rest := by
      rcases h7 with h7 | ⟨-, h7⟩
      · exact h7
      · exact absurd h7 hr
    subst ht
    refine ⟨blanks, nl, '\\' :: '.' :: '\n' :: (rest ++ b), h1, by rw [h2]; simp, h3, ?_, ?_, .inl ⟨h6, .inl rfl, ?_⟩⟩
    · intro c hc
      refine h4 c ?_
      cases hnd : nl ++ d with
      | nil => rw [hnd] at hc; simpa using hc
      | cons x y => rw [hnd] at hc; simpa using hc
    · rcases h5 with h5 | ⟨h5, h9⟩
      · exact .inl h5
      · refine .inr ⟨h5, fun c hc => h9 c ?_⟩
        cases d with
        | nil => simpa using hc
        | cons x y => simpa using hc
    · intro u t r hut hu ht
      apply Classical.byContradiction
      intro hlt
      have hlt : u.length < (nl ++ d).length := by omega
      have hb : nl ++ d ++ '\\' :: '.' :: '\n' :: (rest ++ b) = (nl ++ d ++ '\\' :: '.' :: '\n' :: rest) ++ b := by simp
      rw [hb] at hut
      have hlen := congrArg List.length hut
      simp only [List.length_append, List.length_cons] at hlen hlt
      rcases List.append_eq_append_iff.1 hut with ⟨a', e1, e2⟩ | ⟨c', e1, e2⟩
      · have := congrArg List.length e1
        simp only [List.length_append, List.length_cons] at this
        omega
      · have e1l := congrArg List.length e1
        have e2l := congrArg List.length e2
        simp only [List.length_append, List.length_cons] at e1l e2l
        have : EndLine c' (c'.drop 3) := by
          rcases ht with ht | ⟨ht, -⟩
          · rw [ht] at e2
            match c', e2 with
            | [], _ => simp at e1l; omega
            | [_], _ => simp at e1l; omega
            | [_, _], _ => simp at e1l; omega
            | x :: y :: z :: c', e2 =>
              simp only [List.cons_append, List.cons.injEq] at e2
              obtain ⟨rfl, rfl, rfl, -⟩ := e2
              exact .inl rfl
          · rw [ht] at e2l
            simp at e2l
            omega
        have := h8 u c' _ e1 hu this
        simp only [List.length_append] at this
        omega
  · exact absurd h6 hr

theorem gap_more {data : Data} {p : Tk} {o o' : Nat} {l l' b : List Char} (h : Gap data p o l o' l') (hl : data.after p = none ∨ l' ≠ []) :
    Gap data p o (l ++ b) o' (l' ++ b) := by
  cases h with
  | none _ h => exact .none _ _ h
  | data past _ lead d h hd =>
    rw [List.append_assoc]
    refine .data o past (l' ++ b) lead d h ?_
    rw [← List.append_assoc]
    refine copyData_more hd (hl.resolve_left ?_)
    rw [h]; exact fun h => by cases h

theorem gap_nil {data : Data} {p : Tk} {o o' : Nat} {l l' : List Char} (h : Gap data p o l o' l') (hl : l = []) : l' = [] := by
  cases h with
  | none => exact hl
  | data => simp at hl; exact hl.2

theorem laid_nil {chk : Bool} {data : Data} {o : Nat} {ts : List Tk} (h : Laid chk data o [] ts) : ts = [(.eof, ⟨o, o⟩)] := by
  generalize hl : ([] : List Char) = l at h
  cases h with
  | eof _ u h => subst hl; simp
  | tok _ o' u w rest rest' t ts ht hs hf hg h =>
    have hw : w = [] := by
      cases w with
      | nil => rfl
      | cons => simp at hl
    exact absurd hw (readsAs_ne ht hf)

/-- The text `l` with the tokens `ts` ends neither in something that is no token nor in data. -/
def EndsWell (data : Data) (ts : List Tk) : Prop := ∀ pre p q, ts = pre ++ [p, q] → p.1 ≠ .invalid ∧ data.after p = none

theorem EndsWell.tail {data : Data} {p : Tk} {ts : List Tk} (h : EndsWell data (p :: ts)) : EndsWell data ts :=
  fun pre x y e => h (p :: pre) x y (by rw [e]; rfl)

/-- Texts can be put together. -/
theorem laid_app {chk : Bool} {data : Data} {o : Nat} {l b : List Char} {ts ts2 : List Tk} (h : Laid chk data o l ts) (he : EndsWell data ts)
    (h2 : Laid chk data (o + blen l + 1) b ts2) : Laid chk data o (l ++ '\n' :: b) (ts.dropLast ++ ts2) := by
  induction h with
  | eof o u h =>
    have h1 : '\n'.utf8Size = 1 := by decide
    cases h2 with
    | eof _ _ hv =>
      have := Laid.eof (checked := chk) (data := data) o (u ++ '\n' :: b) (skipped_nl h hv)
      simpa [h1, Nat.add_assoc] using this
    | tok _ o' v w rest rest' t ts ht hs hf hg h2 =>
      have := Laid.tok (checked := chk) (data := data) o o' (u ++ '\n' :: v) w rest rest' t ts ht (skipped_nl h hs) hf
        (by simpa [h1, Nat.add_assoc] using hg) h2
      simpa [h1, Nat.add_assoc] using this
  | tok o o' u w rest rest' t ts ht hs hf hg h ih =>
    obtain ⟨p', ts', hts⟩ : ∃ p' ts', ts = p' :: ts' := by
      cases h with
      | eof => exact ⟨_, _, rfl⟩
      | tok => exact ⟨_, _, rfl⟩
    have hend : rest' = [] → t ≠ .invalid ∧ data.after (t, ⟨o + blen u, o + blen u + blen w⟩) = none := by
      intro hr
      rw [hr] at h
      exact he [] _ _ (by rw [laid_nil h]; rfl)
    have hlen : o' + blen rest' = o + blen u + blen w + blen rest := by
      cases hg with
      | none => rfl
      | data => simp; omega
    have ih := ih he.tail (by
      have e : o' + blen rest' + 1 = o + blen (u ++ (w ++ rest)) + 1 := by rw [hlen]; simp; omega
      rw [e]; exact h2)
    have := Laid.tok (checked := chk) (data := data) o o' u w (rest ++ '\n' :: b) (rest' ++ '\n' :: b) t (ts.dropLast ++ ts2) ht
      (by rw [← List.append_assoc]; exact skipped_more hs (by have := readsAs_ne ht hf; simp [this]))
      (readsAs_app ht hf fun hi hr => (hend (gap_nil hg hr)).1 hi)
      (gap_more hg (by
        by_cases hr : rest' = []
        · exact .inl (hend hr).2
        · exact .inr hr)) ih
    rw [hts] at this ⊢
    simpa using this

end SqlParse
