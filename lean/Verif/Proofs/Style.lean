import Verif.Proofs.Sim
import Verif.Spec.Style
/-! The warning flags put issues about style into the list of issues. -/
namespace SqlParse

theorem PlusSome.refl {α : Type} {P : α → Prop} : (a : List α) → PlusSome P a a
  | [] => .nil
  | x :: a => .keep x (refl a)

theorem PlusSome.snoc {α : Type} {P : α → Prop} {a b : List α} (x : α) (h : PlusSome P a b) : PlusSome P (a ++ [x]) (b ++ [x]) := by
  induction h with
  | nil => exact .keep _ .nil
  | keep y h ih => exact .keep _ ih
  | more y hy h ih => exact .more _ hy ih

theorem PlusSome.put {α : Type} {P : α → Prop} {a b : List α} (x : α) (hx : P x) (h : PlusSome P a b) : PlusSome P a (b ++ [x]) := by
  induction h with
  | nil => exact .more _ hx .nil
  | keep y h ih => exact .keep _ ih
  | more y hy h ih => exact .more _ hy ih

theorem PlusSome.nil_right {α : Type} {P : α → Prop} {a : List α} (h : PlusSome P a []) : a = [] := by
  cases h; rfl

theorem PlusSome.nil_left {α : Type} {P : α → Prop} {b : List α} (h : PlusSome P [] b) : ∀ x ∈ b, P x := by
  generalize ha : [] = a at h
  induction h with
  | nil => simp
  | keep y h ih => cases ha
  | more y hy h ih =>
    intro x hx
    rcases List.mem_cons.1 hx with rfl | hx
    · exact hy
    · exact ih ha x hx

section
variable {old : List Issue} {u c : Bool}

/-- The first state has the flags off, the second one has the values `u` and `c`, and more issues about style. -/
def Quiet (old : List Issue) (u c : Bool) (s t : St) : Prop :=
  (s.opts.warnUnquoted = false ∧ s.opts.warnCaps = false) ∧
  ∃ x y, s.issues = old ++ x ∧ PlusSome (Issue.isStyle u c) x y ∧ t = { s with opts := s.opts.withWarnings u c, issues := old ++ y }

theorem next_quiet {s t : St} (h : Quiet old u c s t) : OutRel (Quiet old u c) isSlice s.next t.next := by
  obtain ⟨hq, x, y, h1, h2, rfl⟩ := h
  unfold St.next
  simp only
  cases hp : s.peeked with
  | some p => exact ⟨rfl, hq, x, y, h1, h2, rfl⟩
  | none =>
    simp only
    cases s.lx.nextToken s.checked with
    | ok t sp lx => exact ⟨rfl, hq, x, y, h1, h2, rfl⟩
    | panic m => exact .inl rfl

theorem issue_quiet {s t : St} (h : Quiet old u c s t) (l : Level) (m : Msg) (sp : Span) (fr) :
    OutRel (Quiet old u c) isSlice (s.issue l m sp fr) (t.issue l m sp fr) := by
  obtain ⟨hq, x, y, h1, h2, rfl⟩ := h
  unfold St.issue
  simp only
  cases slice s.issueSrc sp.start sp.stop with
  | none => exact .inl rfl
  | some seg =>
    cases mkFrags s.issueSrc fr with
    | none => exact .inl rfl
    | some fs => exact ⟨rfl, hq, _, _, by rw [h1, List.append_assoc], h2.snoc _, by simp⟩
theorem op_quiet {α : Type} (o : Op α) (s t : St) (h : Quiet old u c s t) : OutRel (Quiet old u c) isSlice (o.run s) (o.run t) := by
  cases o with
  | next => exact next_quiet h
  | leftParenAhead =>
    obtain ⟨hq, x, y, h1, h2, rfl⟩ := h
    simp only [Op.run]
    split
    · cases hp : s.peeked with
      | some p => exact ⟨rfl, hq, x, y, h1, h2, by simp [hp]⟩
      | none =>
        simp only
        cases s.lx.nextToken s.checked with
        | ok t sp lx => exact ⟨rfl, hq, x, y, h1, h2, rfl⟩
        | panic m => exact .inl rfl
    · exact ⟨rfl, hq, x, y, h1, h2, rfl⟩
  | issue l m sp fr => exact issue_quiet h _ _ _ _
  | issueIf f l v sp =>
    obtain ⟨hq, x, y, h1, h2, rfl⟩ := h
    have hf : s.opts.flag f = false := by cases f; exact hq.1; exact hq.2
    have e : Op.run (.issueIf f l v sp) s = .ok () s := by simp [Op.run, hf]
    rw [e]
    simp only [Op.run]
    split
    · next hfl =>
      unfold St.issue
      simp only
      split
      · refine ⟨rfl, hq, x, _, h1, h2.put _ ?_, by rw [← List.append_assoc]⟩
        cases f
        · exact .inl ⟨hfl, v, rfl⟩
        · exact .inr ⟨hfl, v, rfl⟩
      · exact (rfl : isSlice _)
    · exact ⟨rfl, hq, x, y, h1, h2, rfl⟩
  | takeArg =>
    rw [takeArg_run, takeArg_run]
    have h0 : Quiet old u c { s with arg := s.arg + 1, argLog := s.argLog ++ [s.span] }
        { t with arg := t.arg + 1, argLog := t.argLog ++ [t.span] } := by
      obtain ⟨hq, x, y, h1, h2, rfl⟩ := h; exact ⟨hq, x, y, h1, h2, rfl⟩
    refine bind_rel (next_quiet h0) (k := fun _ s' => .ok (s.arg, s.span) s') (k' := fun _ s' => .ok (t.arg, t.span) s') ?_
    intro _ s' t' hst
    obtain ⟨hq, x, y, h1, h2, rfl⟩ := h
    exact ⟨rfl, hst⟩
  | stdin =>
    have this : t.lx = s.lx := by obtain ⟨hq, x, y, h1, h2, rfl⟩ := h; rfl
    cases hr : s.lx.readStdin with
    | none => simp only [Op.run, this, hr]; exact .inl rfl
    | some r =>
      obtain ⟨d, sp, lx⟩ := r
      rw [stdin_run hr, stdin_run (this ▸ hr)]
      have h0 : Quiet old u c { s with lx := lx, dataLog := s.dataLog ++ [(s.span, d, sp)] } { t with lx := lx, dataLog := t.dataLog ++ [(t.span, d, sp)] } := by
        obtain ⟨hq, x, y, h1, h2, rfl⟩ := h; exact ⟨hq, x, y, h1, h2, rfl⟩
      exact bind_rel (next_quiet h0) (k := fun _ s' => .ok (d, sp) s') (k' := fun _ s' => .ok (d, sp) s')
        (fun _ _ _ hst => ⟨rfl, hst⟩)
  | _ => obtain ⟨hq, x, y, h1, h2, rfl⟩ := h; exact ⟨rfl, hq, x, y, h1, h2, rfl⟩

end
end SqlParse
