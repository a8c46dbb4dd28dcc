import Verif.Model.Display
import Verif.Theorems.Issues
/-! C23: what displaying issues prints. -/
namespace SqlParse

/-- `n` is the number of the line of `src` in which offset `off` lies: one plus the number of newlines before it. -/
def IsLine (src : List Char) (off n : Nat) : Prop :=
  ∃ pre post, src = pre ++ post ∧ blen pre = off ∧ n = 1 + pre.count '\n'

/-- One message as printed: its heading, its text, its line and the code it is about. -/
structure Entry where
  head : List Char
  message : List Char
  line : Nat
  code : List Char

/-- The two lines printed for a message. -/
def Entry.text (e : Entry) : List Char :=
  e.head ++ e.message ++ c!"\n    At line " ++ Nat.toDigits 10 e.line ++ c!", code " ++ e.code ++ c!"\n"

/-- The entries for the fragments of an issue. -/
inductive FragEntries (src : List Char) : List Fragment → List Entry → Prop where
  | nil : FragEntries src [] []
  | cons {f fs n es} (h : IsLine src f.span.start n) (hs : FragEntries src fs es) :
      FragEntries src (f :: fs) (⟨c!"  ", f.message.toList, n, f.segment⟩ :: es)

/-- The entries for a list of issues: for each issue one entry for itself, then its fragments. -/
inductive IssueEntries (src : List Char) : List Issue → List Entry → Prop where
  | nil : IssueEntries src [] []
  | cons {i is n es fs} (h : IsLine src i.span.start n) (hf : FragEntries src i.fragments fs) (hs : IssueEntries src is es) :
      IssueEntries src (i :: is)
        ((⟨if i.level = .error then c!"  Error " else c!"  Warning ", i.message.text, n, i.segment⟩ :: fs) ++ es)

theorem filter_count (p : List Char) : (p.filter (fun v => v == '\n')).length = p.count '\n' := by
  rw [List.count, List.countP_eq_length_filter]

theorem lineAt_isLine {src : List Char} {off n : Nat} (h : lineAt src off = some n) : IsLine src off n := by
  unfold lineAt at h
  cases hp : takeBytes src off with
  | none => rw [hp] at h; cases h
  | some p =>
    rw [hp] at h
    cases h
    obtain ⟨b, h1, h2⟩ := takeBytes_eq hp
    exact ⟨p, b, h1, h2.symm, by simp only [filter_count]; omega⟩

theorem lineAt_of {src : List Char} {off n : Nat} (h : IsLine src off n) : lineAt src off = some n := by
  obtain ⟨pre, post, rfl, rfl, rfl⟩ := h
  unfold lineAt
  rw [takeBytes_append]
  simp [filter_count]
  omega

theorem IsLine.unique {src : List Char} {off n m : Nat} (h : IsLine src off n) (h' : IsLine src off m) : n = m := by
  have h1 := lineAt_of h
  rw [lineAt_of h'] at h1
  cases h1; rfl

theorem showFragments_iff {src out out' : List Char} {fs : List Fragment} : showFragments src out fs = some out' ↔
    ∃ es, FragEntries src fs es ∧ out' = out ++ (es.map Entry.text).flatten := by
  induction fs generalizing out with
  | nil =>
    simp only [showFragments]
    constructor
    · intro h; cases h; exact ⟨[], .nil, by simp⟩
    · rintro ⟨es, h, rfl⟩; cases h; simp
  | cons f fs ih =>
    simp only [showFragments]
    constructor
    · intro h
      split at h
      · next n hn =>
        obtain ⟨es, h1, h2⟩ := ih.1 h
        refine ⟨_ :: es, .cons (lineAt_isLine hn) h1, ?_⟩
        rw [h2]
        simp [Entry.text, atLine, natText]
      · cases h
    · rintro ⟨es, h, rfl⟩
      cases h with
      | @cons _ _ n es h hs =>
        rw [lineAt_of h]
        exact ih.2 ⟨es, hs, by simp [Entry.text, atLine, natText]⟩

theorem showIssues_iff {src out out' : List Char} {is : List Issue} : showIssues src out is = some out' ↔
    ∃ es, IssueEntries src is es ∧ out' = out ++ (es.map Entry.text).flatten := by
  induction is generalizing out with
  | nil =>
    simp only [showIssues]
    constructor
    · intro h; cases h; exact ⟨[], .nil, by simp⟩
    · rintro ⟨es, h, rfl⟩; cases h; simp
  | cons i is ih =>
    simp only [showIssues]
    have hl : levelHead i.level = if i.level = .error then c!"  Error " else c!"  Warning " := by cases i.level <;> rfl
    rw [hl]
    constructor
    · intro h
      split at h
      · next n hn =>
        split at h
        · next out1 h1 =>
          obtain ⟨fs, g1, g2⟩ := showFragments_iff.1 h1
          obtain ⟨es, g3, g4⟩ := ih.1 h
          refine ⟨_, .cons (lineAt_isLine hn) g1 g3, ?_⟩
          rw [g4, g2]
          simp [Entry.text, atLine, natText]
        · cases h
      · cases h
    · rintro ⟨es, h, rfl⟩
      cases h with
      | @cons _ _ n es fs h hf hs =>
        rw [lineAt_of h]
        simp only
        rw [showFragments_iff.2 ⟨fs, hf, rfl⟩]
        refine ih.2 ⟨es, hs, by simp [Entry.text, atLine, natText]⟩

/-- **C23**: with no issue, `No issues` is printed; otherwise `Issues:` and then, in order, the entry of each issue followed
by those of its fragments: level, message, line number, code. -/
theorem C23_display (i : Issues) (out : List Char) : i.display = some out ↔
    (i.issues = [] ∧ out = c!"No issues\n") ∨
    (i.issues ≠ [] ∧ ∃ es, IssueEntries i.src i.issues es ∧ out = c!"Issues:\n" ++ (es.map Entry.text).flatten) := by
  unfold Issues.display
  cases hi : i.issues with
  | nil => simp [eq_comm]
  | cons a l =>
    simp only [List.isEmpty_cons, Bool.false_eq_true, if_false, showIssues_iff]
    simp

theorem fragEntries_exist {src : List Char} {fs : List Fragment} (h : ∀ f ∈ fs, Boundary src f.span.start) :
    ∃ es, FragEntries src fs es := by
  induction fs with
  | nil => exact ⟨_, .nil⟩
  | cons f fs ih =>
    obtain ⟨es, h1⟩ := ih fun g hg => h g (by simp [hg])
    obtain ⟨a, b, h2, h3⟩ := h f (by simp)
    exact ⟨_, .cons ⟨a, b, h2, h3.symm, rfl⟩ h1⟩

theorem issueEntries_exist {src : List Char} {is : List Issue}
    (h : ∀ i ∈ is, Boundary src i.span.start ∧ ∀ f ∈ i.fragments, Boundary src f.span.start) : ∃ es, IssueEntries src is es := by
  induction is with
  | nil => exact ⟨_, .nil⟩
  | cons i is ih =>
    obtain ⟨es, h1⟩ := ih fun j hj => h j (by simp [hj])
    obtain ⟨h2, h3⟩ := h i (by simp)
    obtain ⟨a, b, h4, h5⟩ := h2
    obtain ⟨fs, h6⟩ := fragEntries_exist h3
    exact ⟨_, .cons ⟨a, b, h4, h5.symm, rfl⟩ h6 h1⟩

theorem spanIs_boundary {src : List Char} {sp : Span} {t : List Char} (h : SpanIs src sp t) : Boundary src sp.start := by
  obtain ⟨a, b, h1, h2, -⟩ := h
  exact ⟨a, t ++ b, by rw [h1, List.append_assoc], h2⟩

/-- **C23** (no panic): the issues a call adds for a source can always be displayed (by `C09_issue_segments` the code
printed for each is the text under its span). -/
theorem C23_displayable {α : Type} (api : Api α) (checked : Bool) (src : List Char) (opts : Opts) (a : α) (is : List Issue)
    (h : api.Returns checked src ⟨src, []⟩ opts a is) : ∃ out, (Issues.mk src is).display = some out := by
  obtain ⟨new, h1, h2⟩ := C09_issue_segments api checked src [] opts a is h
  simp only [List.nil_append] at h1
  subst h1
  obtain ⟨es, h3⟩ := issueEntries_exist (src := src) (is := is)
    (fun i hi => ⟨spanIs_boundary (h2 i hi).1, fun f hf => spanIs_boundary ((h2 i hi).2 f hf)⟩)
  cases is with
  | nil => exact ⟨_, (C23_display ⟨src, []⟩ _).2 (.inl ⟨rfl, rfl⟩)⟩
  | cons i is => exact ⟨_, (C23_display ⟨src, i :: is⟩ _).2 (.inr ⟨by simp, es, h3, rfl⟩)⟩

/-- An issue on line 2 with a fragment on line 1. -/
example : (Issues.mk c!"a\nb" [⟨.error, "M", ⟨2, 3⟩, c!"b", [⟨"F", ⟨0, 1⟩, c!"a"⟩]⟩]).display =
    some c!"Issues:\n  Error M\n    At line 2, code b\n  F\n    At line 1, code a\n" := by
  decide +kernel

end SqlParse
