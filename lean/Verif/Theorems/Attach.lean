import Verif.Spec.Attach
import Verif.Theorems.Display
import Verif.Theorems.Result
/-! **C53**: later stages can report issues about every part of what was parsed. -/
namespace SqlParse

theorem slice_iff_spanIs {src text : List Char} {sp : Span} : slice src sp.start sp.stop = some text ↔ SpanIs src sp text := by
  constructor
  · exact slice_spanIs
  · rintro ⟨a, b, h1, h2, h3⟩
    have := slice_mid a text b
    rwa [← h2, ← List.append_assoc, ← h1, show sp.start + blen text = sp.stop by rw [h2, h3]; simp] at this

theorem addFragment_last (f : Fragment) (l : List Issue) (i : Issue) :
    addFragment f (l ++ [i]) = l ++ [{ i with fragments := i.fragments ++ [f] }] := by
  induction l with
  | nil => rfl
  | cons a l ih =>
    cases l with
    | nil => rfl
    | cons b l => simpa [addFragment] using ih

theorem calls_append (i : Issues) (c d : List IssueCall) : i.calls (c ++ d) = match i.calls c with | some j => j.calls d | none => none := by
  induction c generalizing i with
  | nil => rfl
  | cons x c ih =>
    simp only [List.cons_append, Issues.calls]
    cases i.call x with
    | none => rfl
    | some j => exact ih j

theorem frags_iff (src : List Char) (l : List Issue) (i : Issue) (frs : List (String × Span)) (j : Issues) :
    (Issues.mk src (l ++ [i])).calls (frs.map fun f => .frag f.1 f.2) = some j ↔
      ∃ fs, FragsRecorded src frs fs ∧ j = ⟨src, l ++ [{ i with fragments := i.fragments ++ fs }]⟩ := by
  induction frs generalizing i with
  | nil =>
    simp only [List.map_nil, Issues.calls]
    constructor
    · rintro h; cases h; exact ⟨[], .nil, by simp⟩
    · rintro ⟨fs, h, rfl⟩; cases h; simp
  | cons f frs ih =>
    obtain ⟨m, sp⟩ := f
    simp only [List.map_cons, Issues.calls, Issues.call, Issues.frag]
    cases h : slice src sp.start sp.stop with
    | none =>
      constructor
      · intro h; cases h
      · rintro ⟨fs, h1, rfl⟩
        cases h1 with
        | cons h1 hl => rw [slice_iff_spanIs.2 h1] at h; cases h
    | some seg =>
      simp only [addFragment_last]
      rw [ih]
      constructor
      · rintro ⟨fs, h1, rfl⟩
        exact ⟨_, .cons (slice_iff_spanIs.1 h) h1, by simp⟩
      · rintro ⟨fs, h1, rfl⟩
        cases h1 with
        | cons h1 hl =>
          rw [slice_iff_spanIs.2 h1] at h
          cases h
          exact ⟨_, hl, by simp⟩

theorem report_iff (i j : Issues) (r : Report) : i.calls r.calls = some j ↔
    ∃ text fs, SpanIs i.src r.span text ∧ FragsRecorded i.src r.fragments fs ∧
      j = ⟨i.src, i.issues ++ [⟨r.level, .plain r.message, r.span, text, fs⟩]⟩ := by
  have e : i.calls r.calls = match i.add r.level r.message r.span with
      | some k => k.calls (r.fragments.map fun f => .frag f.1 f.2)
      | none => none := by
    unfold Report.calls
    cases r.level <;> rfl
  rw [e]
  unfold Issues.add Issues.segment
  cases h : slice i.src r.span.start r.span.stop with
  | none =>
    constructor
    · intro h; cases h
    · rintro ⟨text, fs, h1, -⟩; rw [slice_iff_spanIs.2 h1] at h; cases h
  | some seg =>
    simp only
    rw [frags_iff]
    constructor
    · rintro ⟨fs, h1, rfl⟩
      exact ⟨seg, fs, slice_iff_spanIs.1 h, h1, by simp⟩
    · rintro ⟨text, fs, h1, h2, rfl⟩
      rw [slice_iff_spanIs.2 h1] at h
      cases h
      exact ⟨fs, h2, by simp⟩

/-- **C53** (the object): a series of reports succeeds exactly if all the spans are ranges of the source on character boundaries;
then the reports are recorded in order behind what was there, which is unchanged. -/
theorem C53_reports (i j : Issues) (rs : List Report) : i.calls (rs.flatMap Report.calls) = some j ↔
    ∃ new, Recorded i.src rs new ∧ j = ⟨i.src, i.issues ++ new⟩ := by
  induction rs generalizing i with
  | nil =>
    constructor
    · intro h; cases h; exact ⟨[], .nil, by simp⟩
    · rintro ⟨new, h, rfl⟩; cases h; simp [Issues.calls]
  | cons r rs ih =>
    rw [List.flatMap_cons, calls_append]
    cases h : i.calls r.calls with
    | none =>
      constructor
      · intro h; cases h
      · rintro ⟨new, h1, rfl⟩
        cases h1 with
        | cons h1 h2 h3 => rw [(report_iff i _ r).2 ⟨_, _, h1, h2, rfl⟩] at h; cases h
    | some k =>
      obtain ⟨text, fs, h1, h2, rfl⟩ := (report_iff _ _ _).1 h
      simp only
      rw [ih]
      constructor
      · rintro ⟨new, g1, rfl⟩
        exact ⟨_, .cons h1 h2 g1, by simp⟩
      · rintro ⟨new, g1, rfl⟩
        cases g1 with
        | cons g1 g2 g3 =>
          have := (report_iff i _ r).2 ⟨_, _, g1, g2, rfl⟩
          rw [h] at this
          injection this with this
          injection this with _ this
          have := List.append_cancel_left this
          cases this
          exact ⟨_, g3, by simp⟩

theorem fragsRecorded_exist {src : List Char} {l : List (String × Span)} (h : ∀ f ∈ l, SpanValid src f.2) : ∃ fs, FragsRecorded src l fs := by
  induction l with
  | nil => exact ⟨_, .nil⟩
  | cons f l ih =>
    obtain ⟨fs, h1⟩ := ih fun g hg => h g (by simp [hg])
    obtain ⟨t, h2⟩ := h f (by simp)
    exact ⟨_, .cons (m := f.1) h2 h1⟩

theorem recorded_exist {src : List Char} {rs : List Report} (h : ∀ r ∈ rs, SpanValid src r.span ∧ ∀ f ∈ r.fragments, SpanValid src f.2) :
    ∃ new, Recorded src rs new := by
  induction rs with
  | nil => exact ⟨_, .nil⟩
  | cons r rs ih =>
    obtain ⟨new, h1⟩ := ih fun g hg => h g (by simp [hg])
    obtain ⟨⟨t, h2⟩, h3⟩ := h r (by simp)
    obtain ⟨fs, h4⟩ := fragsRecorded_exist h3
    exact ⟨_, .cons h2 h4 h1⟩

theorem fragsRecorded_boundary {src : List Char} {l : List (String × Span)} {fs : List Fragment} (h : FragsRecorded src l fs) :
    ∀ f ∈ fs, Boundary src f.span.start := by
  induction h with
  | nil => simp
  | cons h hl ih =>
    intro f hf
    rcases List.mem_cons.1 hf with rfl | hf
    · exact spanIs_boundary h
    · exact ih f hf

theorem recorded_boundary {src : List Char} {rs : List Report} {is : List Issue} (h : Recorded src rs is) :
    is.length = rs.length ∧ ∀ i ∈ is, Boundary src i.span.start ∧ ∀ f ∈ i.fragments, Boundary src f.span.start := by
  induction h with
  | nil => simp
  | cons h hf hl ih =>
    refine ⟨by simp [ih.1], fun i hi => ?_⟩
    rcases List.mem_cons.1 hi with rfl | hi
    · exact ⟨spanIs_boundary h, fragsRecorded_boundary hf⟩
    · exact ih.2 i hi

/-- **C53**: after a source was parsed, any issues about any parts of the returned statements can be reported to the same `Issues`
object: this never panics, the issues of the parser stay in front, unchanged, one issue is added per report, in order, with the text
of the part; and then the object can be displayed. -/
theorem C53_later_stages {α : Type} (api : Api α) (chk : Bool) (src : List Char) (opts : Opts) (a : α) (is : List Issue)
    (h : api.Returns chk src ⟨src, []⟩ opts a is) (rs : List Report)
    (hr : ∀ r ∈ rs, PartSpan api a r.span ∧ ∀ f ∈ r.fragments, PartSpan api a f.2) :
    ∃ new out, (Issues.mk src is).calls (rs.flatMap Report.calls) = some ⟨src, is ++ new⟩ ∧ Recorded src rs new ∧
      (Issues.mk src (is ++ new)).display = some out ∧ ((Issues.mk src (is ++ new)).isOk = true ↔ is = [] ∧ rs = []) := by
  have hv : ∀ sp, PartSpan api a sp → SpanValid src sp := by
    rintro sp ⟨v, h1, h2⟩
    obtain ⟨g1, g2⟩ := C13_spans_valid api chk src [] opts a is h v h1
    rcases h2 with h2 | ⟨b, h2, h3⟩
    · exact g1 sp h2
    · exact g2 b sp h2 h3
  obtain ⟨new, hn⟩ := recorded_exist (src := src) (rs := rs) fun r h => ⟨hv _ (hr r h).1, fun f hf => hv _ ((hr r h).2 f hf)⟩
  obtain ⟨hl, hb⟩ := recorded_boundary hn
  obtain ⟨x, h1, h2⟩ := C09_issue_segments api chk src [] opts a is h
  simp only [List.nil_append] at h1
  subst h1
  obtain ⟨es, h3⟩ := issueEntries_exist (src := src) (is := is ++ new) (by
    intro i hi
    rcases List.mem_append.1 hi with hi | hi
    · exact ⟨spanIs_boundary (h2 i hi).1, fun f hf => spanIs_boundary ((h2 i hi).2 f hf)⟩
    · exact hb i hi)
  have hd : ∃ out, (Issues.mk src (is ++ new)).display = some out := by
    generalize is ++ new = l at h3
    cases l with
    | nil => exact ⟨_, (C23_display ⟨src, []⟩ _).2 (.inl ⟨rfl, rfl⟩)⟩
    | cons i l => exact ⟨_, (C23_display ⟨src, i :: l⟩ _).2 (.inr ⟨by simp, es, h3, rfl⟩)⟩
  obtain ⟨out, hd⟩ := hd
  refine ⟨new, out, (C53_reports _ _ _).2 ⟨new, hn, rfl⟩, hn, hd, ?_⟩
  simp only [Issues.isOk, List.isEmpty_iff, List.append_eq_nil_iff]
  constructor
  · rintro ⟨g1, rfl⟩
    exact ⟨g1, List.length_eq_zero_iff.1 hl.symm⟩
  · rintro ⟨g1, rfl⟩
    exact ⟨g1, List.length_eq_zero_iff.1 hl⟩

/-- **C53** (the parser): what the parser does when it reports an issue is what these calls do. -/
theorem C53_parser (s : St) (l : Level) (msg : String) (sp : Span) (frs : List (String × Span)) :
    s.issue l (.plain msg) sp frs = match (Issues.mk s.issueSrc s.issues).calls (Report.calls ⟨l, msg, sp, frs⟩) with
      | some i => .ok () { s with issues := i.issues }
      | none => .panic "slice" := by
  have hf : ∀ frs fs, mkFrags s.issueSrc frs = some fs ↔ FragsRecorded s.issueSrc frs fs := by
    intro frs
    induction frs with
    | nil =>
      intro fs
      constructor
      · intro h; cases h; exact .nil
      · intro h; cases h; rfl
    | cons f frs ih =>
      intro fs
      obtain ⟨m, sp⟩ := f
      simp only [mkFrags]
      constructor
      · intro h
        split at h
        · next h1 h2 => cases h; exact .cons (slice_iff_spanIs.1 h1) ((ih _).1 h2)
        · cases h
      · intro h
        cases h with
        | cons h hl => rw [slice_iff_spanIs.2 h, (ih _).2 hl]
  cases h : (Issues.mk s.issueSrc s.issues).calls (Report.calls ⟨l, msg, sp, frs⟩) with
  | some i =>
    obtain ⟨text, fs, h1, h2, rfl⟩ := (report_iff _ _ _).1 h
    unfold St.issue
    rw [show slice s.issueSrc sp.start sp.stop = some text from slice_iff_spanIs.2 h1, show mkFrags s.issueSrc frs = some fs from (hf _ _).2 h2]
  | none =>
    unfold St.issue
    split
    · next seg fs h1 h2 =>
      have := (report_iff ⟨s.issueSrc, s.issues⟩ _ ⟨l, msg, sp, frs⟩).2 ⟨seg, fs, slice_iff_spanIs.1 h1, (hf _ _).1 h2, rfl⟩
      rw [h] at this
      cases this
    · rfl

/-- **C53** (macros): `issue_ice!` and `issue_todo!` record an Error with the file and line. -/
theorem C53_macros (i : Issues) (file : String) (line : Nat) (sp : Span) :
    i.calls [.ice file line sp] = i.calls (Report.calls ⟨.error, "Internal compiler error in " ++ file ++ ":" ++ toString line, sp, []⟩) ∧
    i.calls [.todo file line sp] = i.calls (Report.calls ⟨.error, "Not yet implemented " ++ file ++ ":" ++ toString line, sp, []⟩) :=
  ⟨rfl, rfl⟩

/-- Non-vacuity: `SELECT 1 + 'ö'` is parsed, and issues about the sum, with fragments on both sides, are recorded. -/
example : ∃ v, Api.one.Returns true c!"SELECT 1 + 'ö'" ⟨c!"SELECT 1 + 'ö'", []⟩ {} (some v) [] ∧
    (∀ sp ∈ [⟨7, 15⟩, ⟨7, 8⟩, ⟨11, 15⟩], PartSpan .one (some v) sp) ∧
    (Issues.mk c!"SELECT 1 + 'ö'" []).calls ([⟨.error, "cannot add", ⟨7, 15⟩, [("number", ⟨7, 8⟩), ("string", ⟨11, 15⟩)]⟩, ⟨.warning, "odd", ⟨7, 8⟩, []⟩].flatMap Report.calls) =
      some ⟨c!"SELECT 1 + 'ö'", [⟨.error, .plain "cannot add", ⟨7, 15⟩, c!"1 + 'ö'", [⟨"number", ⟨7, 8⟩, c!"1"⟩, ⟨"string", ⟨11, 15⟩, c!"'ö'"⟩]⟩,
        ⟨.warning, .plain "odd", ⟨7, 8⟩, c!"1", []⟩]⟩ := by
  obtain ⟨a, is, h1, h2⟩ := returns_of_test (api := .one) (n := 60) (checked := true) (src := c!"SELECT 1 + 'ö'") (iss := ⟨c!"SELECT 1 + 'ö'", []⟩)
      (opts := {}) (f := fun o is => is.isEmpty && o.any (fun v => v.ast.find (fun b => decide (b.spanRes = .some ⟨7, 15⟩)) &&
        v.ast.find (fun b => decide (b.spanRes = .some ⟨7, 8⟩)) && v.ast.find (fun b => decide (b.spanRes = .some ⟨11, 15⟩)))) (by decide +kernel)
  simp only [Bool.and_eq_true, List.isEmpty_iff] at h2
  obtain ⟨rfl, h2⟩ := h2
  cases a with
  | none => cases h2
  | some v =>
    simp only [Option.any_some, Bool.and_eq_true] at h2
    have hp : ∀ sp, v.ast.find (fun b => decide (b.spanRes = .some sp)) = true → PartSpan .one (some v) sp := by
      intro sp h
      obtain ⟨b, g1, g2⟩ := Ast.find_has _ h
      exact ⟨v, by simp [Api.stmts], .inr ⟨b, g1, by simpa using g2⟩⟩
    refine ⟨v, h1, fun sp hsp => ?_, rfl⟩
    simp only [List.mem_cons, List.not_mem_nil, or_false] at hsp
    rcases hsp with rfl | rfl | rfl
    · exact hp _ h2.1.1
    · exact hp _ h2.1.2
    · exact hp _ h2.2

/-- A span that is not on a character boundary panics. -/
example : (Issues.mk c!"SELECT 1 + 'ö'" []).calls [.err "x" ⟨13, 15⟩] = none := rfl

end SqlParse
