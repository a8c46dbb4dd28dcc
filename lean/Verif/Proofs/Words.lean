import Verif.Spec.Words
import Verif.Model.Statement
/-! The words and literals of the specification are those of the model. -/
namespace SqlParse

theorem functionWords_eq : functionWords = functionTable := rfl
theorem timeUnitWords_eq : timeUnitWords = timeUnitTable := rfl
theorem nullaryWords_eq : nullaryWords = nullaryTable := rfl
theorem hintUseWords_eq : hintUseWords = hintUseTable := rfl
theorem hintTypeWords_eq : hintTypeWords = hintTypeTable := rfl
theorem selectFlagWords_eq : selectFlagWords = selectFlagTable := rfl
theorem deleteFlagWords_eq : deleteFlagWords = deleteFlagTable := rfl
theorem updateFlagWords_eq : updateFlagWords = updateFlagTable := rfl
theorem insertTypeWords_eq : insertTypeWords = insertTypeTable := rfl
theorem insertFlagWords_eq : insertFlagWords = insertFlagTable := rfl
theorem indexTypeWords_eq : indexTypeWords = indexTypeTable := rfl
theorem algorithmWords_eq : algorithmWords = algorithmTable := rfl
theorem triggerTimeWords_eq : triggerTimeWords = triggerTimeTable := rfl
theorem triggerEventWords_eq : triggerEventWords = triggerEventTable := rfl
theorem signalWords_eq : signalWords = signalTable := rfl

theorem numberOf_eq : numberOf = decVal := rfl

theorem plainWord_eq (t : Token) : plainWord t = t.isPlainWord := by cases t <;> rfl

theorem takesData_eq (v : SAst) : takesData v = v.readsStdin := by
  obtain ⟨a⟩ := v
  cases a with
  | node k fs =>
    by_cases hk : k = .Copy
    · subst hk; simp [takesData, SAst.readsStdin, Ast.kind?]
    · simp only [takesData, SAst.readsStdin, Ast.kind?, Option.some.injEq, hk, decide_false]
      cases k <;> first | rfl | exact absurd rfl hk
  | _ => rfl

theorem unquote_eq : ∀ l : List Char, unquote l = decodeLoop l := by
  intro l
  fun_induction decodeLoop l with
  | case1 => simp [unquote]
  | case2 => simp [unquote]
  | case3 a r ih => simp [unquote, ih]
  | case4 c r h1 h2 ih =>
    by_cases hc : c = '\''
    · subst hc
      cases r with
      | nil => exact absurd rfl (h1 rfl)
      | cons a r' => exact absurd rfl (h2 a r' rfl)
    · cases r with
      | nil => rfl
      | cons d r => rw [unquote, if_neg hc, ih]

theorem unquote_plain {l : List Char} (h : '\'' ∉ l) : unquote l = l := by
  induction l with
  | nil => rfl
  | cons c r ih =>
    simp only [List.mem_cons, not_or] at h
    have : ¬ c = '\'' := fun e => h.1 e.symm
    cases r with
    | nil => rfl
    | cons d r => rw [unquote, if_neg this, ih h.2]

theorem stringText_eq (t : Token) : stringText t = t.strVal? := by
  cases t with
  | singleQuotedString v =>
    simp only [stringText, Token.strVal?, decodeSingle]
    split
    · next h => simp at h; rw [unquote_plain h.1]
    · rw [unquote_eq]
  | doubleQuotedString v =>
    simp only [stringText, Token.strVal?, decodeDouble, unquote_eq]
    by_cases h1 : '"' ∈ v <;> by_cases h2 : '\\' ∈ v <;> simp [h1, h2]
  | _ => rfl

theorem intervalNumber_parse {w : List Char} {n : Nat} (h : IntervalNumber w n) :
    parseI64 w = some n ∧ ∀ c ∈ w, isIntervalSep c = false := by
  obtain ⟨ds, hw, hne, hd, hn, hlt⟩ := h
  have hdig : ∀ c ∈ ds, isDig c = true := by
    intro c hc
    have := hd c hc
    simp [isDig]
    exact ⟨this.1, this.2⟩
  have hsep : ∀ c ∈ ds, isIntervalSep c = false := by
    intro c hc
    have := hdig c hc
    cases hs : isIntervalSep c with
    | false => rfl
    | true =>
      simp [isIntervalSep] at hs
      rcases hs with ((((h|h)|h)|h)|h)|h <;> subst h <;> revert this <;> decide
  have hv : decVal ds = n := hn.symm
  have hp : ∀ ds', ds' = ds → ((if ds'.isEmpty || !ds'.all isDig || decide (i64Max < decVal ds') then none else some (decVal ds')) : Option Nat) = some n := by
    intro ds' e
    subst e
    have h1 : ds'.isEmpty = false := by cases ds' <;> simp at hne ⊢
    have h2 : ds'.all isDig = true := by simpa using hdig
    have h3 : ¬ i64Max < decVal ds' := by rw [hv]; simp [i64Max]; omega
    rw [h1, h2, decide_eq_false h3, hv]
    rfl
  rcases hw with rfl | rfl
  · refine ⟨?_, hsep⟩
    unfold parseI64
    split
    next r => exact absurd (hdig '+' (by simp)) (by decide)
    next => exact hp _ rfl
  · refine ⟨hp _ rfl, ?_⟩
    intro c hc
    rcases List.mem_cons.1 hc with h | h
    · subst h; rfl
    · exact hsep c h

theorem splitBy_none {p : Char → Bool} : ∀ {w : List Char}, (∀ c ∈ w, p c = false) → splitBy p w = [w]
  | [], _ => rfl
  | c :: w, h => by
    have h1 : p c = false := h c (by simp)
    simp [splitBy, h1, splitBy_none (w := w) (fun d hd => h d (by simp [hd]))]

theorem splitBy_sep {p : Char → Bool} {s : Char} {v : List Char} (hs : p s = true) :
    ∀ {w : List Char}, (∀ c ∈ w, p c = false) → splitBy p (w ++ s :: v) = w :: splitBy p v
  | [], _ => by simp [splitBy, hs]
  | c :: w, h => by
    have h1 : p c = false := h c (by simp)
    simp [splitBy, h1, splitBy_sep hs (w := w) (fun d hd => h d (by simp [hd]))]

theorem intervalText_split {v : List Char} {l : List Nat} (h : IntervalText v l) :
    (splitBy isIntervalSep v).map parseI64 = l.map some := by
  induction h with
  | one h =>
    have := intervalNumber_parse h
    simp [splitBy_none this.2, this.1]
  | @cons w v c n l h hc _ ih =>
    have := intervalNumber_parse h
    have hc' : isIntervalSep c = true := by
      simp at hc
      rcases hc with h|h|h|h|h|h <;> subst h <;> rfl
    rw [splitBy_sep hc' this.2]
    simp [this.1, ih]

end SqlParse
