import Verif.Theorems.Trees
import Verif.Theorems.GrammarExamples
/-! Non-vacuity of C60: an expression, its tokens with and without parentheses, and a source. -/
namespace SqlParse

/-- `a.b + 2 * - f(NULL, 'x') AND c IN (1)` -/
def sampleExpr : Expr :=
  .bin .and (.bin .add (.column c!"a" [some c!"b"]) (.bin .mult (.int 2) (.un .minus (.call (.node .Function_Other [.str c!"f"])
    (.cons .null (.one (.str c!"x")))))))
    (.isIn false (.column c!"c" []) (.one (.int 1)))

/-- Its tokens. -/
def sampleExprToks : List Token :=
  [.ident c!"a" .NOT_A_KEYWORD, .period, .ident c!"b" .NOT_A_KEYWORD, .plus, .integer c!"2", .mul, .minus, .ident c!"f" .NOT_A_KEYWORD,
    .lParen, .ident c!"NULL" .NULL, .comma, .singleQuotedString c!"x", .rParen, .ident c!"AND" .AND, .ident c!"c" .NOT_A_KEYWORD, .ident c!"IN" .IN,
    .lParen, .integer c!"1", .rParen]

theorem sample_name (v : List Char) : nameWord ({} : Opts) v .NOT_A_KEYWORD := by
  refine ⟨by decide +kernel, by decide, by decide, ?_⟩
  simp [marker, Token.isKw]

theorem sample_spells : Spells {} sampleExpr sampleExprToks := by
  refine .bin (t := .ident c!"AND" .AND) (ts := [.ident c!"a" .NOT_A_KEYWORD, .period, .ident c!"b" .NOT_A_KEYWORD, .plus, .integer c!"2",
      .mul, .minus, .ident c!"f" .NOT_A_KEYWORD, .lParen, .ident c!"NULL" .NULL, .comma, .singleQuotedString c!"x", .rParen]) rfl
    (.bin (t := .plus) (ts := [.ident c!"a" .NOT_A_KEYWORD, .period, .ident c!"b" .NOT_A_KEYWORD]) rfl
      (.column (sample_name _) (by decide +kernel) (.name (by decide +kernel) (by intro h; exact absurd h (by decide)) (by simp [marker, Token.isKw]) .nil))
      (.bin (t := .mul) (ts := [.integer c!"2"]) rfl (.int (w := c!"2") (by decide))
        (.un rfl (.call (us := [.ident c!"NULL" .NULL, .comma, .singleQuotedString c!"x"]) (.inl (sample_name _)) ⟨by decide +kernel, rfl⟩
          (.cons (ts := [.ident c!"NULL" .NULL]) (.null rfl) (.one (.str rfl)))))))
    (.isIn (t := .ident c!"IN" .IN) (ts := [.ident c!"c" .NOT_A_KEYWORD]) (us := [.integer c!"1"]) rfl
      (.column (sample_name _) (by decide +kernel) .nil) (.one (.int (w := c!"1") (by decide))))

theorem sample_grouped : sampleExpr.Grouped := by
  simp [sampleExpr, Expr.Grouped, Exprs.Grouped, Expr.leftEdge, Expr.rightEdge]
  decide

/-- `C60_reads` is not vacuous: the expression is written without parentheses, and read back. -/
example : ∃ s a, Api.one.Returns true c!"SELECT a.b + 2*-f(NULL,'x') AND c IN (1)" (Issues.new []) {} (some s) [] ∧
    selectedExpr s = some a ∧ Means sampleExpr a :=
  C60_reads true (Issues.new []) {} _ c!"SELECT" sampleExpr sampleExprToks
    [(.ident c!"SELECT" .SELECT, ⟨0, 6⟩), (.ident c!"a" .NOT_A_KEYWORD, ⟨7, 8⟩), (.period, ⟨8, 9⟩), (.ident c!"b" .NOT_A_KEYWORD, ⟨9, 10⟩),
      (.plus, ⟨11, 12⟩), (.integer c!"2", ⟨13, 14⟩), (.mul, ⟨14, 15⟩), (.minus, ⟨15, 16⟩), (.ident c!"f" .NOT_A_KEYWORD, ⟨16, 17⟩),
      (.lParen, ⟨17, 18⟩), (.ident c!"NULL" .NULL, ⟨18, 22⟩), (.comma, ⟨22, 23⟩), (.singleQuotedString c!"x", ⟨23, 26⟩), (.rParen, ⟨26, 27⟩),
      (.ident c!"AND" .AND, ⟨28, 31⟩), (.ident c!"c" .NOT_A_KEYWORD, ⟨32, 33⟩), (.ident c!"IN" .IN, ⟨34, 36⟩), (.lParen, ⟨37, 38⟩),
      (.integer c!"1", ⟨38, 39⟩), (.rParen, ⟨39, 40⟩)] rfl rfl sample_spells sample_grouped (by decide +kernel)
    ((C37_written_iff true _ _ (by decide)).2 ⟨⟨c!"SELECT a.b + 2*-f(NULL,'x') AND c IN (1)", 40, []⟩, by decide +kernel⟩) rfl

theorem sample_function : SayableFunction {} (.node .Function_Other [.str c!"f"]) := by
  refine ⟨c!"f", ⟨by decide, by decide, by decide⟩, .inl ?_, ?_⟩
  · rw [show Keyword.ofStr (upper c!"f") = .NOT_A_KEYWORD from by decide +kernel]; exact sample_name _
  · rw [show Keyword.ofStr (upper c!"f") = .NOT_A_KEYWORD from by decide +kernel]; exact ⟨by decide +kernel, rfl⟩

theorem sample_sayable : sampleExpr.Sayable {} := by
  have hq : ∀ v : List Char, (∀ c ∈ v, isWord c = true ∨ c = '-') → SayableName {} v ∧ SayablePart {} v :=
    fun v h => ⟨.inr ⟨by decide, h⟩, .inr ⟨by decide, h⟩⟩
  simp only [sampleExpr, Expr.Sayable, Exprs.Sayable]
  refine ⟨by decide, ⟨by decide, ⟨(hq _ (by decide)).1, ?_⟩, by decide, by decide, sample_function, trivial, by decide⟩, ⟨(hq _ (by decide)).1, by simp⟩, by decide⟩
  simp only [List.mem_singleton]
  rintro p rfl v h
  cases h
  exact (hq _ (by decide)).2

/-- `C60_every` is not vacuous. -/
example : ∃ src, ∀ iss, ∃ s a, Api.one.Returns true src iss {} (some s) iss.issues ∧ selectedExpr s = some a ∧ Means sampleExpr a :=
  C60_every true {} rfl rfl sampleExpr sample_sayable

/-- Without the parentheses `2 * (a + b)` is another expression: the tokens spell both, but its grouping is not that of the tree. -/
example : Spells {} (.bin .mult (.int 2) (.bin .add (.int 3) (.int 4))) [.integer c!"2", .mul, .integer c!"3", .plus, .integer c!"4"] ∧
    ¬ (Expr.bin .mult (.int 2) (.bin .add (.int 3) (.int 4))).Grouped ∧
    Spells {} (.bin .add (.bin .mult (.int 2) (.int 3)) (.int 4)) [.integer c!"2", .mul, .integer c!"3", .plus, .integer c!"4"] ∧
    (Expr.bin .add (.bin .mult (.int 2) (.int 3)) (.int 4)).Grouped := by
  refine ⟨.bin (ts := [.integer c!"2"]) rfl (.int (w := c!"2") (by decide)) (.bin (ts := [.integer c!"3"]) rfl (.int (w := c!"3") (by decide))
    (.int (w := c!"4") (by decide))), ?_, .bin (t := .plus) (ts := [.integer c!"2", .mul, .integer c!"3"]) rfl
      (.bin (t := .mul) (ts := [.integer c!"2"]) rfl (.int (w := c!"2") (by decide)) (.int (w := c!"3") (by decide)))
      (.int (w := c!"4") (by decide)), ?_⟩
  · simp [Expr.Grouped, Expr.leftEdge, Expr.rightEdge]; decide
  · simp [Expr.Grouped, Expr.leftEdge, Expr.rightEdge]; decide

end SqlParse
