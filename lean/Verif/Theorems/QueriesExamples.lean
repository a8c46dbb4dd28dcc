import Verif.Theorems.Queries
import Verif.Theorems.TreesExamples
/-! Non-vacuity of C61: a query, its tokens, and a source. -/
namespace SqlParse

/-- The query `SELECT DISTINCT a AS n FROM s.t JOIN u v ON a = 1 WHERE a GROUP BY a HAVING a ORDER BY a DESC LIMIT 2, 3`. -/
def sampleQuery : Query where
  flags := [.SelectFlag_Distinct]
  cols := [(.column c!"a" [], some c!"n")]
  from_ := some {
    tables := [⟨⟨[c!"s"], c!"t", none⟩, [⟨.JoinType_Normal, ⟨[], c!"u", some c!"v"⟩, some (.bin .eq (.column c!"a" []) (.int 1))⟩]⟩]
    cond := some (.column c!"a" [])
    group := some [.column c!"a" []]
    having := some (.column c!"a" [])
    order := some [(.column c!"a" [], .desc)]
    limit := some (some 2, 3) }

/-- Its tokens. -/
def sampleQueryToks : List Token := [
  .ident c!"SELECT" .SELECT, .ident c!"DISTINCT" .DISTINCT, .ident c!"a" .NOT_A_KEYWORD, .ident c!"AS" .AS, .ident c!"n" .NOT_A_KEYWORD,
  .ident c!"FROM" .FROM, .ident c!"s" .NOT_A_KEYWORD, .period, .ident c!"t" .NOT_A_KEYWORD, .ident c!"JOIN" .JOIN,
  .ident c!"u" .NOT_A_KEYWORD, .ident c!"v" .NOT_A_KEYWORD, .ident c!"ON" .ON, .ident c!"a" .NOT_A_KEYWORD, .eq, .integer c!"1",
  .ident c!"WHERE" .WHERE, .ident c!"a" .NOT_A_KEYWORD, .ident c!"GROUP" .GROUP, .ident c!"BY" .BY, .ident c!"a" .NOT_A_KEYWORD,
  .ident c!"HAVING" .HAVING, .ident c!"a" .NOT_A_KEYWORD, .ident c!"ORDER" .ORDER, .ident c!"BY" .BY, .ident c!"a" .NOT_A_KEYWORD,
  .ident c!"DESC" .DESC, .ident c!"LIMIT" .LIMIT, .integer c!"2", .comma, .integer c!"3"]

theorem sample_col (v : List Char) : Spells {} (.column v []) [.ident v .NOT_A_KEYWORD] :=
  .column (sample_name _) (by decide +kernel) .nil

theorem sample_spelled (v : List Char) : SpellsName {} v (.ident v .NOT_A_KEYWORD) :=
  .word (by decide +kernel) (by intro h; exact absurd h (by decide)) (by simp [marker, Token.isKw])

theorem sampleQuery_spells : SpellsQuery {} sampleQuery sampleQueryToks := by
  refine .mk (fs := [.ident c!"DISTINCT" .DISTINCT]) (ts := [.ident c!"a" .NOT_A_KEYWORD, .ident c!"AS" .AS, .ident c!"n" .NOT_A_KEYWORD]) rfl
    (.cons (by decide +kernel) .nil) (by intro t h; cases h; decide +kernel) (.one (.as (sample_col _) rfl (sample_spelled _)))
    (.some (ts := _) rfl (.mk
      (ts := [.ident c!"s" .NOT_A_KEYWORD, .period, .ident c!"t" .NOT_A_KEYWORD, .ident c!"JOIN" .JOIN, .ident c!"u" .NOT_A_KEYWORD,
        .ident c!"v" .NOT_A_KEYWORD, .ident c!"ON" .ON, .ident c!"a" .NOT_A_KEYWORD, .eq, .integer c!"1"])
      (ws := [.ident c!"WHERE" .WHERE, .ident c!"a" .NOT_A_KEYWORD]) (gs := [.ident c!"GROUP" .GROUP, .ident c!"BY" .BY, .ident c!"a" .NOT_A_KEYWORD])
      (hs := [.ident c!"HAVING" .HAVING, .ident c!"a" .NOT_A_KEYWORD])
      (os := [.ident c!"ORDER" .ORDER, .ident c!"BY" .BY, .ident c!"a" .NOT_A_KEYWORD, .ident c!"DESC" .DESC])
      (ls := [.ident c!"LIMIT" .LIMIT, .integer c!"2", .comma, .integer c!"3"])
      (.one (.mk (ts := [.ident c!"s" .NOT_A_KEYWORD, .period, .ident c!"t" .NOT_A_KEYWORD])
        (.mk (ts := [.period, .ident c!"t" .NOT_A_KEYWORD]) (us := []) (.dot (sample_spelled _) (.last (sample_spelled _))) .none)
        (.cons (ks := [.JOIN]) (ws := [.ident c!"JOIN" .JOIN]) (ts := [.ident c!"u" .NOT_A_KEYWORD, .ident c!"v" .NOT_A_KEYWORD])
          (us := [.ident c!"ON" .ON, .ident c!"a" .NOT_A_KEYWORD, .eq, .integer c!"1"]) (vs := []) (by decide) (.cons rfl .nil) (by simp)
          (.mk (ts := []) (.last (sample_spelled _)) (.plain (sample_spelled _)))
          (.some rfl (.bin (t := .eq) (ts := [.ident c!"a" .NOT_A_KEYWORD]) rfl (sample_col _) (.int (w := c!"1") (by decide)))) .nil)))
      (.some rfl (sample_col _)) (.some rfl (.mk rfl (.one (sample_col _)))) (.some rfl (sample_col _))
      (.some rfl (.mk rfl (.one (.desc (ts := [.ident c!"a" .NOT_A_KEYWORD]) (sample_col _) rfl))))
      (.some rfl (.comma (w := c!"2") (v := c!"3") (by decide) (by decide)))))

theorem sampleQuery_grouped : ∀ x ∈ sampleQuery.exprs, x.Grouped := by
  simp [sampleQuery, Query.exprs, Expr.Grouped, Expr.leftEdge, Expr.rightEdge]

/-- `C61_reads` is not vacuous: the query is read back. -/
example : ∃ v, Api.one.Returns true c!"SELECT DISTINCT a AS n FROM s.t JOIN u v ON a = 1 WHERE a GROUP BY a HAVING a ORDER BY a DESC LIMIT 2, 3"
    (Issues.new []) {} (some v) [] ∧ MeansQuery sampleQuery v.ast :=
  C61_reads true (Issues.new []) {} _ sampleQuery sampleQueryToks [
      (.ident c!"SELECT" .SELECT, ⟨0, 6⟩), (.ident c!"DISTINCT" .DISTINCT, ⟨7, 15⟩), (.ident c!"a" .NOT_A_KEYWORD, ⟨16, 17⟩),
      (.ident c!"AS" .AS, ⟨18, 20⟩), (.ident c!"n" .NOT_A_KEYWORD, ⟨21, 22⟩), (.ident c!"FROM" .FROM, ⟨23, 27⟩),
      (.ident c!"s" .NOT_A_KEYWORD, ⟨28, 29⟩), (.period, ⟨29, 30⟩), (.ident c!"t" .NOT_A_KEYWORD, ⟨30, 31⟩),
      (.ident c!"JOIN" .JOIN, ⟨32, 36⟩), (.ident c!"u" .NOT_A_KEYWORD, ⟨37, 38⟩), (.ident c!"v" .NOT_A_KEYWORD, ⟨39, 40⟩),
      (.ident c!"ON" .ON, ⟨41, 43⟩), (.ident c!"a" .NOT_A_KEYWORD, ⟨44, 45⟩), (.eq, ⟨46, 47⟩), (.integer c!"1", ⟨48, 49⟩),
      (.ident c!"WHERE" .WHERE, ⟨50, 55⟩), (.ident c!"a" .NOT_A_KEYWORD, ⟨56, 57⟩), (.ident c!"GROUP" .GROUP, ⟨58, 63⟩),
      (.ident c!"BY" .BY, ⟨64, 66⟩), (.ident c!"a" .NOT_A_KEYWORD, ⟨67, 68⟩), (.ident c!"HAVING" .HAVING, ⟨69, 75⟩),
      (.ident c!"a" .NOT_A_KEYWORD, ⟨76, 77⟩), (.ident c!"ORDER" .ORDER, ⟨78, 83⟩), (.ident c!"BY" .BY, ⟨84, 86⟩),
      (.ident c!"a" .NOT_A_KEYWORD, ⟨87, 88⟩), (.ident c!"DESC" .DESC, ⟨89, 93⟩), (.ident c!"LIMIT" .LIMIT, ⟨94, 99⟩),
      (.integer c!"2", ⟨100, 101⟩), (.comma, ⟨101, 102⟩), (.integer c!"3", ⟨103, 104⟩)]
    rfl rfl sampleQuery_spells sampleQuery_grouped ((C37_written_iff true _ _ (by decide)).2
      ⟨⟨c!"SELECT DISTINCT a AS n FROM s.t JOIN u v ON a = 1 WHERE a GROUP BY a HAVING a ORDER BY a DESC LIMIT 2, 3", 104, []⟩, by decide +kernel⟩) rfl

theorem sampleQuery_sayable : sampleQuery.Sayable {} := by
  have hq : ∀ v : List Char, (∀ c ∈ v, isWord c = true ∨ c = '-') → SayableName {} v ∧ SayablePart {} v :=
    fun v h => ⟨.inr ⟨by decide, h⟩, .inr ⟨by decide, h⟩⟩

  refine ⟨?_, by decide, by simp [sampleQuery], ?_, ?_, ?_, ?_⟩
  · simp [sampleQuery, Query.exprs, Expr.Sayable]
    exact (hq c!"a" (by decide)).1
  · simp [sampleQuery, (hq c!"n" (by decide)).2]
  · simp [sampleQuery, SayableTable, (hq c!"s" (by decide)).2, (hq c!"t" (by decide)).2, (hq c!"u" (by decide)).2, (hq c!"v" (by decide)).2]
    refine ⟨⟨[.JOIN], by decide⟩, ?_⟩
    intro a i j b e
    cases a <;> simp at e
  · simp [sampleQuery]
  · simp [sampleQuery]

/-- `C61_every` is not vacuous. -/
example : ∃ src, ∀ iss, ∃ v, Api.one.Returns true src iss {} (some v) iss.issues ∧ MeansQuery sampleQuery v.ast :=
  C61_every true {} rfl rfl sampleQuery sampleQuery_sayable

end SqlParse
