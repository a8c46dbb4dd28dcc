import Verif.Theorems.Tables
import Verif.Theorems.QueriesExamples
/-! Non-vacuity of C62: the declaration of a table, its tokens, and a source. -/
namespace SqlParse

/-- The table that is declared by `CREATE OR REPLACE TABLE IF NOT EXISTS s.t (a INT(11) UNSIGNED NOT NULL PRIMARY KEY, b VARCHAR(40) DEFAULT 'x' UNIQUE, c ENUM('p', 'q') CHECK (a = 1)) ENGINE=m COMMENT 'n'`. -/
def sampleTable : TableDef where
  create := [.CreateOption_OrReplace]
  ifNotExists := true
  path := [c!"s"]
  name := c!"t"
  cols := [⟨c!"a", .width .Type_Int (some 11), [.plain .DataTypeProperty_Unsigned, .notNull, .primaryKey]⟩,
    ⟨c!"b", .width .Type_VarChar (some 40), [.default (.str c!"x"), .unique]⟩,
    ⟨c!"c", .enum [c!"p", c!"q"], [.check (.bin .eq (.column c!"a" []) (.int 1))]⟩]
  opts := [.engine c!"m", .comment c!"n"]

/-- Its tokens. -/
def sampleTableToks : List Token := [
  .ident c!"CREATE" .CREATE, .ident c!"OR" .OR, .ident c!"REPLACE" .REPLACE, .ident c!"TABLE" .TABLE, .ident c!"IF" .IF,
  .ident c!"NOT" .NOT, .ident c!"EXISTS" .EXISTS, .ident c!"s" .NOT_A_KEYWORD, .period, .ident c!"t" .NOT_A_KEYWORD, .lParen,
  .ident c!"a" .NOT_A_KEYWORD, .ident c!"INT" .INT, .lParen, .integer c!"11", .rParen, .ident c!"UNSIGNED" .UNSIGNED, .ident c!"NOT" .NOT,
  .ident c!"NULL" .NULL, .ident c!"PRIMARY" .PRIMARY, .ident c!"KEY" .KEY, .comma, .ident c!"b" .NOT_A_KEYWORD, .ident c!"VARCHAR" .VARCHAR,
  .lParen, .integer c!"40", .rParen, .ident c!"DEFAULT" .DEFAULT, .singleQuotedString c!"x", .ident c!"UNIQUE" .UNIQUE, .comma,
  .ident c!"c" .NOT_A_KEYWORD, .ident c!"ENUM" .ENUM, .lParen, .singleQuotedString c!"p", .comma, .singleQuotedString c!"q", .rParen,
  .ident c!"CHECK" .CHECK, .lParen, .ident c!"a" .NOT_A_KEYWORD, .eq, .integer c!"1", .rParen, .rParen, .ident c!"ENGINE" .ENGINE, .eq,
  .ident c!"m" .NOT_A_KEYWORD, .ident c!"COMMENT" .COMMENT, .singleQuotedString c!"n"]

/-- A column with its tokens. -/
theorem sample_column {v : List Char} {ty : ColType} {ps : List ColProp} (ts us : List Token) (ht : SpellsType {} ty ts)
    (hp : SpellsProps {} false ps us) : SpellsCol {} ⟨v, ty, ps⟩ (.ident v .NOT_A_KEYWORD :: (ts ++ us)) :=
  .mk (sample_spelled _) ht hp

theorem sampleTable_spells : SpellsTableDef {} sampleTable sampleTableToks := by
  have h1 : SpellsCol {} ⟨c!"a", .width .Type_Int (some 11), [.plain .DataTypeProperty_Unsigned, .notNull, .primaryKey]⟩ _ :=
    sample_column [.ident c!"INT" .INT, .lParen, .integer c!"11", .rParen] _ (.width (by decide +kernel) (.some (w := c!"11") (by decide)))
      (.cons (ts := [.ident c!"UNSIGNED" .UNSIGNED]) (.plain (by decide +kernel)) (by simp) (.cons (ts := [.ident c!"NOT" .NOT, .ident c!"NULL" .NULL]) (.notNull rfl rfl) (by simp [ColProp.isDefault])
        (.cons (ts := [.ident c!"PRIMARY" .PRIMARY, .ident c!"KEY" .KEY]) (.primaryKey rfl rfl) (by simp [ColProp.isDefault]) .nil)))
  have h2 : SpellsCol {} ⟨c!"b", .width .Type_VarChar (some 40), [.default (.str c!"x"), .unique]⟩ _ :=
    sample_column [.ident c!"VARCHAR" .VARCHAR, .lParen, .integer c!"40", .rParen] _ (.width (by decide +kernel) (.some (w := c!"40") (by decide)))
      (.cons (ts := [.ident c!"DEFAULT" .DEFAULT, .singleQuotedString c!"x"]) (.default rfl (.str (.str (by decide)))) (by simp)
        (.cons (ts := [.ident c!"UNIQUE" .UNIQUE]) (.unique rfl) (by simp [ColProp.afterDefault]) .nil))
  have h3 : SpellsCol {} ⟨c!"c", .enum [c!"p", c!"q"], [.check (.bin .eq (.column c!"a" []) (.int 1))]⟩ _ :=
    sample_column [.ident c!"ENUM" .ENUM, .lParen, .singleQuotedString c!"p", .comma, .singleQuotedString c!"q", .rParen] _
      (.enum (ts := [.singleQuotedString c!"p", .comma, .singleQuotedString c!"q"]) rfl
        (.cons (ts := [.singleQuotedString c!"p"]) (.str (by decide)) (.one (.str (by decide)))))
      (.cons (ts := [.ident c!"CHECK" .CHECK, .lParen, .ident c!"a" .NOT_A_KEYWORD, .eq, .integer c!"1", .rParen])
        (.check (ts := [.ident c!"a" .NOT_A_KEYWORD, .eq, .integer c!"1"]) rfl
          (.bin (t := .eq) (ts := [.ident c!"a" .NOT_A_KEYWORD]) rfl (sample_col _) (.int (w := c!"1") (by decide)))) (by simp) .nil)
  exact .mk (xs := [.ident c!"OR" .OR, .ident c!"REPLACE" .REPLACE]) (is := [.ident c!"IF" .IF, .ident c!"NOT" .NOT, .ident c!"EXISTS" .EXISTS]) (ns := [.ident c!"s" .NOT_A_KEYWORD, .period, .ident c!"t" .NOT_A_KEYWORD])
    (os := [.ident c!"ENGINE" .ENGINE, .eq, .ident c!"m" .NOT_A_KEYWORD, .ident c!"COMMENT" .COMMENT, .singleQuotedString c!"n"]) rfl
    (.cons (ts := [.ident c!"OR" .OR, .ident c!"REPLACE" .REPLACE]) (.mk (ks := [.OR, .REPLACE]) (by decide) (.cons rfl (.cons rfl .nil))) .nil) rfl (.yes (.cons rfl (.cons rfl (.cons rfl .nil))))
    (.dot (sample_spelled _) (.last (sample_spelled _)))
    (.some (.cons h1 (.cons h2 (.one h3))))
    (.cons (ts := [.ident c!"ENGINE" .ENGINE, .eq, .ident c!"m" .NOT_A_KEYWORD]) (.engine (.eq rfl (.mk (sample_spelled _))))
      (.cons (ts := [.ident c!"COMMENT" .COMMENT, .singleQuotedString c!"n"]) (.comment (.plain rfl (.str (by decide)))) .nil))

theorem sampleTable_grouped : ∀ c ∈ sampleTable.cols, ∀ p ∈ c.props, ∀ x ∈ p.expr, x.Grouped := by
  simp [sampleTable, ColProp.expr, Expr.Grouped, Expr.leftEdge, Expr.rightEdge]

/-- `C62_reads` is not vacuous: the declaration is read back. -/
example : ∃ v, Api.one.Returns true c!"CREATE OR REPLACE TABLE IF NOT EXISTS s.t (a INT(11) UNSIGNED NOT NULL PRIMARY KEY, b VARCHAR(40) DEFAULT 'x' UNIQUE, c ENUM('p', 'q') CHECK (a = 1)) ENGINE=m COMMENT 'n'"
    (Issues.new []) {} (some v) [] ∧ MeansTableDef sampleTable v.ast :=
  C62_reads true (Issues.new []) {} _ sampleTable sampleTableToks [
      (.ident c!"CREATE" .CREATE, ⟨0, 6⟩), (.ident c!"OR" .OR, ⟨7, 9⟩), (.ident c!"REPLACE" .REPLACE, ⟨10, 17⟩),
      (.ident c!"TABLE" .TABLE, ⟨18, 23⟩), (.ident c!"IF" .IF, ⟨24, 26⟩), (.ident c!"NOT" .NOT, ⟨27, 30⟩),
      (.ident c!"EXISTS" .EXISTS, ⟨31, 37⟩), (.ident c!"s" .NOT_A_KEYWORD, ⟨38, 39⟩), (.period, ⟨39, 40⟩),
      (.ident c!"t" .NOT_A_KEYWORD, ⟨40, 41⟩), (.lParen, ⟨42, 43⟩), (.ident c!"a" .NOT_A_KEYWORD, ⟨43, 44⟩),
      (.ident c!"INT" .INT, ⟨45, 48⟩), (.lParen, ⟨48, 49⟩), (.integer c!"11", ⟨49, 51⟩), (.rParen, ⟨51, 52⟩),
      (.ident c!"UNSIGNED" .UNSIGNED, ⟨53, 61⟩), (.ident c!"NOT" .NOT, ⟨62, 65⟩), (.ident c!"NULL" .NULL, ⟨66, 70⟩),
      (.ident c!"PRIMARY" .PRIMARY, ⟨71, 78⟩), (.ident c!"KEY" .KEY, ⟨79, 82⟩), (.comma, ⟨82, 83⟩), (.ident c!"b" .NOT_A_KEYWORD, ⟨84, 85⟩),
      (.ident c!"VARCHAR" .VARCHAR, ⟨86, 93⟩), (.lParen, ⟨93, 94⟩), (.integer c!"40", ⟨94, 96⟩), (.rParen, ⟨96, 97⟩),
      (.ident c!"DEFAULT" .DEFAULT, ⟨98, 105⟩), (.singleQuotedString c!"x", ⟨106, 109⟩), (.ident c!"UNIQUE" .UNIQUE, ⟨110, 116⟩),
      (.comma, ⟨116, 117⟩), (.ident c!"c" .NOT_A_KEYWORD, ⟨118, 119⟩), (.ident c!"ENUM" .ENUM, ⟨120, 124⟩), (.lParen, ⟨124, 125⟩),
      (.singleQuotedString c!"p", ⟨125, 128⟩), (.comma, ⟨128, 129⟩), (.singleQuotedString c!"q", ⟨130, 133⟩), (.rParen, ⟨133, 134⟩),
      (.ident c!"CHECK" .CHECK, ⟨135, 140⟩), (.lParen, ⟨141, 142⟩), (.ident c!"a" .NOT_A_KEYWORD, ⟨142, 143⟩), (.eq, ⟨144, 145⟩),
      (.integer c!"1", ⟨146, 147⟩), (.rParen, ⟨147, 148⟩), (.rParen, ⟨148, 149⟩), (.ident c!"ENGINE" .ENGINE, ⟨150, 156⟩),
      (.eq, ⟨156, 157⟩), (.ident c!"m" .NOT_A_KEYWORD, ⟨157, 158⟩), (.ident c!"COMMENT" .COMMENT, ⟨159, 166⟩),
      (.singleQuotedString c!"n", ⟨167, 170⟩)]
    rfl rfl sampleTable_spells sampleTable_grouped ((C37_written_iff true _ _ (by decide)).2
      ⟨⟨c!"CREATE OR REPLACE TABLE IF NOT EXISTS s.t (a INT(11) UNSIGNED NOT NULL PRIMARY KEY, b VARCHAR(40) DEFAULT 'x' UNIQUE, c ENUM('p', 'q') CHECK (a = 1)) ENGINE=m COMMENT 'n'", 170, []⟩, by decide +kernel⟩) rfl

theorem sampleTable_sayable : sampleTable.Sayable {} := by
  have hq : ∀ v : List Char, (∀ c ∈ v, isWord c = true ∨ c = '-') → SayableName {} v ∧ SayablePart {} v :=
    fun v h => ⟨.inr ⟨by decide, h⟩, .inr ⟨by decide, h⟩⟩
  refine ⟨by decide, ⟨by simp [sampleTable, (hq c!"s" (by decide)).2], (hq c!"t" (by decide)).2⟩, ?_, ?_⟩
  · intro c hc
    simp only [sampleTable, List.mem_cons, List.not_mem_nil, or_false] at hc
    rcases hc with rfl | rfl | rfl
    · refine ⟨(hq c!"a" (by decide)).2, ⟨by decide, by simp⟩, by simp [ColProp.Sayable]; exact ⟨.UNSIGNED, by decide⟩, ?_⟩
      intro a p q b e
      rcases a with _ | ⟨_, _ | ⟨_, _ | ⟨_, a⟩⟩⟩ <;> simp at e <;> rcases e with ⟨rfl, e⟩ <;> simp [ColProp.isDefault]
      obtain ⟨rfl, -⟩ := e; simp
    · refine ⟨(hq c!"b" (by decide)).2, ⟨by decide, by simp⟩, by simp [ColProp.Sayable, Expr.Sayable], ?_⟩
      intro a p q b e
      rcases a with _ | ⟨_, _ | ⟨_, a⟩⟩ <;> simp at e
      obtain ⟨rfl, rfl, -⟩ := e
      simp [ColProp.afterDefault]
    · refine ⟨(hq c!"c" (by decide)).2, ⟨by decide, by decide⟩, by simp [ColProp.Sayable, Expr.Sayable, (hq c!"a" (by decide)).1], ?_⟩
      intro a p q b e
      rcases a with _ | ⟨_, a⟩ <;> simp at e
  · simp [sampleTable, TblOption.Sayable, (hq c!"m" (by decide)).2]

/-- `C62_every` is not vacuous. -/
example : ∃ src, ∀ iss, ∃ v, Api.one.Returns true src iss {} (some v) iss.issues ∧ MeansTableDef sampleTable v.ast :=
  C62_every true {} rfl rfl sampleTable sampleTable_sayable

end SqlParse
