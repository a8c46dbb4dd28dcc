import Verif.Theorems.Changes
import Verif.Theorems.QueriesExamples
/-! Non-vacuity of C63: changes of data, their tokens, and sources. -/
namespace SqlParse

/-- `INSERT IGNORE INTO s.t (a, b) VALUES (1, 'x'), (a + 2, 'y') ON DUPLICATE KEY UPDATE b = 1 RETURNING a` -/
def sampleInsert : Change := .insert ⟨.InsertReplaceType_Insert, [.InsertReplaceFlag_Ignore], [c!"s"], c!"t", [c!"a", c!"b"],
  .values [[.int 1, .str c!"x"], [.bin .add (.column c!"a" []) (.int 2), .str c!"y"]],
  .duplicate [(c!"b", .int 1)], some [(.column c!"a" [], none)]⟩

/-- `UPDATE t SET b = 1, s.a = a + 2 WHERE a = 1` -/
def sampleUpdate : Change := .update ⟨[], [⟨⟨[], c!"t", none⟩, []⟩], [⟨[], c!"b", .int 1⟩, ⟨[c!"s"], c!"a", .bin .add (.column c!"a" []) (.int 2)⟩],
  some (.bin .eq (.column c!"a" []) (.int 1)), none⟩

/-- `DELETE QUICK FROM t USING t JOIN u ON a = 1 WHERE b = 2` -/
def sampleDelete : Change := .delete ⟨[.DeleteFlag_Quick], [([], c!"t")], [⟨⟨[], c!"t", none⟩, [⟨.JoinType_Normal, ⟨[], c!"u", none⟩, some (.bin .eq (.column c!"a" []) (.int 1))⟩]⟩],
  some (.bin .eq (.column c!"b" []) (.int 2)), none⟩

theorem sampleInsert_spells : SpellsChange {} sampleInsert
    [.ident c!"INSERT" .INSERT, .ident c!"IGNORE" .IGNORE, .ident c!"INTO" .INTO, .ident c!"s" .NOT_A_KEYWORD, .period,
      .ident c!"t" .NOT_A_KEYWORD, .lParen, .ident c!"a" .NOT_A_KEYWORD, .comma, .ident c!"b" .NOT_A_KEYWORD, .rParen,
      .ident c!"VALUES" .VALUES, .lParen, .integer c!"1", .comma, .singleQuotedString c!"x", .rParen, .comma, .lParen,
      .ident c!"a" .NOT_A_KEYWORD, .plus, .integer c!"2", .comma, .singleQuotedString c!"y", .rParen, .ident c!"ON" .ON,
      .ident c!"DUPLICATE" .DUPLICATE, .ident c!"KEY" .KEY, .ident c!"UPDATE" .UPDATE, .ident c!"b" .NOT_A_KEYWORD, .eq, .integer c!"1",
      .ident c!"RETURNING" .RETURNING, .ident c!"a" .NOT_A_KEYWORD] := by
  have h1 : SpellsRow {} [.int 1, .str c!"x"] [.lParen, .integer c!"1", .comma, .singleQuotedString c!"x", .rParen] :=
    .mk (ts := [.integer c!"1", .comma, .singleQuotedString c!"x"]) (.cons (ts := [.integer c!"1"]) (.int (w := c!"1") (by decide)) (.one (.str (by decide))))
  have h2 : SpellsRow {} [.bin .add (.column c!"a" []) (.int 2), .str c!"y"] [.lParen, .ident c!"a" .NOT_A_KEYWORD, .plus, .integer c!"2", .comma, .singleQuotedString c!"y", .rParen] :=
    .mk (ts := [.ident c!"a" .NOT_A_KEYWORD, .plus, .integer c!"2", .comma, .singleQuotedString c!"y"]) (.cons (ts := [.ident c!"a" .NOT_A_KEYWORD, .plus, .integer c!"2"]) (.bin (t := .plus) (ts := [.ident c!"a" .NOT_A_KEYWORD]) rfl (sample_col _) (.int (w := c!"2") (by decide))) (.one (.str (by decide))))
  exact .mk (fs := [.ident c!"IGNORE" .IGNORE]) (is := [.ident c!"INTO" .INTO]) (ns := [.ident c!"s" .NOT_A_KEYWORD, .period, .ident c!"t" .NOT_A_KEYWORD]) (cs := [.lParen, .ident c!"a" .NOT_A_KEYWORD, .comma, .ident c!"b" .NOT_A_KEYWORD, .rParen]) (by decide +kernel) (.cons (by decide +kernel) .nil)
    (by simp) (.yes rfl) (.dot (sample_spelled _) (.last (sample_spelled _)))
    (.some (ts := [.ident c!"a" .NOT_A_KEYWORD, .comma, .ident c!"b" .NOT_A_KEYWORD]) (.cons (ts := [.ident c!"a" .NOT_A_KEYWORD]) (.mk (sample_spelled _)) (.one (.mk (sample_spelled _)))))
    (.values (ts := [.lParen, .integer c!"1", .comma, .singleQuotedString c!"x", .rParen, .comma, .lParen, .ident c!"a" .NOT_A_KEYWORD, .plus, .integer c!"2", .comma, .singleQuotedString c!"y", .rParen]) (os := [.ident c!"ON" .ON, .ident c!"DUPLICATE" .DUPLICATE, .ident c!"KEY" .KEY, .ident c!"UPDATE" .UPDATE, .ident c!"b" .NOT_A_KEYWORD, .eq, .integer c!"1"]) (.inr rfl) (.cons h1 (.one h2))
      (.duplicate (ws := [.ident c!"ON" .ON, .ident c!"DUPLICATE" .DUPLICATE, .ident c!"KEY" .KEY, .ident c!"UPDATE" .UPDATE]) (ts := [.ident c!"b" .NOT_A_KEYWORD, .eq, .integer c!"1"]) rfl (.cons rfl (.cons rfl (.cons rfl (.cons rfl .nil)))) (.one (.mk (sample_spelled _) (.int (w := c!"1") (by decide)))))
      (.some rfl (.one (.plain (sample_col _)))))

theorem sampleUpdate_spells : SpellsChange {} sampleUpdate
    [.ident c!"UPDATE" .UPDATE, .ident c!"t" .NOT_A_KEYWORD, .ident c!"SET" .SET, .ident c!"b" .NOT_A_KEYWORD, .eq, .integer c!"1", .comma,
      .ident c!"s" .NOT_A_KEYWORD, .period, .ident c!"a" .NOT_A_KEYWORD, .eq, .ident c!"a" .NOT_A_KEYWORD, .plus, .integer c!"2",
      .ident c!"WHERE" .WHERE, .ident c!"a" .NOT_A_KEYWORD, .eq, .integer c!"1"] := by
  have h1 : SpellsSetting {} ⟨[], c!"b", .int 1⟩ [.ident c!"b" .NOT_A_KEYWORD, .eq, .integer c!"1"] := .mk (ts := [.ident c!"b" .NOT_A_KEYWORD]) (.last (sample_spelled _)) (.int (w := c!"1") (by decide))
  have h2 : SpellsSetting {} ⟨[c!"s"], c!"a", .bin .add (.column c!"a" []) (.int 2)⟩ [.ident c!"s" .NOT_A_KEYWORD, .period, .ident c!"a" .NOT_A_KEYWORD, .eq, .ident c!"a" .NOT_A_KEYWORD, .plus, .integer c!"2"] :=
    .mk (ts := [.ident c!"s" .NOT_A_KEYWORD, .period, .ident c!"a" .NOT_A_KEYWORD]) (.dot (sample_spelled _) (.last (sample_spelled _))) (.bin (t := .plus) (ts := [.ident c!"a" .NOT_A_KEYWORD]) rfl (sample_col _) (.int (w := c!"2") (by decide)))
  exact .mk (fs := []) (ts := [.ident c!"t" .NOT_A_KEYWORD]) (ss := [.ident c!"b" .NOT_A_KEYWORD, .eq, .integer c!"1", .comma, .ident c!"s" .NOT_A_KEYWORD, .period, .ident c!"a" .NOT_A_KEYWORD, .eq, .ident c!"a" .NOT_A_KEYWORD, .plus, .integer c!"2"]) (ws := [.ident c!"WHERE" .WHERE, .ident c!"a" .NOT_A_KEYWORD, .eq, .integer c!"1"]) (rs := []) rfl .nil
    (.one (.mk (us := []) (.mk (ts := []) (us := []) (.last (sample_spelled _)) .none) .nil)) rfl (.cons h1 (.one h2))
    (.some rfl (.bin (t := .eq) (ts := [.ident c!"a" .NOT_A_KEYWORD]) rfl (sample_col _) (.int (w := c!"1") (by decide)))) .none (by simp)

theorem sampleDelete_spells : SpellsChange {} sampleDelete
    [.ident c!"DELETE" .DELETE, .ident c!"QUICK" .QUICK, .ident c!"FROM" .FROM, .ident c!"t" .NOT_A_KEYWORD, .ident c!"USING" .USING,
      .ident c!"t" .NOT_A_KEYWORD, .ident c!"JOIN" .JOIN, .ident c!"u" .NOT_A_KEYWORD, .ident c!"ON" .ON, .ident c!"a" .NOT_A_KEYWORD, .eq,
      .integer c!"1", .ident c!"WHERE" .WHERE, .ident c!"b" .NOT_A_KEYWORD, .eq, .integer c!"2"] :=
  .from (u := some _) (fs := [.ident c!"QUICK" .QUICK]) (ts := [.ident c!"t" .NOT_A_KEYWORD]) (us := [.ident c!"USING" .USING, .ident c!"t" .NOT_A_KEYWORD, .ident c!"JOIN" .JOIN, .ident c!"u" .NOT_A_KEYWORD, .ident c!"ON" .ON, .ident c!"a" .NOT_A_KEYWORD, .eq, .integer c!"1"]) (ws := [.ident c!"WHERE" .WHERE, .ident c!"b" .NOT_A_KEYWORD, .eq, .integer c!"2"]) (rs := []) rfl
    (.cons (by decide +kernel) .nil) rfl (.one (.mk (.last (sample_spelled _))))
    (.some rfl (.one (.mk (ts := [.ident c!"t" .NOT_A_KEYWORD]) (.mk (ts := []) (us := []) (.last (sample_spelled _)) .none)
      (.cons (ks := [.JOIN]) (ws := [.ident c!"JOIN" .JOIN]) (ts := [.ident c!"u" .NOT_A_KEYWORD]) (us := [.ident c!"ON" .ON, .ident c!"a" .NOT_A_KEYWORD, .eq, .integer c!"1"]) (by decide) (.cons rfl .nil) (by simp)
        (.mk (ts := []) (us := []) (.last (sample_spelled _)) .none) (.some rfl (.bin (t := .eq) (ts := [.ident c!"a" .NOT_A_KEYWORD]) rfl (sample_col _) (.int (w := c!"1") (by decide)))) .nil))))
    (.some rfl (.bin (t := .eq) (ts := [.ident c!"b" .NOT_A_KEYWORD]) rfl (sample_col _) (.int (w := c!"2") (by decide)))) .none

/-- The other form of DELETE spells the same change, when there are no flags. -/
theorem sampleMulti_spells : SpellsDeletion {} ⟨[], [([], c!"t")], [⟨⟨[], c!"t", none⟩, [⟨.JoinType_Normal, ⟨[], c!"u", none⟩,
      some (.bin .eq (.column c!"a" []) (.int 1))⟩]⟩], some (.bin .eq (.column c!"b" []) (.int 2)), none⟩
    [.ident c!"DELETE" .DELETE, .ident c!"t" .NOT_A_KEYWORD, .ident c!"FROM" .FROM, .ident c!"t" .NOT_A_KEYWORD, .ident c!"JOIN" .JOIN,
      .ident c!"u" .NOT_A_KEYWORD, .ident c!"ON" .ON, .ident c!"a" .NOT_A_KEYWORD, .eq, .integer c!"1", .ident c!"WHERE" .WHERE,
      .ident c!"b" .NOT_A_KEYWORD, .eq, .integer c!"2"] :=
  .multi (fs := []) (ts := [.ident c!"t" .NOT_A_KEYWORD]) (us := [.ident c!"t" .NOT_A_KEYWORD, .ident c!"JOIN" .JOIN, .ident c!"u" .NOT_A_KEYWORD, .ident c!"ON" .ON, .ident c!"a" .NOT_A_KEYWORD, .eq, .integer c!"1"]) (ws := [.ident c!"WHERE" .WHERE, .ident c!"b" .NOT_A_KEYWORD, .eq, .integer c!"2"]) (rs := []) rfl
    .nil (.one (.mk (.last (sample_spelled _)))) (by rintro t ⟨⟩; decide +kernel) rfl
    (.one (.mk (ts := [.ident c!"t" .NOT_A_KEYWORD]) (.mk (ts := []) (us := []) (.last (sample_spelled _)) .none)
      (.cons (ks := [.JOIN]) (ws := [.ident c!"JOIN" .JOIN]) (ts := [.ident c!"u" .NOT_A_KEYWORD]) (us := [.ident c!"ON" .ON, .ident c!"a" .NOT_A_KEYWORD, .eq, .integer c!"1"]) (by decide) (.cons rfl .nil) (by simp)
        (.mk (ts := []) (us := []) (.last (sample_spelled _)) .none) (.some rfl (.bin (t := .eq) (ts := [.ident c!"a" .NOT_A_KEYWORD]) rfl (sample_col _) (.int (w := c!"1") (by decide)))) .nil)))
    (.some rfl (.bin (t := .eq) (ts := [.ident c!"b" .NOT_A_KEYWORD]) rfl (sample_col _) (.int (w := c!"2") (by decide)))) .none

/-- ON CONFLICT, in PostgreSQL. -/
theorem sampleConflict_spells : SpellsClash { dialect := .postgreSQL } (.update (.cols [c!"a"]) [(c!"b", .int 1)] (some (.int 1)))
    [.ident c!"ON" .ON, .ident c!"CONFLICT" .CONFLICT, .lParen, .ident c!"a" .NOT_A_KEYWORD, .rParen, .ident c!"DO" .DO,
      .ident c!"UPDATE" .UPDATE, .ident c!"SET" .SET, .ident c!"b" .NOT_A_KEYWORD, .eq, .integer c!"1", .ident c!"WHERE" .WHERE,
      .integer c!"1"] :=
  .update (ws := [.ident c!"ON" .ON, .ident c!"CONFLICT" .CONFLICT]) (cs := [.lParen, .ident c!"a" .NOT_A_KEYWORD, .rParen]) (ds := [.ident c!"DO" .DO, .ident c!"UPDATE" .UPDATE, .ident c!"SET" .SET]) (ts := [.ident c!"b" .NOT_A_KEYWORD, .eq, .integer c!"1"]) (us := [.ident c!"WHERE" .WHERE, .integer c!"1"]) rfl
    (.cons rfl (.cons rfl .nil)) (.cols (ts := [.ident c!"a" .NOT_A_KEYWORD]) (.one (.mk (.word (by decide +kernel) (by decide) (by decide +kernel)))))
    (.cons rfl (.cons rfl (.cons rfl .nil))) (.one (.mk (.word (by decide +kernel) (by decide) (by decide +kernel)) (.int (w := c!"1") (by decide)))) (.some rfl (.int (w := c!"1") (by decide)))

/-- ON CONFLICT DO NOTHING. -/
theorem sampleNothing_spells : SpellsClash { dialect := .postgreSQL } (.nothing (.constraint c!"a"))
    [.ident c!"ON" .ON, .ident c!"CONFLICT" .CONFLICT, .ident c!"ON" .ON, .ident c!"CONSTRAINT" .CONSTRAINT, .ident c!"a" .NOT_A_KEYWORD,
      .ident c!"DO" .DO, .ident c!"NOTHING" .NOTHING] :=
  .nothing (ws := [.ident c!"ON" .ON, .ident c!"CONFLICT" .CONFLICT]) (cs := [.ident c!"ON" .ON, .ident c!"CONSTRAINT" .CONSTRAINT, .ident c!"a" .NOT_A_KEYWORD]) (ds := [.ident c!"DO" .DO, .ident c!"NOTHING" .NOTHING]) rfl
    (.cons rfl (.cons rfl .nil)) (.constraint (ws := [.ident c!"ON" .ON, .ident c!"CONSTRAINT" .CONSTRAINT]) (.cons rfl (.cons rfl .nil)) (.word (by decide +kernel) (by decide) (by decide +kernel)))
    (.cons rfl (.cons rfl .nil))

theorem sampleInsert_grouped : ∀ x ∈ sampleInsert.exprs, x.Grouped := by
  simp [sampleInsert, Change.exprs, Source.exprs, Clash.exprs, Tables.exprs, Expr.Grouped, Expr.leftEdge, Expr.rightEdge]

/-- `C63_reads` is not vacuous: the change is read back. -/
example : ∃ v, Api.one.Returns true c!"INSERT IGNORE INTO s.t (a, b) VALUES (1, 'x'), (a + 2, 'y') ON DUPLICATE KEY UPDATE b = 1 RETURNING a"
    (Issues.new []) {} (some v) [] ∧ MeansChange sampleInsert v.ast :=
  C63_reads true (Issues.new []) {} _ sampleInsert _ [
      (.ident c!"INSERT" .INSERT, ⟨0, 6⟩), (.ident c!"IGNORE" .IGNORE, ⟨7, 13⟩), (.ident c!"INTO" .INTO, ⟨14, 18⟩),
      (.ident c!"s" .NOT_A_KEYWORD, ⟨19, 20⟩), (.period, ⟨20, 21⟩), (.ident c!"t" .NOT_A_KEYWORD, ⟨21, 22⟩), (.lParen, ⟨23, 24⟩),
      (.ident c!"a" .NOT_A_KEYWORD, ⟨24, 25⟩), (.comma, ⟨25, 26⟩), (.ident c!"b" .NOT_A_KEYWORD, ⟨27, 28⟩), (.rParen, ⟨28, 29⟩),
      (.ident c!"VALUES" .VALUES, ⟨30, 36⟩), (.lParen, ⟨37, 38⟩), (.integer c!"1", ⟨38, 39⟩), (.comma, ⟨39, 40⟩),
      (.singleQuotedString c!"x", ⟨41, 44⟩), (.rParen, ⟨44, 45⟩), (.comma, ⟨45, 46⟩), (.lParen, ⟨47, 48⟩),
      (.ident c!"a" .NOT_A_KEYWORD, ⟨48, 49⟩), (.plus, ⟨50, 51⟩), (.integer c!"2", ⟨52, 53⟩), (.comma, ⟨53, 54⟩),
      (.singleQuotedString c!"y", ⟨55, 58⟩), (.rParen, ⟨58, 59⟩), (.ident c!"ON" .ON, ⟨60, 62⟩),
      (.ident c!"DUPLICATE" .DUPLICATE, ⟨63, 72⟩), (.ident c!"KEY" .KEY, ⟨73, 76⟩), (.ident c!"UPDATE" .UPDATE, ⟨77, 83⟩),
      (.ident c!"b" .NOT_A_KEYWORD, ⟨84, 85⟩), (.eq, ⟨86, 87⟩), (.integer c!"1", ⟨88, 89⟩), (.ident c!"RETURNING" .RETURNING, ⟨90, 99⟩),
      (.ident c!"a" .NOT_A_KEYWORD, ⟨100, 101⟩)]
    rfl rfl sampleInsert_spells sampleInsert_grouped ((C37_written_iff true _ _ (by decide)).2
      ⟨⟨c!"INSERT IGNORE INTO s.t (a, b) VALUES (1, 'x'), (a + 2, 'y') ON DUPLICATE KEY UPDATE b = 1 RETURNING a", 101, []⟩, by decide +kernel⟩) rfl

theorem sampleUpdate_grouped : ∀ x ∈ sampleUpdate.exprs, x.Grouped := by
  simp [sampleUpdate, Change.exprs, Source.exprs, Clash.exprs, Tables.exprs, Expr.Grouped, Expr.leftEdge, Expr.rightEdge]

/-- `C63_reads` is not vacuous: the change is read back. -/
example : ∃ v, Api.one.Returns true c!"UPDATE t SET b = 1, s.a = a + 2 WHERE a = 1"
    (Issues.new []) {} (some v) [] ∧ MeansChange sampleUpdate v.ast :=
  C63_reads true (Issues.new []) {} _ sampleUpdate _ [
      (.ident c!"UPDATE" .UPDATE, ⟨0, 6⟩), (.ident c!"t" .NOT_A_KEYWORD, ⟨7, 8⟩), (.ident c!"SET" .SET, ⟨9, 12⟩),
      (.ident c!"b" .NOT_A_KEYWORD, ⟨13, 14⟩), (.eq, ⟨15, 16⟩), (.integer c!"1", ⟨17, 18⟩), (.comma, ⟨18, 19⟩),
      (.ident c!"s" .NOT_A_KEYWORD, ⟨20, 21⟩), (.period, ⟨21, 22⟩), (.ident c!"a" .NOT_A_KEYWORD, ⟨22, 23⟩), (.eq, ⟨24, 25⟩),
      (.ident c!"a" .NOT_A_KEYWORD, ⟨26, 27⟩), (.plus, ⟨28, 29⟩), (.integer c!"2", ⟨30, 31⟩), (.ident c!"WHERE" .WHERE, ⟨32, 37⟩),
      (.ident c!"a" .NOT_A_KEYWORD, ⟨38, 39⟩), (.eq, ⟨40, 41⟩), (.integer c!"1", ⟨42, 43⟩)]
    rfl rfl sampleUpdate_spells sampleUpdate_grouped ((C37_written_iff true _ _ (by decide)).2
      ⟨⟨c!"UPDATE t SET b = 1, s.a = a + 2 WHERE a = 1", 43, []⟩, by decide +kernel⟩) rfl

theorem sampleDelete_grouped : ∀ x ∈ sampleDelete.exprs, x.Grouped := by
  simp [sampleDelete, Change.exprs, Source.exprs, Clash.exprs, Tables.exprs, Expr.Grouped, Expr.leftEdge, Expr.rightEdge]

/-- `C63_reads` is not vacuous: the change is read back. -/
example : ∃ v, Api.one.Returns true c!"DELETE QUICK FROM t USING t JOIN u ON a = 1 WHERE b = 2"
    (Issues.new []) {} (some v) [] ∧ MeansChange sampleDelete v.ast :=
  C63_reads true (Issues.new []) {} _ sampleDelete _ [
      (.ident c!"DELETE" .DELETE, ⟨0, 6⟩), (.ident c!"QUICK" .QUICK, ⟨7, 12⟩), (.ident c!"FROM" .FROM, ⟨13, 17⟩),
      (.ident c!"t" .NOT_A_KEYWORD, ⟨18, 19⟩), (.ident c!"USING" .USING, ⟨20, 25⟩), (.ident c!"t" .NOT_A_KEYWORD, ⟨26, 27⟩),
      (.ident c!"JOIN" .JOIN, ⟨28, 32⟩), (.ident c!"u" .NOT_A_KEYWORD, ⟨33, 34⟩), (.ident c!"ON" .ON, ⟨35, 37⟩),
      (.ident c!"a" .NOT_A_KEYWORD, ⟨38, 39⟩), (.eq, ⟨40, 41⟩), (.integer c!"1", ⟨42, 43⟩), (.ident c!"WHERE" .WHERE, ⟨44, 49⟩),
      (.ident c!"b" .NOT_A_KEYWORD, ⟨50, 51⟩), (.eq, ⟨52, 53⟩), (.integer c!"2", ⟨54, 55⟩)]
    rfl rfl sampleDelete_spells sampleDelete_grouped ((C37_written_iff true _ _ (by decide)).2
      ⟨⟨c!"DELETE QUICK FROM t USING t JOIN u ON a = 1 WHERE b = 2", 55, []⟩, by decide +kernel⟩) rfl

/-- `C63_every` is not vacuous: the changes can be written. -/
example : sampleInsert.Sayable {} ∧ sampleUpdate.Sayable {} ∧ sampleDelete.Sayable {} := by
  have p : ∀ v : List Char, (∀ c ∈ v, isWord c = true ∨ c = '-') → SayablePart {} v := fun v h => .inr ⟨by decide, h⟩
  have hs := p c!"s" (by decide)
  have ht := p c!"t" (by decide)
  have ha := p c!"a" (by decide)
  have hb := p c!"b" (by decide)
  have hu := p c!"u" (by decide)
  have na : SayableName {} c!"a" := .inr ⟨by decide, by decide⟩
  have nb : SayableName {} c!"b" := .inr ⟨by decide, by decide⟩
  refine ⟨⟨⟨by decide, by decide, by simp, ⟨by simpa using hs, ht⟩, by simpa using ⟨ha, hb⟩, ⟨by simp, by simp⟩, ⟨rfl, by simp, by simpa using hb⟩, ⟨by simp, by simp⟩, by simp, by simp⟩, ?_⟩,
    ⟨⟨by simp, ⟨by simp, ?_⟩, ⟨by simp, ?_⟩, ⟨by simp, by simp⟩, by simp⟩, ?_⟩, ⟨⟨by decide, ⟨by simp, ?_⟩, ?_, ⟨by simp, by simp⟩⟩, ?_⟩⟩
  · simp [sampleInsert, Change.exprs, Source.exprs, Clash.exprs, Expr.Sayable]
    exact na
  · simp [Tables.Sayable, SayableTable, ht]
  · simp [SayableTarget, hb, hs, ha]
  · simp [sampleUpdate, Change.exprs, Tables.exprs, Expr.Sayable, na]
  · simp [SayableTarget, ht]
  · simp [Tables.Sayable, SayableTable, ht, hu]
    refine ⟨⟨[.JOIN], by decide⟩, ?_⟩
    intro a i j b e
    cases a <;> simp at e
  · simp [sampleDelete, Change.exprs, Tables.exprs, Expr.Sayable, na, nb]
end SqlParse
