import Verif.Proofs.SoundDml
/-! The converse direction of the grammar: ALTER TABLE. -/
namespace SqlParse
set_option linter.unusedSectionVars false

section
variable {α β σ : Type} {n : Nat} [CallsS n] {c : Env} {ts r tl : List Tk} {Q : β → List Tk → Prop} {t : Token} {sp : Span}

theorem dataType_d : D n c dataType ts (DT c false ts) := parseDataType_d

theorem idxType_of {K : Kind} {t t' : Token} {s s' : Span} (h : t.isKw .USING = true) (h' : indexTypeTable.lookup t'.kw = some K) :
    IdxType ((t, s) :: (t', s') :: r) (Ast.node K [.span s']) r := .mk h h'

theorem indexType_d : D n c indexType ts (IdxType ts) := by
  unfold indexType
  dw
  all_goals dcase [KwN]
  all_goals leaf [idxType_of]

/-- One option of an index. -/
inductive IdxOpt1 : List Tk → Option Ast → List Tk → Prop where
  | none {r : List Tk} (h : NoKw [.USING, .COMMENT] r) : IdxOpt1 r none r
  | using {ts r : List Tk} {a : Ast} (h : IdxType ts a r) : IdxOpt1 ts (some a) r
  | comment {t : Token} {s : Span} {ts r : List Tk} {a : Ast} (h : t.isKw .COMMENT = true) (ha : Str ts a r) :
     IdxOpt1 ((t, s) :: ts) (some (nd% IndexOption_Comment [a])) r

theorem indexOption_d : D n c indexOption ts (IdxOpt1 ts) := by
  unfold indexOption
  dw
  all_goals leaf

theorem idxOpts_of {l : List Ast} (h : Many IdxOpt1 ts l r) : IdxOpts ts l r := by
  induction h with
  | nil h => cases h; exact .nil (by assumption)
  | cons h _ ih =>
    cases h with
    | «using» h => exact .using h ih
    | comment h ha => exact .comment h ha ih

theorem indexSize_d : D n c indexSize ts (fun x r => ∃ rp, Num (2 ^ 32 - 1) ts x ((.rParen, rp) :: r)) := by
  unfold indexSize
  dw
  all_goals leaf

theorem indexCol_d : D n c indexCol ts (IdxCol c ts) := by
  unfold indexCol
  dw
  all_goals leaf

theorem indexCols_d : D n c indexCols ts (Paren (IdxCol c) ts) := by
  unfold indexCols
  dw
  all_goals leaf

theorem parseCols_d : D n c parseCols ts (Paren (Idn c) ts) := by
  unfold parseCols
  dw
  all_goals leaf

theorem kws3 {k k1 k2 : Keyword} {s s' : Span} (h : t.isKw k = true) (h' : Kws [k1, k2] ts s' r) :
    Kws [k, k1, k2] ((t, s) :: ts) (joinSpan s' s) r := by
  rw [joinSpan_comm]
  exact .cons h h'

theorem ifNotExists_d : D n c ifNotExists ts (OptKws .IF [.NOT, .EXISTS] ts) := by
  unfold ifNotExists
  dw
  all_goals leaf [kws3]

theorem optName_d : D n c optName ts (OptName c ts) := by
  unfold optName
  dw
  · next h _ _ _ =>
    obtain ⟨v, k, rfl, -⟩ := isPlainWord_elim h
    exact .some (by assumption)
  · leaf

theorem constraintOpt_d : D n c constraintOpt ts (Constr c ts) := by
  refine optKw_d fun sp ts => ?_
  dw
  all_goals leaf

theorem fkOnType_d {on : Span} : D n c (fkOnType on) ts (FkType on ts) := by
  unfold fkOnType
  dw
  all_goals rw [joinSpan_comm]
  all_goals leaf

theorem fkOnAction_d : D n c fkOnAction ts (FkAction ts) := by
  unfold fkOnAction
  dw
  all_goals first | leaf [kws2] | skip
  next h1 h2 =>
  exact absurd ((kw_of_isKw h1).symm.trans (kw_of_isKw h2)) (by decide)

theorem foreignKeyOn_d : D n c foreignKeyOn ts (OptKw .ON (fun s ts a r => ∃ y b r1, FkType s ts y r1 ∧ FkAction r1 b r ∧ a = nd% ForeignKeyOn [y, b]) ts) := by
  refine optKw_d fun sp ts => ?_
  dw
  all_goals leaf

theorem fkOns_of {l : List Ast} (h : Many (OptKw .ON (fun s ts a r => ∃ y b r1, FkType s ts y r1 ∧ FkAction r1 b r ∧ a = nd% ForeignKeyOn [y, b])) ts l r) :
    FkOns ts l r := by
  induction h with
  | nil h => cases h; exact .nil (by assumption)
  | cons h _ ih =>
    cases h with
    | some h hr =>
      obtain ⟨y, b, r1, h1, h2, rfl⟩ := hr
      exact .cons h h1 h2 ih

theorem specialIndex_d {k : Keyword} (hk : k ∈ [Keyword.FULLTEXT, .SPATIAL, .UNIQUE]) : D n c (specialIndex k) ts (AddIdxType ts) := by
  unfold specialIndex
  dw
  next h _ _ _ h1 h2 =>
  rcases (by simpa using h1 : _ ∨ _) with h' | h'
  · exact .special (k' := .INDEX) hk (by decide) (kws2 h h')
  · exact .special (k' := .KEY) hk (by decide) (kws2 h h')

theorem addIndexType_d : D n c addIndexType ts (AddIdxType ts) := by
  unfold addIndexType
  dw
  · leaf
  · next h _ =>
    rcases (by simpa using h : _ ∨ _) with h' | h'
    · exact .index (.one h')
    · exact .key (.one h')
  all_goals exact specialIndex_d (by decide)

theorem addColumnIfNotExists_d : D n c addColumnIfNotExists ts (fun x r => OptKws .IF [.NOT, .EXISTS] ts x r ∧ (c.opts.dialect = .mariaDB → x = none)) := by
  unfold addColumnIfNotExists
  dw
  all_goals leaf

theorem addAlter_d : D n c addAlter ts (AltSpec c ts) := by
  unfold addAlter addForeignKey addIndex addColumn
  dw
  all_goals leaf [idxOpts_of, fkOns_of]

theorem alterModify_d : D n c alterModify ts (AltSpec c ts) := by
  unfold alterModify
  dw
  all_goals dcase [OptK]
  all_goals leaf

theorem alterColumnSet_d (h : t.isKw .SET = true) : D n c alterColumnSet ((t, sp) :: tl) (ColAction c ((t, sp) :: tl)) := by
  unfold alterColumnSet
  dw
  all_goals leaf [kws2]

theorem alterColumnDrop_d (h : t.isKw .DROP = true) : D n c alterColumnDrop ((t, sp) :: tl) (ColAction c ((t, sp) :: tl)) := by
  unfold alterColumnDrop
  dw
  all_goals leaf [kws2]

theorem alterColumn_d : D n c alterColumn ts (AltSpec c ts) := by
  unfold alterColumn
  dw
  all_goals leaf

theorem alterSpecification_d : D n c alterSpecification ts (AltSpec c ts) := by
  unfold alterSpecification
  dw
  all_goals leaf

theorem parseAlter_d : D n c parseAlter ts (Alt c ts) := by
  unfold parseAlter alterTable
  dw
  refine d_bind (parenItems_d fun _ => alterSpecification_d) fun l r hl => d_pure ?_
  refine .mk (by assumption) (by assumption) (by assumption) (by assumption) (by assumption) (by assumption) hl.1 ?_
  have := hl.2
  simpa using this

end
end SqlParse
