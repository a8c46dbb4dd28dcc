import Verif.Proofs.Views
import Verif.Theorems.Alterations
import Verif.Theorems.QueriesExamples
/-! C66: CREATE VIEW statements are read back as they were written. -/
namespace SqlParse
variable {o : Opts} {chk : Bool}

/-- **C66** (reading): if the tokens of a source create a view, and in none of the expressions of its query parentheses are missing, then the source
is parsed without issues, and the AST of the returned CREATE VIEW stands for the view. -/
theorem C66_reads (chk : Bool) (iss : Issues) (opts : Opts) (src : List Char) (d : ViewDef) (toks : List Token) (ts : List Tk)
    (hu : opts.warnUnquoted = false) (hc : opts.warnCaps = false) (hd : SpellsView opts d toks) (hg : ∀ x ∈ d.query.exprs, x.Grouped)
    (hw : Written chk 0 src ts) (hts : ts.map (·.1) = toks) :
    ∃ v, Api.one.Returns chk src iss opts (some v) iss.issues ∧ MeansView d v.ast := by
  have ho : opts = (Env.start opts noData noArgs ts).opts := by
    cases opts; dsimp only at hu hc; subst hu; subst hc; rfl
  rw [ho] at hd
  obtain ⟨a, m, g⟩ := view_reads hd hg ts hts
  exact ⟨⟨a⟩, C38_statement chk src iss opts _ hu hc (isStatement_written (args := noArgs) hw (g _)), m⟩

/-- **C66** (determined): an AST stands for only one view, except for parentheses in its expressions. -/
theorem C66_determined (d d' : ViewDef) (a : Ast) (h : MeansView d a) (h' : MeansView d' a) : d.mapE Expr.bare = d'.mapE Expr.bare := by
  cases h with
  | mk hc hi hn hq =>
    cases h' with
    | mk hc' hi' hn' hq' =>
      simp only [ViewDef.mapE, ViewDef.mk.injEq]
      exact ⟨map_same (listOf_unique word_unique hc hc'), flag_unique hi hi', target_unique _ _ _ hn hn', C61_determined _ _ _ hq hq'⟩

/-- The view with the expressions of its query in parentheses can be written. -/
theorem can_view (d : ViewDef) (h : d.Sayable o) : CanSay chk (SpellsView o (d.mapE fun x => .paren x.full)) := by
  obtain ⟨cr, i, n, q⟩ := d
  obtain ⟨h1, h2, h3⟩ := h
  dsimp only at h1 h2 h3
  obtain ⟨w1, hw1⟩ := createWords_said .CREATE (by decide +kernel) chk
  obtain ⟨w2, hw2⟩ := disposalWords_said .VIEW (by decide +kernel) chk
  obtain ⟨w3, hw3⟩ := kwSaid c!"AS" (k := .AS) (by simp) rfl (by decide) (by decide +kernel) chk
  obtain ⟨a1, b1, c1⟩ := can_row (chk := chk) (R := SpellsCreate) cr fun K hK => can_create K (h1 K hK)
  obtain ⟨a2, b2, c2⟩ := can_ifNot (chk := chk) i
  obtain ⟨a3, b3, c3⟩ := can_spelledTarget (chk := chk) n h2
  obtain ⟨a4, b4, c4⟩ := can_mapped (chk := chk) (f := fun x => .paren x.full) q h3
    (fun x hx => sayable_said (chk := chk) (.paren x.full) (by rw [Expr.Sayable]; exact full_sayable x (h3.exprs x hx)))
    (fun x ts h => by cases h; exact ⟨_, _, rfl, by decide +kernel⟩)
  refine ⟨(.ident w1 .CREATE, w1) :: (a1 ++ (.ident w2 .VIEW, w2) :: (a2 ++ (a3 ++ (.ident w3 .AS, w3) :: a4))), ?_, ?_⟩
  · simp only [List.forall_mem_cons, List.forall_mem_append]
    exact ⟨hw1, b1, hw2, b2, b3, hw3, b4⟩
  · simp only [List.map_cons, List.map_append]
    exact .mk (kwTok_is _ _) c1 (kwTok_is _ _) c2 c3 (kwTok_is _ _) c4

/-- **C66** (writing): for every view that can be written there is a source that is parsed without issues, and the AST of the returned CREATE VIEW
stands for the view; by `C66_determined` for no other one, except for parentheses. -/
theorem C66_every (chk : Bool) (opts : Opts) (hu : opts.warnUnquoted = false) (hc : opts.warnCaps = false) (d : ViewDef) (hd : d.Sayable opts) :
    ∃ src, ∀ iss, ∃ v, Api.one.Returns chk src iss opts (some v) iss.issues ∧ MeansView d v.ast := by
  obtain ⟨ws, h1, h2⟩ := can_view (chk := chk) d hd
  obtain ⟨ts, k1, k2⟩ := written_blanks ws h1 0
  refine ⟨blanks ws, fun iss => ?_⟩
  obtain ⟨v, g1, g2⟩ := C66_reads chk iss opts _ _ _ ts hu hc h2 (by
    show ∀ x ∈ (d.query.mapE fun x => .paren x.full).exprs, x.Grouped
    rw [mapE_exprs]
    intro x hx
    obtain ⟨x, _, rfl⟩ := List.mem_map.1 hx
    rw [Expr.Grouped]; exact full_grouped x) k2 k1
  refine ⟨v, g1, ?_⟩
  revert g2
  generalize v.ast = a
  intro g2
  cases g2 with | mk k1 k2 k3 k4 => exact .mk k1 k2 k3 (means_mapE (fun x a h => means_full x (means_paren h)) _ k4)

/-- **C66** (no ambiguity): if the tokens of a source create two views, and in the expressions of both no parentheses are missing, then these
are the same, except for parentheses. -/
theorem C66_unambiguous (chk : Bool) (opts : Opts) (src : List Char) (d d' : ViewDef) (toks : List Token) (ts : List Tk)
    (hu : opts.warnUnquoted = false) (hc : opts.warnCaps = false) (hd : SpellsView opts d toks) (hg : ∀ x ∈ d.query.exprs, x.Grouped)
    (hd' : SpellsView opts d' toks) (hg' : ∀ x ∈ d'.query.exprs, x.Grouped) (hw : Written chk 0 src ts) (hts : ts.map (·.1) = toks) :
    d.mapE Expr.bare = d'.mapE Expr.bare := by
  obtain ⟨v, h1, h2⟩ := C66_reads chk (Issues.new src) opts src d toks ts hu hc hd hg hw hts
  obtain ⟨v', h1', h2'⟩ := C66_reads chk (Issues.new src) opts src d' toks ts hu hc hd' hg' hw hts
  have : v = v' := Option.some.inj (returns_unique .one h1 h1').1
  subst this
  exact C66_determined _ _ _ h2 h2'

/-! ### Examples -/

/-- `CREATE OR REPLACE VIEW IF NOT EXISTS d.w AS SELECT DISTINCT a AS n FROM s.t JOIN u v ON a = 1 WHERE a GROUP BY a HAVING a ORDER BY a DESC LIMIT 2, 3` -/
def sampleView : ViewDef := ⟨[.CreateOption_OrReplace], true, ([c!"d"], c!"w"), sampleQuery⟩

theorem sampleView_spells : SpellsView {} sampleView ([.ident c!"CREATE" .CREATE, .ident c!"OR" .OR, .ident c!"REPLACE" .REPLACE, .ident c!"VIEW" .VIEW, .ident c!"IF" .IF, .ident c!"NOT" .NOT,
    .ident c!"EXISTS" .EXISTS, .ident c!"d" .NOT_A_KEYWORD, .period, .ident c!"w" .NOT_A_KEYWORD, .ident c!"AS" .AS] ++ sampleQueryToks) :=
  .mk (xs := [.ident c!"OR" .OR, .ident c!"REPLACE" .REPLACE]) (is := [.ident c!"IF" .IF, .ident c!"NOT" .NOT, .ident c!"EXISTS" .EXISTS])
    (ns := [.ident c!"d" .NOT_A_KEYWORD, .period, .ident c!"w" .NOT_A_KEYWORD]) rfl
    (.cons (ts := [.ident c!"OR" .OR, .ident c!"REPLACE" .REPLACE]) (us := []) (.mk (ks := [.OR, .REPLACE]) (by simp [createPhrases]) (.cons rfl (.cons rfl .nil))) .nil) rfl
    (.yes (.cons rfl (.cons rfl (.cons rfl .nil)))) (.mk (.dot (sample_spelled _) (.last (sample_spelled _)))) rfl sampleQuery_spells

/-- `C66_reads` is not vacuous. -/
example : ∃ v, Api.one.Returns true c!"CREATE OR REPLACE VIEW IF NOT EXISTS d.w AS SELECT DISTINCT a AS n FROM s.t JOIN u v ON a = 1 WHERE a GROUP BY a HAVING a ORDER BY a DESC LIMIT 2, 3"
    (Issues.new []) {} (some v) [] ∧ MeansView sampleView v.ast :=
  C66_reads true (Issues.new []) {} _ sampleView _ [(.ident c!"CREATE" .CREATE, ⟨0, 6⟩), (.ident c!"OR" .OR, ⟨7, 9⟩), (.ident c!"REPLACE" .REPLACE, ⟨10, 17⟩), (.ident c!"VIEW" .VIEW, ⟨18, 22⟩),
      (.ident c!"IF" .IF, ⟨23, 25⟩), (.ident c!"NOT" .NOT, ⟨26, 29⟩), (.ident c!"EXISTS" .EXISTS, ⟨30, 36⟩), (.ident c!"d" .NOT_A_KEYWORD, ⟨37, 38⟩),
      (.period, ⟨38, 39⟩), (.ident c!"w" .NOT_A_KEYWORD, ⟨39, 40⟩), (.ident c!"AS" .AS, ⟨41, 43⟩), (.ident c!"SELECT" .SELECT, ⟨44, 50⟩),
      (.ident c!"DISTINCT" .DISTINCT, ⟨51, 59⟩), (.ident c!"a" .NOT_A_KEYWORD, ⟨60, 61⟩), (.ident c!"AS" .AS, ⟨62, 64⟩), (.ident c!"n" .NOT_A_KEYWORD, ⟨65, 66⟩),
      (.ident c!"FROM" .FROM, ⟨67, 71⟩), (.ident c!"s" .NOT_A_KEYWORD, ⟨72, 73⟩), (.period, ⟨73, 74⟩), (.ident c!"t" .NOT_A_KEYWORD, ⟨74, 75⟩),
      (.ident c!"JOIN" .JOIN, ⟨76, 80⟩), (.ident c!"u" .NOT_A_KEYWORD, ⟨81, 82⟩), (.ident c!"v" .NOT_A_KEYWORD, ⟨83, 84⟩), (.ident c!"ON" .ON, ⟨85, 87⟩),
      (.ident c!"a" .NOT_A_KEYWORD, ⟨88, 89⟩), (.eq, ⟨90, 91⟩), (.integer c!"1", ⟨92, 93⟩), (.ident c!"WHERE" .WHERE, ⟨94, 99⟩),
      (.ident c!"a" .NOT_A_KEYWORD, ⟨100, 101⟩), (.ident c!"GROUP" .GROUP, ⟨102, 107⟩), (.ident c!"BY" .BY, ⟨108, 110⟩), (.ident c!"a" .NOT_A_KEYWORD, ⟨111, 112⟩),
      (.ident c!"HAVING" .HAVING, ⟨113, 119⟩), (.ident c!"a" .NOT_A_KEYWORD, ⟨120, 121⟩), (.ident c!"ORDER" .ORDER, ⟨122, 127⟩), (.ident c!"BY" .BY, ⟨128, 130⟩),
      (.ident c!"a" .NOT_A_KEYWORD, ⟨131, 132⟩), (.ident c!"DESC" .DESC, ⟨133, 137⟩), (.ident c!"LIMIT" .LIMIT, ⟨138, 143⟩), (.integer c!"2", ⟨144, 145⟩),
      (.comma, ⟨145, 146⟩), (.integer c!"3", ⟨147, 148⟩)]
    rfl rfl sampleView_spells sampleQuery_grouped ((C37_written_iff true _ _ (by decide)).2
      ⟨⟨c!"CREATE OR REPLACE VIEW IF NOT EXISTS d.w AS SELECT DISTINCT a AS n FROM s.t JOIN u v ON a = 1 WHERE a GROUP BY a HAVING a ORDER BY a DESC LIMIT 2, 3", 148, []⟩, by decide +kernel⟩) rfl

/-- `C66_every` is not vacuous. -/
example : ∃ src, ∀ iss, ∃ v, Api.one.Returns true src iss {} (some v) iss.issues ∧ MeansView sampleView v.ast := by
  have p : ∀ v : List Char, (∀ c ∈ v, isWord c = true ∨ c = '-') → SayablePart {} v := fun v h => .inr ⟨by decide, h⟩
  exact C66_every true {} rfl rfl sampleView
    ⟨by decide, ⟨by simp [sampleView, p c!"d" (by decide)], p _ (by decide)⟩, sampleQuery_sayable⟩

end SqlParse
