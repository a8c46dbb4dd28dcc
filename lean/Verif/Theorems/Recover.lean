import Verif.Proofs.Recover
import Verif.Theorems.GrammarExamples
/-! C58: mistakes in lists. -/
namespace SqlParse

/-- **C58**: a CREATE TABLE with mistakes in its definitions or options, or an INSERT with mistakes in its columns or rows, is parsed: every mistake is reported, once,
in order, at the token where it is, and nothing else is reported; the statement has everything that is right.  Tokens after a statement are one mistake more, and
so is a source that does not begin with a statement. -/
theorem C58_mistakes (chk : Bool) (src : List Char) (old : List Issue) (opts : Opts) (v : Option SAst) (x : List Mistake)
    (hu : opts.warnUnquoted = false) (hc : opts.warnCaps = false) (h : IsStatementE chk opts src v x) :
    ∃ new, Api.one.Returns chk src ⟨src, old⟩ opts v (old ++ new) ∧ Reports1 x new := by
  obtain ⟨args, ts, hw, h⟩ := h
  obtain ⟨s, h1, h2⟩ := start_at (args := args) (iss := ⟨src, old⟩) hw hu hc
  obtain ⟨hb, hl, hi, -⟩ := new_binv h1
  obtain ⟨r, h⟩ := pi_single (fun p => after_of _ rfl) h
  obtain ⟨s', y, h3, h4, h5⟩ := h old s ⟨h2, hb, by rw [hl, hi]⟩
  refine ⟨y, ?_, h5⟩
  rw [← h4.issues]
  exact returns_one h1 h3

/-- **C58**, with the warnings about style switched on or off: those come in addition. -/
theorem C58_mistakes_style (chk : Bool) (src : List Char) (old : List Issue) (opts : Opts) (v : Option SAst) (x : List Mistake) (h : IsStatementE chk opts src v x) :
    ∃ new all, Reports1 x new ∧ PlusSome (Issue.isStyle opts.warnUnquoted opts.warnCaps) new all ∧
      Api.one.Returns chk src ⟨src, old⟩ opts v (old ++ all) := by
  obtain ⟨new, h1, h2⟩ := C58_mistakes chk src old (opts.withWarnings false false) v x rfl rfl h
  obtain ⟨x', y, k1, k2, k3⟩ := C14_style .one chk src old opts opts.warnUnquoted opts.warnCaps _ _ h1
  have hx : x' = new := (List.append_cancel_left k1).symm
  subst hx
  rw [with_self] at k3
  exact ⟨x', y, h2, k2, k3⟩

/-- **C58** for scripts: the statements of a script are parsed with all that is right in them, whatever mistakes there are in others; every mistake is reported, once,
in order, at the token where it is, and nothing else is reported.  A missing delimiter, tokens between a statement and the delimiter, and something that is not a statement
are mistakes too. -/
theorem C58_script (chk : Bool) (src : List Char) (old : List Issue) (opts : Opts) (l : List SAst) (x : List Mistake)
    (hu : opts.warnUnquoted = false) (hc : opts.warnCaps = false) (h : IsScriptE chk opts src l x) :
    ∃ new, Api.many.Returns chk src ⟨src, old⟩ opts l (old ++ new) ∧ Reports1 x new := by
  obtain ⟨args, ts, hw, h⟩ := h
  obtain ⟨s, h1, h2⟩ := start_at (args := args) (iss := ⟨src, old⟩) hw hu hc
  obtain ⟨hb, hl, hi, -⟩ := new_binv h1
  obtain ⟨s', y, h3, h4, h5⟩ := (scrE_goes h (fun p => after_of _ rfl) (.inl rfl) old s ⟨h2, hb, by rw [hl, hi]⟩).loop []
  refine ⟨y, ?_, h5⟩
  rw [← h4]
  exact returns_many h1 h3

/-- **C58** for scripts, with the warnings about style switched on or off: those come in addition. -/
theorem C58_script_style (chk : Bool) (src : List Char) (old : List Issue) (opts : Opts) (l : List SAst) (x : List Mistake) (h : IsScriptE chk opts src l x) :
    ∃ new all, Reports1 x new ∧ PlusSome (Issue.isStyle opts.warnUnquoted opts.warnCaps) new all ∧
      Api.many.Returns chk src ⟨src, old⟩ opts l (old ++ all) := by
  obtain ⟨new, h1, h2⟩ := C58_script chk src old (opts.withWarnings false false) l x rfl rfl h
  obtain ⟨x', y, k1, k2, k3⟩ := C14_style .many chk src old opts opts.warnUnquoted opts.warnCaps _ _ h1
  have hx : x' = new := (List.append_cancel_left k1).symm
  subst hx
  rw [with_self] at k3
  exact ⟨x', y, h2, k2, k3⟩

/-- A table with four mistakes. -/
def badSrc : List Char := c!"CREATE TABLE t (a INT, 5 (x, y) z, b ON, c INT foo [1, 2], d DATE) STRICT + 1"

/-- Its tokens. -/
def badToks : List Tk := [(.ident c!"CREATE" .CREATE, ⟨0, 6⟩), (.ident c!"TABLE" .TABLE, ⟨7, 12⟩), (.ident c!"t" .NOT_A_KEYWORD, ⟨13, 14⟩), (.lParen, ⟨15, 16⟩),
  (.ident c!"a" .NOT_A_KEYWORD, ⟨16, 17⟩), (.ident c!"INT" .INT, ⟨18, 21⟩), (.comma, ⟨21, 22⟩),
  (.integer c!"5", ⟨23, 24⟩), (.lParen, ⟨25, 26⟩), (.ident c!"x" .NOT_A_KEYWORD, ⟨26, 27⟩), (.comma, ⟨27, 28⟩), (.ident c!"y" .NOT_A_KEYWORD, ⟨29, 30⟩), (.rParen, ⟨30, 31⟩),
  (.ident c!"z" .NOT_A_KEYWORD, ⟨32, 33⟩), (.comma, ⟨33, 34⟩),
  (.ident c!"b" .NOT_A_KEYWORD, ⟨35, 36⟩), (.ident c!"ON" .ON, ⟨37, 39⟩), (.comma, ⟨39, 40⟩),
  (.ident c!"c" .NOT_A_KEYWORD, ⟨41, 42⟩), (.ident c!"INT" .INT, ⟨43, 46⟩), (.ident c!"foo" .NOT_A_KEYWORD, ⟨47, 50⟩), (.lBracket, ⟨51, 52⟩), (.integer c!"1", ⟨52, 53⟩),
  (.comma, ⟨53, 54⟩), (.integer c!"2", ⟨55, 56⟩), (.rBracket, ⟨56, 57⟩), (.comma, ⟨57, 58⟩),
  (.ident c!"d" .NOT_A_KEYWORD, ⟨59, 60⟩), (.ident c!"DATE" .DATE, ⟨61, 65⟩), (.rParen, ⟨65, 66⟩),
  (.ident c!"STRICT" .STRICT, ⟨67, 73⟩), (.plus, ⟨74, 75⟩), (.integer c!"1", ⟨76, 77⟩), (.eof, ⟨77, 77⟩)]

theorem bad_laid : Laid true noData 0 badSrc badToks :=
  laid_test (lx := Lexer.new badSrc) ⟨[], rfl, rfl⟩ (by decide +kernel)

/-- What can be skipped in it. -/
macro "sk%" : term => `(⟨by decide, by decide, by decide⟩)

theorem bad_defs : ∃ l x rp r, ListE (DefnE (Env.start {} noData allArgs badToks)) (badToks.drop 4) l x ((.rParen, rp) :: r) ∧ r = badToks.drop 30 ∧
    x = [(.expected "identifier", ⟨23, 24⟩), (.expected "type", ⟨37, 39⟩), (.expected "')' or ','", ⟨47, 50⟩)] ∧ l.length = 3 :=
  ⟨_, _, _, _, .cons (DefnE.right (.column idn (.mk (.width tk% (.none tk%)) (.nil tk% tk% (.inr tk%)))) tk%)
    (.cons (DefnE.noName (junk := (badToks.drop 7).take 7)
        (.tok sk% rfl rfl (.group (ts := (badToks.drop 9).take 3) .paren sk% sk% rfl (.tok sk% rfl rfl (.tok sk% rfl rfl (.tok sk% rfl rfl .nil))) (.tok sk% rfl rfl .nil))) tk% rfl (fun _ _ h => by cases h))
    (.cons (DefnE.noType (junk := (badToks.drop 16).take 1) idn (.tok sk% rfl rfl .nil) tk% rfl (fun _ _ h => by cases h; decide))
    (.cons (DefnE.extra (junk := (badToks.drop 21).take 5) (.column idn (.mk (.width tk% (.none tk%)) (.nil tk% tk% (.inr tk%))))
        (.tok sk% rfl rfl (.group (ts := (badToks.drop 22).take 3) .bracket sk% sk% rfl (.tok sk% rfl rfl (.tok sk% rfl rfl (.tok sk% rfl rfl .nil))) .nil)) tk%)
    (.one (DefnE.right (.column idn (.mk (.plain tk%) (.nil tk% tk% (.inr tk%)))) tk%))))), rfl, rfl, rfl⟩

/-- Non-vacuity of C58: the mistakes, the definitions of `a`, `c` and `d`, and the option. -/
example : ∃ v, IsStatementE true {} badSrc (some v) [(.expected "identifier", ⟨23, 24⟩), (.expected "type", ⟨37, 39⟩), (.expected "')' or ','", ⟨47, 50⟩),
    (.expected "table option or delimiter", ⟨74, 75⟩)] := by
  obtain ⟨l, x, rp, r, h, rfl, rfl, -⟩ := bad_defs
  exact ⟨_, allArgs, badToks, bad_laid, .stmt (.wrong (.table (.mk (t := .ident c!"CREATE" .CREATE) (t' := .ident c!"TABLE" .TABLE) tk% (.nil ⟨.TABLE, by decide, rfl⟩) tk% (.none tk%)
    (.mk (.last idn tk%)) tk% h (.extra (junk := (badToks.drop 32).take 1) (.cons (.strict tk%) .nil) (by decide) (.tok sk% rfl rfl (.tok sk% rfl rfl .nil)) tk%))))⟩

/-- Rows with mistakes. -/
def badRowsSrc : List Char := c!"INSERT INTO t (a, 5, b) VALUES (1, 2), (3 :, 4), (5, , 6), ()"

/-- Its tokens. -/
def badRowsToks : List Tk := [(.ident c!"INSERT" .INSERT, ⟨0, 6⟩), (.ident c!"INTO" .INTO, ⟨7, 11⟩), (.ident c!"t" .NOT_A_KEYWORD, ⟨12, 13⟩), (.lParen, ⟨14, 15⟩),
  (.ident c!"a" .NOT_A_KEYWORD, ⟨15, 16⟩), (.comma, ⟨16, 17⟩), (.integer c!"5", ⟨18, 19⟩), (.comma, ⟨19, 20⟩), (.ident c!"b" .NOT_A_KEYWORD, ⟨21, 22⟩), (.rParen, ⟨22, 23⟩),
  (.ident c!"VALUES" .VALUES, ⟨24, 30⟩),
  (.lParen, ⟨31, 32⟩), (.integer c!"1", ⟨32, 33⟩), (.comma, ⟨33, 34⟩), (.integer c!"2", ⟨35, 36⟩), (.rParen, ⟨36, 37⟩), (.comma, ⟨37, 38⟩),
  (.lParen, ⟨39, 40⟩), (.integer c!"3", ⟨40, 41⟩), (.colon, ⟨42, 43⟩), (.comma, ⟨43, 44⟩), (.integer c!"4", ⟨45, 46⟩), (.rParen, ⟨46, 47⟩), (.comma, ⟨47, 48⟩),
  (.lParen, ⟨49, 50⟩), (.integer c!"5", ⟨50, 51⟩), (.comma, ⟨51, 52⟩), (.comma, ⟨53, 54⟩), (.integer c!"6", ⟨55, 56⟩), (.rParen, ⟨56, 57⟩), (.comma, ⟨57, 58⟩),
  (.lParen, ⟨59, 60⟩), (.rParen, ⟨60, 61⟩), (.eof, ⟨61, 61⟩)]

theorem badRows_laid : Laid true noData 0 badRowsSrc badRowsToks :=
  laid_test (lx := Lexer.new badRowsSrc) ⟨[], rfl, rfl⟩ (by decide +kernel)

/-- Non-vacuity of C58: the columns `a`, the rows `(1, 2)`, `(3)`, `(5)`, `()`. -/
example : ∃ v, IsStatementE true {} badRowsSrc (some v) [(.expected "identifier", ⟨18, 19⟩), (.expected ")", ⟨42, 43⟩), (.plain "Expected expression", ⟨53, 54⟩),
    (.plain "Expected expression", ⟨60, 61⟩)] := by
  have h : ∃ rows x, RowsE (Env.start {} noData allArgs badRowsToks) (badRowsToks.drop 11) rows x [(.eof, ⟨61, 61⟩)] ∧
      x = [(.expected ")", ⟨42, 43⟩), (.plain "Expected expression", ⟨53, 54⟩), (.plain "Expected expression", ⟨60, 61⟩)] :=
    ⟨_, _, .cons (.right (.mk (.cons (ex_opd (od_num tk%) tk%) (.one (ex_opd (od_num tk%) tk%) tk%))))
      (.cons (.extra (junk := (badRowsToks.drop 20).take 2) (.one (ex_opd (od_num tk%) tk%) tk%) (.tok sk% rfl rfl (.tok sk% rfl rfl (.tok sk% rfl rfl .nil))))
      (.cons (.missing (junk := (badRowsToks.drop 27).take 2) (.cons (ex_opd (od_num tk%) tk%) .nil) (.tok sk% rfl rfl (.tok sk% rfl rfl .nil)) rfl (.inl rfl))
      (.one (.missing (junk := []) .nil .nil rfl (.inr rfl)) tk%))), rfl⟩
  obtain ⟨rows, x, h, rfl⟩ := h
  exact ⟨_, allArgs, badRowsToks, badRows_laid, .stmt (.wrong (.insert (.mk (t := .ident c!"INSERT" .INSERT) (t' := .ident c!"VALUES" .VALUES) (K := .InsertReplaceType_Insert) rfl (.nil tk%)
    (by intro h; exact absurd h (by decide)) (.some tk%) (.mk (.last idn tk%))
    (.some (.missing (junk := (badRowsToks.drop 6).take 3) (.cons idn .nil) (.tok sk% rfl rfl (.tok sk% rfl rfl (.tok sk% rfl rfl .nil))) rfl ⟨fun _ _ h => (by cases h), fun _ h => (by cases h)⟩))
    (.inr rfl) h (.none tk%) (.none tk%))))⟩

/-- A script with mistakes: tokens after a statement, no statement, a value missing, the last delimiter missing. -/
def badScriptSrc : List Char := c!"DROP TABLE a b; 5 6; INSERT INTO t VALUES (1, ); DROP TABLE c"

/-- Its tokens. -/
def badScriptToks : List Tk := [(.ident c!"DROP" .DROP, ⟨0, 4⟩), (.ident c!"TABLE" .TABLE, ⟨5, 10⟩), (.ident c!"a" .NOT_A_KEYWORD, ⟨11, 12⟩),
  (.ident c!"b" .NOT_A_KEYWORD, ⟨13, 14⟩), (.semiColon, ⟨14, 15⟩), (.integer c!"5", ⟨16, 17⟩), (.integer c!"6", ⟨18, 19⟩), (.semiColon, ⟨19, 20⟩),
  (.ident c!"INSERT" .INSERT, ⟨21, 27⟩), (.ident c!"INTO" .INTO, ⟨28, 32⟩), (.ident c!"t" .NOT_A_KEYWORD, ⟨33, 34⟩), (.ident c!"VALUES" .VALUES, ⟨35, 41⟩),
  (.lParen, ⟨42, 43⟩), (.integer c!"1", ⟨43, 44⟩), (.comma, ⟨44, 45⟩), (.rParen, ⟨46, 47⟩), (.semiColon, ⟨47, 48⟩),
  (.ident c!"DROP" .DROP, ⟨49, 53⟩), (.ident c!"TABLE" .TABLE, ⟨54, 59⟩), (.ident c!"c" .NOT_A_KEYWORD, ⟨60, 61⟩), (.eof, ⟨61, 61⟩)]

theorem badScript_laid : Laid true noData 0 badScriptSrc badScriptToks :=
  laid_test (lx := Lexer.new badScriptSrc) ⟨[], rfl, rfl⟩ (by decide +kernel)

/-- Non-vacuity of `C58_script`: three statements are kept, the four mistakes are reported. -/
example : ∃ u v w, IsScriptE true {} badScriptSrc [u, v, w] [(.expected (.tok .semiColon), ⟨13, 14⟩), (.expected "Statement", ⟨16, 17⟩),
    (.plain "Expected expression", ⟨46, 47⟩), (.expected (.tok .semiColon), ⟨61, 61⟩)] :=
  ⟨_, _, _, allArgs, badScriptToks, badScript_laid,
    .extra (x := []) (junk := [])
      (.right (.drop (.mk tk% (.none tk%) (.table tk% (.none tk%) (.one (.mk (.last idn tk%)) tk%) (by intro h; exact absurd h (by decide))))))
      (fun q hq => by cases hq with | head => exact sk% | tail _ h => cases h) rfl
    (.none (junk := (badScriptToks.drop 6).take 1) ⟨by decide, by decide, by decide⟩ (by decide)
      (fun q hq => by cases hq with | head => exact sk% | tail _ h => cases h with | head => exact sk% | tail _ h => cases h)
    (.stmt (x := [(.plain "Expected expression", ⟨46, 47⟩)]) (x' := [(.expected (.tok .semiColon), ⟨61, 61⟩)])
      (.wrong (.insert (.mk (t := .ident c!"INSERT" .INSERT) (t' := .ident c!"VALUES" .VALUES) (K := .InsertReplaceType_Insert) (x := []) rfl (.nil tk%)
        (by intro h; exact absurd h (by decide)) (.some tk%) (.mk (.last idn tk%)) (.none tk%) (.inr rfl)
        (.one (.missing (junk := []) (.cons (ex_opd (od_num tk%) tk%) .nil) .nil rfl (.inr rfl)) tk%) (.none tk%) (.none tk%)))) rfl
    (.last (x := []) (t := .eof) (junk := [])
      (.right (.drop (.mk tk% (.none tk%) (.table tk% (.none tk%) (.one (.mk (.last idn tk%)) tk%) (by intro h; exact absurd h (by decide))))))
      (fun q hq => by cases hq) rfl)))⟩

end SqlParse
