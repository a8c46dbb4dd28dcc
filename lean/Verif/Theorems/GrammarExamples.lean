import Verif.Theorems.Grammar
import Verif.Proofs.Laid
/-! Non-vacuity of C38: a query and a script that are sentences of the grammar, with their derivations. -/
namespace SqlParse

/-- Side conditions about single tokens. -/
macro "tk%" : term => `(by first | rfl | decide | exact ⟨by decide +kernel, by decide, by decide, by intro h; exact absurd h (by decide)⟩ | (show _ ∨ _; decide) |
  (show ∀ k ∈ _, Token.isKw _ k = false; decide) | (intro h; exact absurd h (by decide)))

theorem od_num {e : Env} {v : List Char} {sp : Span} {r : List Tk} (h : decVal v ≤ u64Max) :
    Od e ((.integer v, sp) :: r) (nd% Integer [(decVal v, sp)]) r := .integer (.mk h)

theorem od_col {e : Env} {v : List Char} {sp : Span} {r : List Tk} (h1 : Next (· ≠ .lParen) r) (h2 : Next (· ≠ .period) r) :
    Od e ((.ident v Keyword.NOT_A_KEYWORD, sp) :: r) (nd% Identifier [[Ast.ident v sp]]) r :=
  .name ⟨by decide +kernel, by decide, by decide, by simp [marker, Token.isKw]; intro h; exact absurd h (by decide)⟩ (by decide +kernel) h1 (.nil h2)

theorem idn {e : Env} {v : List Char} {sp : Span} {r : List Tk} :
    Idn e ((.ident v Keyword.NOT_A_KEYWORD, sp) :: r) (.ident v sp) r :=
  .word (by decide +kernel) (by intro h; exact absurd h (by decide)) (noArg_of (by simp [marker, Token.isKw]; intro h; exact absurd h (by decide)) _)

theorem ex_opd {e : Env} {b : Bool} {ts r : List Tk} {a : Ast} (h : Od e ts a r) (hs : Stops e b r) : Ex e b ts a r :=
  .mk (T := .leaf a) (.opd h (.stop hs)) trivial

/-- A query. -/
def querySrc : List Char :=
  c!"SELECT a.*, f(?) AS n FROM t JOIN u ON x = y + ? WHERE NOT z IN (1) ORDER BY a DESC LIMIT 2, 3"

/-- Its tokens. -/
def queryToks : List Tk := (.ident c!"SELECT" .SELECT, ⟨0, 6⟩) :: (.ident c!"a" .NOT_A_KEYWORD, ⟨7, 8⟩) :: (.period, ⟨8, 9⟩) ::
  (.mul, ⟨9, 10⟩) :: (.comma, ⟨10, 11⟩) :: (.ident c!"f" .NOT_A_KEYWORD, ⟨12, 13⟩) :: (.lParen, ⟨13, 14⟩) :: (.questionMark, ⟨14, 15⟩) ::
  (.rParen, ⟨15, 16⟩) :: (.ident c!"AS" .AS, ⟨17, 19⟩) :: (.ident c!"n" .NOT_A_KEYWORD, ⟨20, 21⟩) :: (.ident c!"FROM" .FROM, ⟨22, 26⟩) ::
  (.ident c!"t" .NOT_A_KEYWORD, ⟨27, 28⟩) :: (.ident c!"JOIN" .JOIN, ⟨29, 33⟩) :: (.ident c!"u" .NOT_A_KEYWORD, ⟨34, 35⟩) ::
  (.ident c!"ON" .ON, ⟨36, 38⟩) :: (.ident c!"x" .NOT_A_KEYWORD, ⟨39, 40⟩) :: (.eq, ⟨41, 42⟩) :: (.ident c!"y" .NOT_A_KEYWORD, ⟨43, 44⟩) ::
  (.plus, ⟨45, 46⟩) :: (.questionMark, ⟨47, 48⟩) :: (.ident c!"WHERE" .WHERE, ⟨49, 54⟩) :: (.ident c!"NOT" .NOT, ⟨55, 58⟩) ::
  (.ident c!"z" .NOT_A_KEYWORD, ⟨59, 60⟩) :: (.ident c!"IN" .IN, ⟨61, 63⟩) :: (.lParen, ⟨64, 65⟩) :: (.integer c!"1", ⟨65, 66⟩) ::
  (.rParen, ⟨66, 67⟩) :: (.ident c!"ORDER" .ORDER, ⟨68, 73⟩) :: (.ident c!"BY" .BY, ⟨74, 76⟩) :: (.ident c!"a" .NOT_A_KEYWORD, ⟨77, 78⟩) ::
  (.ident c!"DESC" .DESC, ⟨79, 83⟩) :: (.ident c!"LIMIT" .LIMIT, ⟨84, 89⟩) :: (.integer c!"2", ⟨90, 91⟩) :: (.comma, ⟨91, 92⟩) ::
  (.integer c!"3", ⟨93, 94⟩) :: []

/-- The options of the query: `?` are arguments. -/
def queryOpts : Opts := { arguments := .questionMark }

/-- The first `?` is argument 0, the second argument 1. -/
theorem query_stm : ∃ v, Stm (Env.start queryOpts noData allArgs queryToks) (queryToks ++ [eofTk querySrc]) v [eofTk querySrc] := by
  exact ⟨_, .query (.one (.select (.from (t := .ident c!"SELECT" .SELECT) (t' := .ident c!"FROM" .FROM) rfl (.nil tk%)
    -- a.*, f(?) AS n
    (.cons (.plain (ex_opd (.name ⟨by decide +kernel, by decide, by decide, rfl⟩ (by decide +kernel) tk% (.star (.nil tk%))) tk%) tk%)
      (.one (.as (ex_opd (.func (f := ond% Function_Other [c!"f"]) (.inl ⟨by decide +kernel, by decide, by decide, rfl⟩ ) ⟨by decide +kernel, rfl⟩
        (.some tk% (.one (.expr tk% (ex_opd (.arg (t := .questionMark) rfl rfl) tk%)) tk%)) tk% rfl) tk%) tk% idn) tk%))
    rfl
    -- FROM
    (.one (.mk (.table (.mk (.last idn tk%)) (.none tk% tk%) (.nil tk%))
      (.cons (.join (.one tk%)) (.table (.mk (.last idn tk%)) (.none tk% tk%) (.nil tk%))
        (.on tk% (.mk (T := .bin .eq ⟨41, 42⟩ (.leaf (nd% Identifier [[Ast.ident c!"x" ⟨39, 40⟩]]))
          (.bin .add ⟨45, 46⟩ (.leaf (nd% Identifier [[Ast.ident c!"y" ⟨43, 44⟩]])) (.leaf (nd% Arg [1, (⟨47, 48⟩ : Span)]))))
          (.opd (od_col tk% tk%) (.bin rfl (.opd (od_col tk% tk%) (.bin rfl (.opd (.arg (t := .questionMark) rfl rfl) (.stop tk%))))))
          ⟨trivial, ⟨trivial, trivial, by simp [PTree.rightEdge], by simp [PTree.leftEdge]⟩, by simp [PTree.rightEdge],
            by simp [PTree.leftEdge]; decide⟩)) (.nil tk%))) tk%)
    -- WHERE
    (.some rfl (.mk (.mk (T := .un .not ⟨55, 58⟩ (.post (.isIn [nd% Integer [(1, (⟨65, 66⟩ : Span))]] ⟨61, 63⟩ false)
      (.leaf (nd% Identifier [[Ast.ident c!"z" ⟨59, 60⟩]]))))
      (.un rfl (.opd (od_col tk% tk%) (.isIn tk% (.one (.expr tk% (ex_opd (od_num tk%) tk%)) tk%) (.stop tk%))))
      ⟨⟨trivial, by simp [PTree.rightEdge]⟩, by simp [PTree.leftEdge]; decide⟩)))
    (.none tk%) (.none tk%) (.none tk%)
    -- ORDER BY
    (.some rfl (.mk tk% (.one (.desc (ex_opd (od_col tk% tk%) tk%) tk%) tk%)))
    -- LIMIT
    (.some rfl (.comma (ex_opd (od_num tk%) tk%) (ex_opd (od_num tk%) tk%)))
    (.none tk%))) tk%)⟩

/-- Non-vacuity of `C38_statement`. -/
example : ∃ v, IsStatement true queryOpts querySrc v :=
  query_stm.imp fun v h => isStatement_written ((C37_written_iff true _ _ (by decide)).2 ⟨⟨querySrc, 94, []⟩, by decide +kernel⟩) h

/-- A script that changes the delimiter for a trigger. -/
def scriptSrc : List Char :=
  c!"DELIMITER $$ CREATE TRIGGER tr BEFORE INSERT ON t FOR EACH ROW BEGIN DELETE FROM u WHERE a = 1; SET b = 2; END $$ " ++
  c!"DELIMITER ; DROP TABLE IF EXISTS a, b.c;"

/-- Its tokens. -/
def scriptToks : List Tk := (.ident c!"DELIMITER" .DELIMITER, ⟨0, 9⟩) :: (.doubleDollar, ⟨10, 12⟩) ::
  (.ident c!"CREATE" .CREATE, ⟨13, 19⟩) :: (.ident c!"TRIGGER" .TRIGGER, ⟨20, 27⟩) :: (.ident c!"tr" .NOT_A_KEYWORD, ⟨28, 30⟩) ::
  (.ident c!"BEFORE" .BEFORE, ⟨31, 37⟩) :: (.ident c!"INSERT" .INSERT, ⟨38, 44⟩) :: (.ident c!"ON" .ON, ⟨45, 47⟩) ::
  (.ident c!"t" .NOT_A_KEYWORD, ⟨48, 49⟩) :: (.ident c!"FOR" .FOR, ⟨50, 53⟩) :: (.ident c!"EACH" .EACH, ⟨54, 58⟩) ::
  (.ident c!"ROW" .ROW, ⟨59, 62⟩) :: (.ident c!"BEGIN" .BEGIN, ⟨63, 68⟩) :: (.ident c!"DELETE" .DELETE, ⟨69, 75⟩) ::
  (.ident c!"FROM" .FROM, ⟨76, 80⟩) :: (.ident c!"u" .NOT_A_KEYWORD, ⟨81, 82⟩) :: (.ident c!"WHERE" .WHERE, ⟨83, 88⟩) ::
  (.ident c!"a" .NOT_A_KEYWORD, ⟨89, 90⟩) :: (.eq, ⟨91, 92⟩) :: (.integer c!"1", ⟨93, 94⟩) :: (.semiColon, ⟨94, 95⟩) ::
  (.ident c!"SET" .SET, ⟨96, 99⟩) :: (.ident c!"b" .NOT_A_KEYWORD, ⟨100, 101⟩) :: (.eq, ⟨102, 103⟩) :: (.integer c!"2", ⟨104, 105⟩) ::
  (.semiColon, ⟨105, 106⟩) :: (.ident c!"END" .END, ⟨107, 110⟩) :: (.doubleDollar, ⟨111, 113⟩) ::
  (.ident c!"DELIMITER" .DELIMITER, ⟨114, 123⟩) :: (.semiColon, ⟨124, 125⟩) :: (.ident c!"DROP" .DROP, ⟨126, 130⟩) ::
  (.ident c!"TABLE" .TABLE, ⟨131, 136⟩) :: (.ident c!"IF" .IF, ⟨137, 139⟩) :: (.ident c!"EXISTS" .EXISTS, ⟨140, 146⟩) ::
  (.ident c!"a" .NOT_A_KEYWORD, ⟨147, 148⟩) :: (.comma, ⟨148, 149⟩) :: (.ident c!"b" .NOT_A_KEYWORD, ⟨150, 151⟩) ::
  (.period, ⟨151, 152⟩) :: (.ident c!"c" .NOT_A_KEYWORD, ⟨152, 153⟩) :: (.semiColon, ⟨153, 154⟩) :: []

theorem script_scr : ∃ v w, Scr (Env.start {} noData allArgs scriptToks) (scriptToks ++ [eofTk scriptSrc]) [v, w] := by
  exact ⟨_, _, .delimiter tk% (.inr rfl) rfl (.stmt
    (.trigger (t := .ident c!"CREATE" .CREATE) (T := .TriggerTime_Before) (E := .TriggerEvent_Insert) tk% (.nil ⟨.TRIGGER, by decide, rfl⟩) tk% (.none tk%) idn tk% tk% tk% idn
      (.cons tk% (.cons tk% (.one tk%)))
      (.block rfl (.mk tk%
        (.cons (.delete (.from tk% (.nil tk%) tk% (.one (.mk (.last idn tk%)) tk%) (.none tk%)
            (.some tk% (.mk (.mk (T := .bin .eq ⟨91, 92⟩ (.leaf (nd% Identifier [[Ast.ident c!"a" ⟨89, 90⟩]])) (.leaf (nd% Integer [(1, (⟨93, 94⟩ : Span))])))
              (.opd (od_col tk% tk%) (.bin rfl (.opd (od_num tk%) (.stop tk%))))
              ⟨trivial, trivial, by simp [PTree.rightEdge], by simp [PTree.leftEdge]⟩)))
            (.none tk%))) rfl rfl
        (.cons (.set (.mk tk% (.one (.mk idn (ex_opd (od_num tk%) tk%)) tk%))) rfl rfl
        (.nil ⟨⟨by decide, by decide, by decide⟩, by decide⟩)))
        (.none tk%) tk%)))
    rfl rfl
    (.delimiter tk% (.inl rfl) rfl (.stmt
      (.drop (.mk tk% (.none tk%) (.table tk% (.some (.cons tk% (.one tk%)))
        (.cons (.mk (.last idn tk%)) (.one (.mk (.dot idn (.last idn tk%))) tk%)) (by intro h; exact absurd h (by decide)))))
      rfl rfl .eof)))⟩

/-- Non-vacuity of `C38_script`. -/
example : ∃ v w, IsScript true {} scriptSrc [v, w] :=
  script_scr.imp fun _ h => h.imp fun _ h =>
    isScript_written ((C37_written_iff true _ _ (by decide)).2 ⟨⟨scriptSrc, 154, []⟩, by decide +kernel⟩) h

/-- A script with data. -/
def copySrc : List Char := c!"COPY t (a) FROM STDIN;\n1é\n\\.\nDROP TABLE u;"

/-- Its tokens. -/
def copyToks : List Tk := [(.ident c!"COPY" .COPY, ⟨0, 4⟩), (.ident c!"t" .NOT_A_KEYWORD, ⟨5, 6⟩), (.lParen, ⟨7, 8⟩),
  (.ident c!"a" .NOT_A_KEYWORD, ⟨8, 9⟩), (.rParen, ⟨9, 10⟩), (.ident c!"FROM" .FROM, ⟨11, 15⟩), (.ident c!"STDIN" .STDIN, ⟨16, 21⟩),
  (.semiColon, ⟨21, 22⟩), (.ident c!"DROP" .DROP, ⟨30, 34⟩), (.ident c!"TABLE" .TABLE, ⟨35, 40⟩),
  (.ident c!"u" .NOT_A_KEYWORD, ⟨41, 42⟩), (.semiColon, ⟨42, 43⟩), (.eof, ⟨43, 43⟩)]

/-- The data after the first `;`. -/
def copyData : Data := fun sp => if sp = ⟨21, 22⟩ then some (c!"1é\n", ⟨23, 27⟩) else none

theorem copy_scr : ∃ v w, Scr (Env.start {} copyData allArgs copyToks) copyToks
    [v, ⟨.node .Statement_Stdin [.str c!"1é\n", .span ⟨23, 27⟩]⟩, w] :=
  ⟨_, _, .copy (.copy (.mk tk% idn (.some (.mk (.one idn tk%))) tk% tk%)) rfl rfl
    (.stmt (.drop (.mk tk% (.none tk%) (.table tk% (.none tk%) (.one (.mk (.last idn tk%)) tk%) (by intro h; exact absurd h (by decide)))))
      rfl rfl .eof)⟩

theorem copy_laid : Laid true copyData 0 copySrc copyToks :=
  laid_test (lx := Lexer.new copySrc) ⟨[], rfl, rfl⟩ (by decide +kernel)

/-- Non-vacuity of `C38_script` with data. -/
example : ∃ v w, IsScript true {} copySrc [v, ⟨.node .Statement_Stdin [.str c!"1é\n", .span ⟨23, 27⟩]⟩, w] :=
  copy_scr.imp fun _ h => h.imp fun _ h => ⟨copyData, allArgs, copyToks, copy_laid, h⟩

/-- A block with data in it. -/
def nestedSrc : List Char := c!"CREATE TRIGGER r BEFORE INSERT ON t FOR EACH ROW BEGIN COPY t (a) FROM STDIN;\n7\n\\.\nEND"

/-- Its tokens. -/
def nestedToks : List Tk := [(.ident c!"CREATE" .CREATE, ⟨0, 6⟩), (.ident c!"TRIGGER" .TRIGGER, ⟨7, 14⟩), (.ident c!"r" .NOT_A_KEYWORD, ⟨15, 16⟩),
  (.ident c!"BEFORE" .BEFORE, ⟨17, 23⟩), (.ident c!"INSERT" .INSERT, ⟨24, 30⟩), (.ident c!"ON" .ON, ⟨31, 33⟩),
  (.ident c!"t" .NOT_A_KEYWORD, ⟨34, 35⟩), (.ident c!"FOR" .FOR, ⟨36, 39⟩), (.ident c!"EACH" .EACH, ⟨40, 44⟩),
  (.ident c!"ROW" .ROW, ⟨45, 48⟩), (.ident c!"BEGIN" .BEGIN, ⟨49, 54⟩),
  (.ident c!"COPY" .COPY, ⟨55, 59⟩), (.ident c!"t" .NOT_A_KEYWORD, ⟨60, 61⟩), (.lParen, ⟨62, 63⟩), (.ident c!"a" .NOT_A_KEYWORD, ⟨63, 64⟩),
  (.rParen, ⟨64, 65⟩), (.ident c!"FROM" .FROM, ⟨66, 70⟩), (.ident c!"STDIN" .STDIN, ⟨71, 76⟩), (.semiColon, ⟨76, 77⟩),
  (.ident c!"END" .END, ⟨83, 86⟩), (.eof, ⟨86, 86⟩)]

/-- The data after `;`. -/
def nestedData : Data := fun sp => if sp = ⟨76, 77⟩ then some (c!"7\n", ⟨78, 80⟩) else none

theorem nested_stm : ∃ v, Stm (Env.start {} nestedData allArgs nestedToks) nestedToks v [eofTk nestedSrc] := by
  exact ⟨_, .trigger (t := .ident c!"CREATE" .CREATE) (T := .TriggerTime_Before) (E := .TriggerEvent_Insert) tk% (.nil ⟨.TRIGGER, by decide, rfl⟩) tk% (.none tk%) idn tk% tk% tk% idn
      (.cons tk% (.cons tk% (.one tk%)))
      (.block rfl (.mk tk%
        (.copy (.copy (.mk tk% idn (.some (.mk (.one idn tk%))) tk% tk%)) rfl rfl
        (.nil ⟨⟨by decide, by decide, by decide⟩, by decide⟩))
        (.none tk%) tk%))⟩

theorem nested_laid : Laid true nestedData 0 nestedSrc nestedToks :=
  laid_test (lx := Lexer.new nestedSrc) ⟨[], rfl, rfl⟩ (by decide +kernel)

/-- Non-vacuity of `C38_statement` with data inside of a block. -/
example : ∃ v, IsStatement true {} nestedSrc v :=
  nested_stm.imp fun _ h => ⟨nestedData, allArgs, nestedToks, nested_laid, h⟩

end SqlParse
