import Verif.Spec.Api
/-! Vocabulary for C42 and C43: two sources whose tokens correspond one by one, and results that correspond. -/
namespace SqlParse

/-- `Scan checked lx toks`: from the lexer state `lx` on, `next_token` gives the tokens `toks` in turn; the last one, and only
the last one, is the end of the input. -/
inductive Scan (checked : Bool) : Lexer → List (Token × Span) → Prop where
  | last {lx lx' : Lexer} {sp : Span} (h : lx.nextToken checked = .ok .eof sp lx') : Scan checked lx [(.eof, sp)]
  | cons {lx lx' : Lexer} {t : Token} {sp : Span} {toks : List (Token × Span)} (h : lx.nextToken checked = .ok t sp lx')
      (ht : t ≠ .eof) (hs : Scan checked lx' toks) : Scan checked lx ((t, sp) :: toks)

/-- `toks` are the tokens of the source, the last one is the end of the input. -/
def TokensOf (checked : Bool) (src : List Char) (toks : List (Token × Span)) : Prop := Scan checked (Lexer.new src) toks

/-- Corresponding tokens: the same kind of token, the same keyword, the same number; the texts of words with the keyword `k`
(for identifiers that is `NOT_A_KEYWORD` or `QUOTED_IDENTIFIER`) are related by `word k`, the texts between the quotes of strings by `str`. -/
inductive AlikeTok (word : Keyword → List Char → List Char → Prop) (str : List Char → List Char → Prop) : Token → Token → Prop where
  | word {v w : List Char} (k : Keyword) (h : word k v w) : AlikeTok word str (.ident v k) (.ident w k)
  | single {v w : List Char} (h : str v w) : AlikeTok word str (.singleQuotedString v) (.singleQuotedString w)
  | double {v w : List Char} (h : str v w) : AlikeTok word str (.doubleQuotedString v) (.doubleQuotedString w)
  | other (t : Token) (h1 : ∀ v k, t ≠ .ident v k) (h2 : ∀ v, t ≠ .singleQuotedString v) (h3 : ∀ v, t ≠ .doubleQuotedString v) :
      AlikeTok word str t t

/-- Two lists of the same length, related element by element. -/
inductive Each {α : Type} (R : α → α → Prop) : List α → List α → Prop where
  | nil : Each R [] []
  | cons {a b : α} {l m : List α} (h : R a b) (hl : Each R l m) : Each R (a :: l) (b :: m)

/-- The tokens of two sources correspond one by one (the spans may differ). -/
def AllAlike (word : Keyword → List Char → List Char → Prop) (str : List Char → List Char → Prop) : List (Token × Span) → List (Token × Span) → Prop :=
  Each fun p q => AlikeTok word str p.1 q.1

/-- A word with keyword `k` is among the tokens. -/
def Occurs (k : Keyword) (toks : List (Token × Span)) : Prop := ∃ v sp, (.ident v k, sp) ∈ toks

/-- `a` and `b` are where the same token starts in the two sources, or both are 0 (where the parser makes up a span). -/
def StartsAt (toks toks' : List (Token × Span)) (a b : Nat) : Prop :=
  (a = 0 ∧ b = 0) ∨ ∃ i : Nat, ∃ p q : Token × Span, toks[i]? = some p ∧ toks'[i]? = some q ∧ a = p.2.start ∧ b = q.2.start
/-- `a` and `b` are where the same token stops in the two sources, or both are 0. -/
def StopsAt (toks toks' : List (Token × Span)) (a b : Nat) : Prop :=
  (a = 0 ∧ b = 0) ∨ ∃ i : Nat, ∃ p q : Token × Span, toks[i]? = some p ∧ toks'[i]? = some q ∧ a = p.2.stop ∧ b = q.2.stop

/-- Two spans that go from the same token to the same token. -/
def SamePlace (toks toks' : List (Token × Span)) (s t : Span) : Prop :=
  StartsAt toks toks' s.start t.start ∧ StopsAt toks toks' s.stop t.stop

/-- How two results may differ: in positions, in the text of identifiers, in other texts (names of functions and variables,
decimal numbers, data of COPY), in the values of strings. -/
structure May where
  place : Span → Span → Prop
  name : List Char → List Char → Prop
  text : List Char → List Char → Prop
  value : List Char → List Char → Prop

mutual
/-- Two ASTs of the same shape, which differ as `M` says. -/
inductive Twin (M : May) : Ast → Ast → Prop where
  | span {s t : Span} (h : M.place s t) : Twin M (.span s) (.span t)
  | str {v w : List Char} (h : M.text v w) : Twin M (.str v) (.str w)
  | nat (n : Nat) : Twin M (.nat n) (.nat n)
  | bool (b : Bool) : Twin M (.bool b) (.bool b)
  | ident {v w : List Char} {s t : Span} (h : M.name v w) (hs : M.place s t) : Twin M (.ident v s) (.ident w t)
  | sstring {v w : List Char} {s t : Span} (h : M.value v w) (hs : M.place s t) : Twin M (.sstring v s) (.sstring w t)
  | binop (o : BinOp) : Twin M (.binop o) (.binop o)
  | unop (o : UnOp) : Twin M (.unop o) (.unop o)
  | none : Twin M .none .none
  | some {a b : Ast} (h : Twin M a b) : Twin M (.some a) (.some b)
  | list {l m : List Ast} (h : Twins M l m) : Twin M (.list l) (.list m)
  | node (k : Kind) {l m : List Ast} (h : Twins M l m) : Twin M (.node k l) (.node k m)
inductive Twins (M : May) : List Ast → List Ast → Prop where
  | nil : Twins M [] []
  | cons {a b : Ast} {l m : List Ast} (h : Twin M a b) (hl : Twins M l m) : Twins M (a :: l) (b :: m)
end

/-- The same message, but for the words that it quotes. -/
inductive TwinMsg (text : List Char → List Char → Prop) : Msg → Msg → Prop where
  | plain (s : String) : TwinMsg text (.plain s) (.plain s)
  | expected {w w' : Wanted} (h : w.text = w'.text) : TwinMsg text (.expected w) (.expected w')
  | reserved {v w : List Char} (h : text v w) : TwinMsg text (.reserved v) (.reserved w)
  | unquoted {v w : List Char} (h : text v w) : TwinMsg text (.unquoted v) (.unquoted w)
  | caps {v w : List Char} (h : text v w) : TwinMsg text (.caps v) (.caps w)

/-- Two issues of the same level and with the same message (but for the words it quotes), whose spans, and those of their fragments, correspond. -/
def TwinIssue (M : May) (i j : Issue) : Prop :=
  i.level = j.level ∧ TwinMsg M.text i.message j.message ∧ M.place i.span j.span ∧
    Each (fun f g => f.message = g.message ∧ M.place f.span g.span) i.fragments j.fragments

/-- Corresponding results of two calls, made with the issues `old` and `old'` of before: both return, corresponding statements
and corresponding new issues; or both panic, with the same message; or both are still running. -/
inductive TwinRes {α : Type} (api : Api α) (M : May) (old old' : List Issue) : Res α → Res α → Prop where
  | ret {a b : α} {new new' : List Issue} (h : Twins M ((api.stmts a).map (·.ast)) ((api.stmts b).map (·.ast)))
      (hi : Each (TwinIssue M) new new') : TwinRes api M old old' (.ret a (old ++ new)) (.ret b (old' ++ new'))
  | panic (m : String) : TwinRes api M old old' (.panic m) (.panic m)
  | running : TwinRes api M old old' .running .running

/-- Values of strings whose source texts are related by `str`: one string, or several next to each other. -/
inductive ValueOf (str : List Char → List Char → Prop) : List Char → List Char → Prop where
  | single {v w : List Char} (h : str v w) : ValueOf str (decodeSingle v) (decodeSingle w)
  | double {v w : List Char} (h : str v w) : ValueOf str (decodeDouble v) (decodeDouble w)
  | append {a a' b b' : List Char} (h : ValueOf str a a') (h' : ValueOf str b b') : ValueOf str (a ++ b) (a' ++ b')

/-- Different texts stay different. -/
def OneToOne (R : List Char → List Char → Prop) : Prop := ∀ v w v' w', R v w → R v' w' → (v = v' ↔ w = w')

end SqlParse
