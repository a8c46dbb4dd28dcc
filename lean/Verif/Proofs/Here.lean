import Verif.Api
import Verif.Spec.Prefix
/-! Programs that report what was expected only at the current token. -/
namespace SqlParse

/-- The operation does not say that something was expected. -/
def Op.quiet {α : Type} : Op α → Bool
  | .issue _ m _ _ => !m.isSyntax
  | _ => true

/-- Where the program says that something was expected, it does so at the current token. -/
class inductive EH : {α : Type} → Prog α → Prop where
  | ret {α : Type} (a : α) : EH (.ret a)
  | bind {α β : Type} {p : Prog α} {f : α → Prog β} (h : EH p) (hf : ∀ a, EH (f a)) : EH (.bind p f)
  | op {α : Type} (o : Op α) (h : o.quiet = true) : EH (.op o)
  | expected (w : Wanted) : EH (expectedError w)
  | here {α : Type} (m : String) : EH (errHere (α := α) m)
  | throw {α : Type} : EH (α := α) .throw
  | tryP {α : Type} {p : Prog α} (h : EH p) : EH (.tryP p)
  | loop {σ β : Type} {body : σ → Prog (Step σ β)} (init : σ) (h : ∀ x, EH (body x)) : EH (.loop body init)
  | call {α : Type} (f : Fn α) : EH (.call f)
  | panic {α : Type} (m : String) : EH (α := α) (.panic m)

instance eh_ret {α : Type} {a : α} : EH (Prog.ret a) := .ret a
instance eh_pure {α : Type} {a : α} : EH (pure a : Prog α) := .ret a
instance eh_bind {α β : Type} {p : Prog α} {f : α → Prog β} [h : EH p] [hf : ∀ a, EH (f a)] : EH (Prog.bind p f) := .bind h hf
instance eh_bind' {α β : Type} {p : Prog α} {f : α → Prog β} [h : EH p] [hf : ∀ a, EH (f a)] : EH (p >>= f) := .bind h hf
instance eh_throw {α : Type} : EH (α := α) .throw := .throw
instance eh_tryP {α : Type} {p : Prog α} [h : EH p] : EH (Prog.tryP p) := .tryP h
instance eh_loop {σ β : Type} {body : σ → Prog (Step σ β)} {init : σ} [h : ∀ x, EH (body x)] : EH (Prog.loop body init) := .loop init h
instance eh_call {α : Type} {f : Fn α} : EH (Prog.call f) := .call f
instance eh_panic {α : Type} {m : String} : EH (α := α) (.panic m) := .panic m
instance eh_here {α : Type} {m : String} : EH (errHere (α := α) m) := .here m
instance eh_expected {w : Wanted} : EH (expectedError w) := .expected w
/-- Not one of the messages about something that was expected. -/
class QuietStr (m : String) : Prop where
  h : (Msg.plain m).isSyntax = false
instance eh_plain {l : Level} {m : String} {sp : Span} {fr : List (String × Span)} [h : QuietStr m] : EH (.op (.issue l (.plain m) sp fr)) := .op _ (by simp [Op.quiet, h.h])
instance eh_reserved {l : Level} {v : List Char} {sp : Span} {fr : List (String × Span)} : EH (.op (.issue l (.reserved v) sp fr)) := .op _ rfl
instance eh_unquoted {l : Level} {v : List Char} {sp : Span} {fr : List (String × Span)} : EH (.op (.issue l (.unquoted v) sp fr)) := .op _ rfl
instance eh_caps {l : Level} {v : List Char} {sp : Span} {fr : List (String × Span)} : EH (.op (.issue l (.caps v) sp fr)) := .op _ rfl
instance eh_err {m : String} {sp : Span} {fr : List (String × Span)} [QuietStr m] : EH (err (.plain m) sp fr) := eh_plain
instance eh_warn {m : String} {sp : Span} {fr : List (String × Span)} [QuietStr m] : EH (warn (.plain m) sp fr) := eh_plain
instance eh_err_reserved {v : List Char} {sp : Span} {fr : List (String × Span)} : EH (err (.reserved v) sp fr) := .op _ rfl
instance eh_err_unquoted {v : List Char} {sp : Span} {fr : List (String × Span)} : EH (err (.unquoted v) sp fr) := .op _ rfl
instance eh_warn_unquoted {v : List Char} {sp : Span} {fr : List (String × Span)} : EH (warn (.unquoted v) sp fr) := .op _ rfl
instance eh_warn_caps {v : List Char} {sp : Span} {fr : List (String × Span)} : EH (warn (.caps v) sp fr) := .op _ rfl
instance eh_cur : EH (.op .cur) := .op _ rfl
instance eh_next : EH (.op .next) := .op _ rfl
instance eh_left : EH (.op .leftParenAhead) := .op _ rfl
instance eh_issueIf {f : WarnFlag} {l : Level} {v : List Char} {sp : Span} : EH (.op (.issueIf f l v sp)) := .op _ rfl
instance eh_takeArg : EH (.op .takeArg) := .op _ rfl
instance eh_delim : EH (.op .delim) := .op _ rfl
instance eh_setDelim {t : Token} : EH (.op (.setDelim t)) := .op _ rfl
instance eh_permit : EH (.op .permit) := .op _ rfl
instance eh_setPermit {b : Bool} : EH (.op (.setPermit b)) := .op _ rfl
instance eh_dialect : EH (.op .dialect) := .op _ rfl
instance eh_arguments : EH (.op .arguments) := .op _ rfl
instance eh_listHack : EH (.op .listHack) := .op _ rfl
instance eh_stdin : EH (.op .stdin) := .op _ rfl

theorem eh_if {α : Type} {c : Prop} [Decidable c] {p q : Prog α} (h : EH p) (h' : EH q) : EH (if c then p else q) := by split <;> assumption
instance eh_ite {α : Type} {c : Prop} [Decidable c] {p q : Prog α} [h : EH p] [h' : EH q] : EH (if c then p else q) := eh_if h h'

/-- Go through a program. -/
macro "eh" : tactic => `(tactic| repeat' first
  | infer_instance
  | intro _
  | refine @EH.bind _ _ _ _ ?_ ?_
  | refine @EH.tryP _ _ ?_
  | refine @EH.loop _ _ _ _ ?_
  | refine eh_if ?_ ?_
  | split
  | dsimp only)

end SqlParse
