import Verif.Model.Options
import Verif.Theorems.Flags
/-! **C54**: building options. -/
namespace SqlParse

/-- `v` is the value given by the last of the calls that `f` is about, or `d` if there is none. -/
inductive LastSet {β : Type} (f : OptCall → Option β) (d : β) : List OptCall → β → Prop where
  | never {l : List OptCall} (h : ∀ c ∈ l, f c = none) : LastSet f d l d
  | last {v : β} {c : OptCall} {l m : List OptCall} (h : f c = some v) (hm : ∀ c ∈ m, f c = none) : LastSet f d (l ++ c :: m) v

/-- The values that calls give to the options. -/
def OptCall.dialect? : OptCall → Option Dialect
  | .dialect d => some d
  | _ => none
def OptCall.arguments? : OptCall → Option Arguments
  | .arguments a => some a
  | _ => none
def OptCall.warnUnquoted? : OptCall → Option Bool
  | .warnUnquoted b => some b
  | _ => none
def OptCall.warnCaps? : OptCall → Option Bool
  | .warnCaps b => some b
  | _ => none
def OptCall.listHack? : OptCall → Option Bool
  | .listHack b => some b
  | _ => none

theorem lastSet_fold {β : Type} (f : OptCall → Option β) (g : Opts → β) (hf : ∀ o c, g (o.call c) = (f c).getD (g o)) (o : Opts) (l : List OptCall) :
    LastSet f (g o) l (g (l.foldl Opts.call o)) := by
  induction l generalizing o with
  | nil => exact .never (by simp)
  | cons c l ih =>
    have := ih (o.call c)
    rw [hf] at this
    simp only [List.foldl_cons]
    generalize g (l.foldl Opts.call (o.call c)) = v at this
    cases this with
    | never h =>
      cases hc : f c with
      | none =>
        refine .never ?_
        intro x hx
        rcases List.mem_cons.1 hx with rfl | hx
        · exact hc
        · exact h x hx
      | some w => exact .last (l := []) hc h
    | last h hm => exact .last (l := c :: _) h hm

/-- **C54**: however the setters are called, each option has the value that was given to it last, or its default (MariaDB, no
arguments, no warnings, no list hack); `get_dialect` gives the dialect. -/
theorem C54_options (l : List OptCall) :
    LastSet OptCall.dialect? .mariaDB l (l.foldl Opts.call .new).getDialect ∧
    LastSet OptCall.dialect? .mariaDB l (l.foldl Opts.call .new).dialect ∧
    LastSet OptCall.arguments? .none l (l.foldl Opts.call .new).arguments ∧
    LastSet OptCall.warnUnquoted? false l (l.foldl Opts.call .new).warnUnquoted ∧
    LastSet OptCall.warnCaps? false l (l.foldl Opts.call .new).warnCaps ∧
    LastSet OptCall.listHack? false l (l.foldl Opts.call .new).listHack :=
  ⟨lastSet_fold OptCall.dialect? Opts.dialect (by intro o c; cases c <;> rfl) .new l,
    lastSet_fold OptCall.dialect? Opts.dialect (by intro o c; cases c <;> rfl) .new l,
    lastSet_fold OptCall.arguments? Opts.arguments (by intro o c; cases c <;> rfl) .new l,
    lastSet_fold OptCall.warnUnquoted? Opts.warnUnquoted (by intro o c; cases c <;> rfl) .new l,
    lastSet_fold OptCall.warnCaps? Opts.warnCaps (by intro o c; cases c <;> rfl) .new l,
    lastSet_fold OptCall.listHack? Opts.listHack (by intro o c; cases c <;> rfl) .new l⟩

/-- The value is determined. -/
theorem LastSet.unique {β : Type} {f : OptCall → Option β} {d v w : β} {l : List OptCall} (h : LastSet f d l v) (h' : LastSet f d l w) : v = w := by
  have key : ∀ {l v}, LastSet f d l v → v = ((l.filterMap f).getLast?).getD d := by
    intro l v h
    cases h with
    | never h =>
      rw [show l.filterMap f = [] from List.filterMap_eq_nil_iff.2 h]
      rfl
    | last h hm => simp [List.filterMap_append, h, List.filterMap_eq_nil_iff.2 hm]
  rw [key h, key h']

/-- **C54** (dialects): exactly one of the three tests holds. -/
theorem C54_dialect (d : Dialect) :
    (d.isMaria = true ↔ d = .mariaDB) ∧ (d.isPostgresql = true ↔ d = .postgreSQL) ∧ (d.isSqlite = true ↔ d = .sqlite) := by
  cases d <;> decide

/-- Non-vacuity: the dialect is set twice, the second value counts. -/
example : [OptCall.dialect .sqlite, .warnCaps true, .dialect .postgreSQL, .listHack true].foldl Opts.call .new =
    { dialect := .postgreSQL, warnCaps := true, listHack := true } := rfl

/-- **C54** (parsing): the order in which different options are set does not matter for any call. -/
theorem C54_order {α : Type} (api : Api α) (n : Nat) (chk : Bool) (src : List Char) (iss : Issues) (l m : List OptCall)
    (h1 : ∀ d v, LastSet OptCall.dialect? d l v ↔ LastSet OptCall.dialect? d m v)
    (h2 : ∀ d v, LastSet OptCall.arguments? d l v ↔ LastSet OptCall.arguments? d m v)
    (h3 : ∀ d v, LastSet OptCall.warnUnquoted? d l v ↔ LastSet OptCall.warnUnquoted? d m v)
    (h4 : ∀ d v, LastSet OptCall.warnCaps? d l v ↔ LastSet OptCall.warnCaps? d m v)
    (h5 : ∀ d v, LastSet OptCall.listHack? d l v ↔ LastSet OptCall.listHack? d m v) :
    api.run n chk src iss (l.foldl Opts.call .new) = api.run n chk src iss (m.foldl Opts.call .new) := by
  suffices h : l.foldl Opts.call .new = m.foldl Opts.call .new by rw [h]
  obtain ⟨-, a1, a2, a3, a4, a5⟩ := C54_options l
  obtain ⟨-, b1, b2, b3, b4, b5⟩ := C54_options m
  have e1 := ((h1 _ _).1 a1).unique b1
  have e2 := ((h2 _ _).1 a2).unique b2
  have e3 := ((h3 _ _).1 a3).unique b3
  have e4 := ((h4 _ _).1 a4).unique b4
  have e5 := ((h5 _ _).1 a5).unique b5
  generalize l.foldl Opts.call .new = x at *
  generalize m.foldl Opts.call .new = y at *
  cases x; cases y
  simp_all

end SqlParse
