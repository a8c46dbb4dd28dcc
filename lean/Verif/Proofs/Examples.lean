import Verif.Spec.Ast
import Verif.Theorems.Issues
/-! Tools for the examples that show that the hypotheses of the theorems can be met. -/
namespace SqlParse

mutual
/-- Is there a part of the AST that satisfies `f`? -/
def Ast.find (f : Ast → Bool) : Ast → Bool
  | .some a => f (.some a) || a.find f
  | .list l => f (.list l) || findList f l
  | .node k fs => f (.node k fs) || findList f fs
  | .span s => f (.span s)
  | .str s => f (.str s)
  | .nat n => f (.nat n)
  | .bool b => f (.bool b)
  | .ident v sp => f (.ident v sp)
  | .sstring v sp => f (.sstring v sp)
  | .binop o => f (.binop o)
  | .unop o => f (.unop o)
  | .none => f .none
def findList (f : Ast → Bool) : List Ast → Bool
  | [] => false
  | a :: l => a.find f || findList f l
end

mutual
theorem Ast.find_has {f : Ast → Bool} : ∀ a : Ast, a.find f = true → ∃ b, a.Has b ∧ f b = true
  | .some a, h => by
    simp only [Ast.find, Bool.or_eq_true] at h
    rcases h with h | h
    · exact ⟨_, .refl _, h⟩
    · obtain ⟨b, h1, h2⟩ := Ast.find_has a h
      exact ⟨b, .some _ _ h1, h2⟩
  | .list l, h => by
    simp only [Ast.find, Bool.or_eq_true] at h
    rcases h with h | h
    · exact ⟨_, .refl _, h⟩
    · obtain ⟨a, ha, b, h1, h2⟩ := findList_has l h
      exact ⟨b, .list _ _ _ ha h1, h2⟩
  | .node k l, h => by
    simp only [Ast.find, Bool.or_eq_true] at h
    rcases h with h | h
    · exact ⟨_, .refl _, h⟩
    · obtain ⟨a, ha, b, h1, h2⟩ := findList_has l h
      exact ⟨b, .node _ _ _ _ ha h1, h2⟩
  | .span s, h => ⟨_, .refl _, h⟩
  | .str s, h => ⟨_, .refl _, h⟩
  | .nat n, h => ⟨_, .refl _, h⟩
  | .bool b, h => ⟨_, .refl _, h⟩
  | .ident v sp, h => ⟨_, .refl _, h⟩
  | .sstring v sp, h => ⟨_, .refl _, h⟩
  | .binop o, h => ⟨_, .refl _, h⟩
  | .unop o, h => ⟨_, .refl _, h⟩
  | .none, h => ⟨_, .refl _, h⟩
theorem findList_has {f : Ast → Bool} : ∀ l : List Ast, findList f l = true → ∃ a ∈ l, ∃ b, a.Has b ∧ f b = true
  | [], h => by simp [findList] at h
  | a :: l, h => by
    simp only [findList, Bool.or_eq_true] at h
    rcases h with h | h
    · obtain ⟨b, h1, h2⟩ := Ast.find_has a h
      exact ⟨a, by simp, b, h1, h2⟩
    · obtain ⟨a, h1, h2⟩ := findList_has l h
      exact ⟨a, by simp [h1], h2⟩
end

/-- There is an Error issue. -/
def hasErrorB (l : List Issue) : Bool := l.any (fun i => decide (i.level = .error))

theorem hasErrorB_iff {l : List Issue} : hasErrorB l = true ↔ HasError l := by
  simp [hasErrorB, HasError, Issue.isError]

/-- `src` is parsed without Error issue, and `f` holds of a part of the AST. -/
def Parses {α : Type} (api : Api α) (src : List Char) (opts : Opts) (f : Ast → Prop) : Prop :=
  ∃ a new, api.Returns true src ⟨src, []⟩ opts a ([] ++ new) ∧ ¬ HasError new ∧
    ∃ v ∈ api.stmts a, ∃ b, v.ast.Has b ∧ f b

theorem parses_of_test {α : Type} {api : Api α} {n : Nat} {src : List Char} {opts : Opts} {f : Ast → Bool}
    (h : (api.run n true src ⟨src, []⟩ opts).test (fun a is => !hasErrorB is && (api.stmts a).any (fun v => v.ast.find f)) = true) :
    Parses api src opts (fun b => f b = true) := by
  obtain ⟨a, is, h1, h2⟩ := returns_of_test h
  simp only [Bool.and_eq_true, Bool.not_eq_true', List.any_eq_true] at h2
  obtain ⟨h2, v, h3, h4⟩ := h2
  refine ⟨a, is, h1, fun he => ?_, v, h3, v.ast.find_has h4⟩
  rw [hasErrorB_iff.2 he] at h2
  cases h2

/-- Test for a panic. -/
def Res.panics {α : Type} (m : String) : Res α → Bool
  | .panic m' => decide (m = m')
  | _ => false

theorem panics_of_test {α : Type} {api : Api α} {n : Nat} {checked : Bool} {src : List Char} {iss : Issues} {opts : Opts}
    {m : String} (h : (api.run n checked src iss opts).panics m = true) : api.Panics checked src iss opts m := by
  revert h
  generalize hr : api.run n checked src iss opts = r
  intro h
  cases r with
  | panic m' => simp [Res.panics] at h; subst h; exact ⟨n, hr⟩
  | ret a m => simp [Res.panics] at h
  | running => simp [Res.panics] at h

end SqlParse
