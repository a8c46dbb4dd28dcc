import Verif.Proofs.PrecStep
import Verif.Theorems.Termination
/-! C18: operators are grouped by precedence. -/
namespace SqlParse

/-- The states that occur satisfy the invariant of the lexer and parser. -/
theorem Reachable.inv {s : St} (h : Reachable s) : BInv s := by
  induction h with
  | new h => exact (new_base h).1
  | @run s s' α p n a _ h ih =>
    have := run_good n p s ih
    rw [h] at this
    exact this.1
  | @err s s' α p n _ h ih =>
    have := run_good n p s ih
    rw [h] at this
    exact this.1

/-- C18.  Whenever `parse_expression` returns an expression, it has read a sequence of operands and operators one after
the other, and the expression is the tree with exactly this sequence that respects precedence; there is only one such tree. -/
theorem C18_grouping {inner : Bool} {n : Nat} {s s' : St} {e : Ast} (hs : Reachable s)
    (h : (Prog.call (.expression inner)).run n s = .ok e s') :
    ∃ (items : List Item) (T : PTree), Reads inner false s items s' ∧ T.ast = e ∧ T.inorder = items ∧ T.WellPrec ∧
      ∀ T' : PTree, T'.WellPrec → T'.inorder = items → T' = T := by
  obtain ⟨items, T, h1, h2, h3, h4⟩ := expression_items hs.inv h
  exact ⟨items, T, h1, h2, h3, h4, fun T' h5 h6 => prec_unique h5 h4 (h6.trans h3.symm)⟩

/-- C18, on trees: a grouping that respects precedence is determined by the sequence of its items. -/
theorem C18_unique {T T' : PTree} (h : T.WellPrec) (h' : T'.WellPrec) (he : T.inorder = T'.inorder) : T = T' :=
  prec_unique h h' he

/-- The shape of an expression: operators and nesting. -/
def shape : Ast → List Nat
  | .node .Binary [.binop op, _, l, r] => op.priority :: (shape l ++ shape r)
  | .node .Unary [.unop op, _, e] => op.priority :: shape e
  | _ => [0]

/-- An expression with four operators is parsed. -/
def c18Test : Bool :=
  match St.new true "-a + b * c < d".toList ⟨"-a + b * c < d".toList, []⟩ {} with
  | .ok _ s => match (Prog.call (.expression false)).run 20 s with
    | .ok e s' => decide (shape e = [110, 70, 40, 0, 60, 0, 0, 0]) && decide (s'.token = .eof)
    | _ => false
  | _ => false

/-- The hypotheses of `C18_grouping` can be met. -/
example : ∃ s n e s', Reachable s ∧ (Prog.call (.expression false)).run n s = .ok e s' ∧ shape e = [110, 70, 40, 0, 60, 0, 0, 0] := by
  have h : c18Test = true := by decide +kernel
  unfold c18Test at h
  split at h
  · next s hs =>
    split at h
    · next e s' he =>
      simp only [Bool.and_eq_true, decide_eq_true_eq] at h
      exact ⟨s, 20, e, s', .new hs, he, h.1⟩
    · cases h
  · cases h

end SqlParse
