import Verif.Spec.Precedence
import Verif.Proofs.Script
/-! The shift-reduce machine of `parse_expression`, on trees. -/
namespace SqlParse

/-- Stack of trees and operators. -/
inductive TM where
  | expr (t : PTree)
  | bin (op : BinOp) (sp : Span)
  | un (op : UnOp) (sp : Span)

/-- What the parser has for a member of the stack. -/
def TM.rm : TM → RM
  | .expr t => .expr t.ast
  | .bin op sp => .bin op sp
  | .un op sp => .un op sp

/-- The stack of the parser. -/
def rms (st : List TM) : List RM := st.map TM.rm

def treduceLoop (p : Nat) (e : PTree) : List TM → Option (List TM)
  | [] => some [.expr e]
  | .expr _ :: _ => none
  | .un op sp :: r => if op.priority > p then some (.expr e :: .un op sp :: r) else treduceLoop p (.un op sp e) r
  | .bin op sp :: r =>
    if op.priority > p then some (.expr e :: .bin op sp :: r)
    else
      match r with
      | .expr l :: r' => treduceLoop p (.bin op sp l e) r'
      | _ => none

def treduce (p : Nat) : List TM → Option (List TM)
  | .expr e :: r => treduceLoop p e r
  | _ => none

/-- One item. -/
def tshift (st : List TM) : Item → Option (List TM)
  | .opd e => match st with
    | .expr _ :: _ => none
    | _ => some (.expr (.leaf e) :: st)
  | .un op sp => match st with
    | .expr _ :: _ => none
    | _ => some (.un op sp :: st)
  | .bin op sp => match treduce op.priority st with
    | some st' => some (.bin op sp :: st')
    | none => none
  | .post p => match treduce inPriority st with
    | some (.expr e :: r) => some (.expr (.post p e) :: r)
    | _ => none

/-- All items. -/
def tshifts (st : List TM) : List Item → Option (List TM)
  | [] => some st
  | i :: l => match tshift st i with
    | some st' => tshifts st' l
    | none => none

theorem tshifts_append {st st1 : List TM} {l1 l2 : List Item} (h : tshifts st l1 = some st1) :
    tshifts st (l1 ++ l2) = tshifts st1 l2 := by
  induction l1 generalizing st with
  | nil => cases h; rfl
  | cons i l ih =>
    simp only [List.cons_append, tshifts] at h ⊢
    split at h
    · exact ih h
    · cases h

/-- The priority of an operator. -/
def Opr.priority : Opr → Nat
  | .bin op => op.priority
  | .un op => op.priority
  | .post => inPriority

theorem level_le (a b : Opr) : a.level ≤ b.level ↔ a.priority ≤ b.priority := by
  cases a with
  | bin a => cases b with
    | bin b => cases a <;> cases b <;> decide
    | un b => cases a <;> cases b <;> decide
    | post => cases a <;> decide
  | un a => cases b with
    | bin b => cases a <;> cases b <;> decide
    | un b => cases a <;> cases b <;> decide
    | post => cases a <;> decide
  | post => cases b with
    | bin b => cases b <;> decide
    | un b => cases b <;> decide
    | post => decide

theorem level_lt (a b : Opr) : a.level < b.level ↔ a.priority < b.priority := by
  have := level_le b a
  omega

/-- All exposed operators have at most priority `p`. -/
def RE (p : Nat) (t : PTree) : Prop := ∀ o ∈ t.rightEdge, o.priority ≤ p

/-- All exposed operators have a priority below that of the top of the stack. -/
def LE (t : PTree) : List TM → Prop
  | .bin op _ :: _ => ∀ o ∈ t.leftEdge, o.priority < op.priority
  | .un op _ :: _ => ∀ o ∈ t.leftEdge, o.priority < op.priority
  | _ => True

/-- A stack on which an operand may be put. -/
inductive Open : List TM → Prop where
  | nil : Open []
  | un {op : UnOp} {sp : Span} {st : List TM} (h : Open st) : Open (.un op sp :: st)
  | bin {op : BinOp} {sp : Span} {l : PTree} {st : List TM} (h : Open st) (hl : l.WellPrec) (hr : RE op.priority l)
      (he : LE (.bin op sp l (.leaf .none)) st) : Open (.bin op sp :: .expr l :: st)

/-- The items of a stack. -/
def sitems : List TM → List Item
  | [] => []
  | .expr t :: st => sitems st ++ t.inorder
  | .bin op sp :: st => sitems st ++ [.bin op sp]
  | .un op sp :: st => sitems st ++ [.un op sp]

/-- A stack with an expression on top. -/
def Closed (st : List TM) : Prop := ∃ t r, st = .expr t :: r ∧ Open r ∧ t.WellPrec ∧ LE t r

theorem Open.notExpr {st : List TM} (h : Open st) : topExpr (rms st) = false := by cases h <;> rfl

/-- The operators that stay are above `p`. -/
def Above (p : Nat) : List TM → Prop
  | .bin op _ :: _ => p < op.priority
  | .un op _ :: _ => p < op.priority
  | _ => True

theorem treduceLoop_ok {p : Nat} {e : PTree} {st : List TM} (ho : Open st) (he : e.WellPrec) (hl : LE e st) (hr : RE p e) :
    ∃ t r, treduceLoop p e st = some (.expr t :: r) ∧ Open r ∧ t.WellPrec ∧ LE t r ∧ RE p t ∧ Above p r ∧
      sitems (.expr t :: r) = sitems (.expr e :: st) := by
  induction ho generalizing e with
  | nil => exact ⟨e, [], rfl, .nil, he, trivial, hr, trivial, rfl⟩
  | @un op sp st h ih =>
    unfold treduceLoop
    split
    · next hp => exact ⟨e, _, rfl, .un h, he, hl, hr, hp, rfl⟩
    · next hp =>
      have h1 : (PTree.un op sp e).WellPrec := ⟨he, fun o ho => (level_lt _ _).2 (hl o ho)⟩
      have h2 : LE (PTree.un op sp e) st := by
        unfold LE
        split
        · intro o ho; simp [PTree.leftEdge] at ho
        · intro o ho; simp [PTree.leftEdge] at ho
        · trivial
      have h3 : RE p (PTree.un op sp e) := by
        intro o ho
        rcases List.mem_cons.1 ho with rfl | ho
        · show op.priority ≤ p; omega
        · exact hr o ho
      obtain ⟨t, r, g1, g2, g3, g4, g5, g6, g7⟩ := ih h1 h2 h3
      exact ⟨t, r, g1, g2, g3, g4, g5, g6, by rw [g7]; simp [sitems, PTree.inorder]⟩
  | @bin op sp l st h hwl hrl hle ih =>
    unfold treduceLoop
    split
    · next hp => exact ⟨e, _, rfl, .bin h hwl hrl hle, he, hl, hr, hp, rfl⟩
    · next hp =>
      have h1 : (PTree.bin op sp l e).WellPrec :=
        ⟨hwl, he, fun o ho => (level_le _ _).2 (hrl o ho), fun o ho => (level_lt _ _).2 (hl o ho)⟩
      have h2 : LE (PTree.bin op sp l e) st := by
        unfold LE at hle ⊢
        split
        · exact hle
        · exact hle
        · trivial
      have h3 : RE p (PTree.bin op sp l e) := by
        intro o ho
        rcases List.mem_cons.1 ho with rfl | ho
        · show op.priority ≤ p; omega
        · exact hr o ho
      obtain ⟨t, r, g1, g2, g3, g4, g5, g6, g7⟩ := ih h1 h2 h3
      exact ⟨t, r, g1, g2, g3, g4, g5, g6, by rw [g7]; simp [sitems, PTree.inorder]⟩

theorem le_cons {o : Opr} {t t' : PTree} {st : List TM} (h : LE t st) (ha : Above o.priority st) (he : t'.leftEdge = o :: t.leftEdge) :
    LE t' st := by
  unfold LE Above at *
  split
  · intro o' ho'
    rw [he] at ho'
    rcases List.mem_cons.1 ho' with rfl | ho'
    · exact ha
    · exact h o' ho'
  · intro o' ho'
    rw [he] at ho'
    rcases List.mem_cons.1 ho' with rfl | ho'
    · exact ha
    · exact h o' ho'
  · trivial

/-- The expression on top has nothing exposed on its right that is looser than `p`. -/
def TopRE (p : Nat) : List TM → Prop
  | .expr t :: _ => RE p t
  | _ => True

theorem treduce_ok {p : Nat} {st : List TM} (h : Closed st) (hr : TopRE p st) :
    ∃ t r, treduce p st = some (.expr t :: r) ∧ Open r ∧ t.WellPrec ∧ LE t r ∧ RE p t ∧ Above p r ∧
      sitems (.expr t :: r) = sitems st := by
  obtain ⟨t, r, rfl, h1, h2, h3⟩ := h
  exact treduceLoop_ok h1 h2 h3 hr

/-- The stack after shifting: what kind it is, which items it has. -/
theorem tshift_opd {st : List TM} {e : Ast} (h : Open st) : tshift st (.opd e) = some (.expr (.leaf e) :: st) ∧
    Closed (.expr (.leaf e) :: st) ∧ sitems (.expr (.leaf e) :: st) = sitems st ++ [.opd e] := by
  refine ⟨by cases h <;> rfl, ⟨_, _, rfl, h, trivial, ?_⟩, by simp [sitems, PTree.inorder]⟩
  unfold LE; split
  · intro o ho; simp [PTree.leftEdge] at ho
  · intro o ho; simp [PTree.leftEdge] at ho
  · trivial

theorem tshift_un {st : List TM} {op : UnOp} {sp : Span} (h : Open st) : tshift st (.un op sp) = some (.un op sp :: st) ∧
    Open (.un op sp :: st) ∧ sitems (.un op sp :: st) = sitems st ++ [.un op sp] :=
  ⟨by cases h <;> rfl, .un h, rfl⟩

theorem tshift_bin {st : List TM} {op : BinOp} {sp : Span} (h : Closed st) (hr : TopRE op.priority st) :
    ∃ st', treduce op.priority st = some st' ∧ tshift st (.bin op sp) = some (.bin op sp :: st') ∧ Open (.bin op sp :: st') ∧
      sitems (.bin op sp :: st') = sitems st ++ [.bin op sp] := by
  obtain ⟨t, r, g1, g2, g3, g4, g5, g6, g7⟩ := treduce_ok h hr
  refine ⟨_, g1, ?_, .bin g2 g3 g5 (le_cons (o := .bin op) g4 g6 rfl), ?_⟩
  · simp only [tshift, g1]
  · rw [← g7]; rfl

theorem tshift_post {st : List TM} {p : PostOp} (h : Closed st) (hr : TopRE inPriority st) :
    ∃ t r, treduce inPriority st = some (.expr t :: r) ∧ tshift st (.post p) = some (.expr (.post p t) :: r) ∧
      Closed (.expr (.post p t) :: r) ∧ sitems (.expr (.post p t) :: r) = sitems st ++ [.post p] ∧ RE inPriority t ∧ Closed (.expr t :: r) := by
  obtain ⟨t, r, g1, g2, g3, g4, g5, g6, g7⟩ := treduce_ok h hr
  refine ⟨t, r, g1, ?_, ⟨_, _, rfl, g2, ⟨g3, fun o ho => (level_le _ _).2 (g5 o ho)⟩, le_cons (o := .post) g4 g6 rfl⟩, ?_, g5,
    ⟨t, r, rfl, g2, g3, g4⟩⟩
  · simp only [tshift, g1]
  · rw [← g7]; simp [sitems, PTree.inorder]

/-- Shifting the items of a tree gives the tree. -/
theorem tshifts_tree (t : PTree) (ht : t.WellPrec) (st : List TM) (ho : topExpr (rms st) = false) (hl : LE t st) :
    ∃ st', tshifts st t.inorder = some st' ∧ ∀ p, RE p t → treduce p st' = treduceLoop p t st := by
  induction t generalizing st with
  | leaf e =>
    refine ⟨.expr (.leaf e) :: st, ?_, fun p _ => rfl⟩
    cases st with
    | nil => rfl
    | cons a st => cases a with
      | expr t => cases ho
      | bin => rfl
      | un => rfl
  | bin op sp l r ihl ihr =>
    obtain ⟨h1, h2, h3, h4⟩ := ht
    have hl1 : LE l st := by
      unfold LE at hl ⊢
      split
      · exact fun o ho => hl o (List.mem_cons_of_mem _ ho)
      · exact fun o ho => hl o (List.mem_cons_of_mem _ ho)
      · trivial
    obtain ⟨st1, g1, g2⟩ := ihl h1 st ho hl1
    have g3 := g2 op.priority (fun o ho => (level_le o (.bin op)).1 (h3 o ho))
    have g4 : treduceLoop op.priority l st = some (.expr l :: st) := by
      cases st with
      | nil => rfl
      | cons a st => cases a with
        | expr t => cases ho
        | bin op' sp' =>
          have : op'.priority > op.priority := hl (.bin op) (List.mem_cons_self ..)
          unfold treduceLoop
          rw [if_pos this]
        | un op' sp' =>
          have : op'.priority > op.priority := hl (.bin op) (List.mem_cons_self ..)
          unfold treduceLoop
          rw [if_pos this]
    have g5 : tshifts st (l.inorder ++ [.bin op sp]) = some (.bin op sp :: .expr l :: st) := by
      rw [tshifts_append g1]
      simp only [tshifts, tshift, g3, g4]
    obtain ⟨st2, g6, g7⟩ := ihr h2 (.bin op sp :: .expr l :: st) rfl (fun o ho => (level_lt o (.bin op)).1 (h4 o ho))
    refine ⟨st2, ?_, ?_⟩
    · show tshifts st (l.inorder ++ .bin op sp :: r.inorder) = _
      rw [show l.inorder ++ .bin op sp :: r.inorder = (l.inorder ++ [.bin op sp]) ++ r.inorder by simp, tshifts_append g5, g6]
    · intro p hp
      rw [g7 p (fun o ho => hp o (List.mem_cons_of_mem _ ho))]
      have : op.priority ≤ p := hp (.bin op) (List.mem_cons_self ..)
      conv => lhs; unfold treduceLoop
      rw [if_neg (by omega)]
  | un op sp t ih =>
    obtain ⟨h1, h2⟩ := ht
    obtain ⟨st1, g1, g2⟩ := ih h1 (.un op sp :: st) rfl (fun o ho => (level_lt o (.un op)).1 (h2 o ho))
    refine ⟨st1, ?_, ?_⟩
    · have : tshift st (.un op sp) = some (.un op sp :: st) := by
        cases st with
        | nil => rfl
        | cons a st => cases a with
          | expr t => cases ho
          | bin => rfl
          | un => rfl
      simp only [PTree.inorder, tshifts, this, g1]
    · intro p hp
      rw [g2 p (fun o ho => hp o (List.mem_cons_of_mem _ ho))]
      have : op.priority ≤ p := hp (.un op) (List.mem_cons_self ..)
      conv => lhs; unfold treduceLoop
      rw [if_neg (by omega)]
  | post q t ih =>
    obtain ⟨h1, h2⟩ := ht
    have hl1 : LE t st := by
      unfold LE at hl ⊢
      split
      · exact fun o ho => hl o (List.mem_cons_of_mem _ ho)
      · exact fun o ho => hl o (List.mem_cons_of_mem _ ho)
      · trivial
    obtain ⟨st1, g1, g2⟩ := ih h1 st ho hl1
    have g3 := g2 inPriority (fun o ho => (level_le o .post).1 (h2 o ho))
    have g4 : treduceLoop inPriority t st = some (.expr t :: st) := by
      cases st with
      | nil => rfl
      | cons a st => cases a with
        | expr t => cases ho
        | bin op' sp' =>
          have : op'.priority > inPriority := hl .post (List.mem_cons_self ..)
          unfold treduceLoop
          rw [if_pos this]
        | un op' sp' =>
          have : op'.priority > inPriority := hl .post (List.mem_cons_self ..)
          unfold treduceLoop
          rw [if_pos this]
    refine ⟨.expr (.post q t) :: st, ?_, fun p hp => rfl⟩
    show tshifts st (t.inorder ++ [.post q]) = _
    rw [tshifts_append g1]
    simp only [tshifts, tshift, g3, g4]

theorem priority_lt (o : Opr) : o.priority ≤ 99999 := by
  cases o with
  | bin o => cases o <;> decide
  | un o => cases o <;> decide
  | post => decide

/-- A tree that respects precedence is determined by its items. -/
theorem prec_unique {t t' : PTree} (h : t.WellPrec) (h' : t'.WellPrec) (he : t.inorder = t'.inorder) : t = t' := by
  obtain ⟨st, g1, g2⟩ := tshifts_tree t h [] rfl trivial
  obtain ⟨st', g1', g2'⟩ := tshifts_tree t' h' [] rfl trivial
  rw [he, g1'] at g1
  cases g1
  have e1 := g2 99999 (fun o _ => priority_lt o)
  have e2 := g2' 99999 (fun o _ => priority_lt o)
  rw [e1] at e2
  have e3 : some [TM.expr t] = some [TM.expr t'] := e2
  simpa using e3

/-! ### The parser's stack -/

theorem reduceLoop_rms (p : Nat) (e : PTree) (st : List TM) : ∀ st', treduceLoop p e st = some st' →
    reduceLoop p e.ast (rms st) = .ok (rms st') := by
  fun_induction treduceLoop p e st with
  | case1 => intro st' h; cases h; rfl
  | case2 => intro st' h; cases h
  | case3 e op sp r h =>
    intro st' h'; cases h'
    show reduceLoop p e.ast (.un op sp :: rms r) = _
    unfold reduceLoop
    rw [if_pos h]; rfl
  | case4 e op sp r h ih =>
    intro st' h'
    show reduceLoop p e.ast (.un op sp :: rms r) = _
    unfold reduceLoop
    rw [if_neg h]
    exact ih st' h'
  | case5 e op sp r h =>
    intro st' h'; cases h'
    show reduceLoop p e.ast (.bin op sp :: rms r) = _
    unfold reduceLoop
    rw [if_pos h]; rfl
  | case6 e op sp h l r ih =>
    intro st' h'
    show reduceLoop p e.ast (.bin op sp :: .expr l.ast :: rms r) = _
    unfold reduceLoop
    rw [if_neg h]
    exact ih st' h'
  | case7 => intro st' h; cases h

theorem reduce_rms {p : Nat} {st st' : List TM} (h : treduce p st = some st') : reduce p (rms st) = .ok (rms st') := by
  unfold treduce at h
  split at h
  · exact reduceLoop_rms p _ _ _ h
  · cases h

end SqlParse
