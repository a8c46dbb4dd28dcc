import Verif.Proofs.Compose
import Verif.Proofs.Shift
import Verif.Theorems.Layout
import Verif.Spec.Compose
/-! The second part `b` of a source `a ++ u ++ b`: the run on `b`, moved. -/
namespace SqlParse

/-! ### The lexer between the parts -/

theorem nextLoop_more {chk : Bool} {src : List Char} {n k start : Nat} {cs : List Char} (hk : n ≤ k)
    (h : nextLoop chk src n start cs ≠ .panic "out of fuel") : nextLoop chk src k start cs = nextLoop chk src n start cs := by
  induction n generalizing k start cs with
  | zero => exact absurd rfl h
  | succ n ih =>
    obtain ⟨k, rfl⟩ : ∃ j, k = j + 1 := ⟨k - 1, by omega⟩
    cases cs with
    | nil => rfl
    | cons c cs =>
      unfold nextLoop at h ⊢
      split
      · next e => rw [e] at h; exact ih (by omega) h
      · rfl
      · rfl
      · rfl

theorem nextLoop_enough {chk : Bool} {pre cs : List Char} {n : Nat} (hn : cs.length < n) :
    nextLoop chk (pre ++ cs) n (blen pre) cs ≠ .panic "out of fuel" := by
  have := nextLoop_spec chk (pre ++ cs) n pre cs rfl hn
  intro e
  rw [e] at this
  obtain ⟨-, -, -, -, ⟨h, -⟩ | ⟨h, -⟩⟩ := this
  · exact absurd h (by decide)
  · exact absurd h (by decide)

/-- The first token after the first part is the first token of the second part. -/
theorem nextToken_between (chk : Bool) (a u b : List Char) (hs : Skipped u b) :
    (Lexer.mk (a ++ (u ++ b)) (blen a) (u ++ b)).nextToken chk = ((Lexer.new b).nextToken chk).shift (a ++ u) := by
  rw [← nextToken_shift]
  simp only [Lexer.nextToken, Lexer.shift, Lexer.new, Nat.zero_add]
  obtain ⟨m, hm, h1⟩ := skipped_steps chk ((u ++ b).length + 1) a u b hs (by simp; omega)
  rw [h1]
  simp only [List.length_append] at hm
  rw [← List.append_assoc]
  exact nextLoop_more (by omega) (nextLoop_enough (by omega))

/-! ### The lexer in the first part -/

theorem toSemi_of_scan {chk : Bool} {a : List Char} {p : Nat} {e : Span} : ∀ (toks : List (Token × Span)) (l : Lexer), LexInv chk l → l.src = a →
    Scan chk l (toks ++ [(.semiColon, ⟨p, blen a⟩), (.eof, e)]) → ToSemi chk a l := by
  intro toks
  induction toks with
  | nil =>
    intro l hl hsrc h
    cases h with
    | cons h ht hs =>
      obtain ⟨i1, i2, -, -, i3, -⟩ := nextToken_inv hl h
      refine .step h ht (.inl rfl) (i2.trans hsrc) (.stop ?_ i3.symm)
      obtain ⟨⟨pre, e1, e2⟩, -⟩ := i1
      rw [i2, hsrc] at e1
      rw [← i3] at e2
      have e3 := congrArg blen e1
      rw [blen_append] at e3
      simp only at e2
      refine Classical.byContradiction fun hr => ?_
      have := blen_pos_of_ne hr
      omega
  | cons q toks ih =>
    intro l hl hsrc h
    obtain ⟨t, sp⟩ := q
    rw [List.cons_append] at h
    generalize hL : toks ++ [(Token.semiColon, ⟨p, blen a⟩), (.eof, e)] = L at h
    cases h with
    | last h => simp at hL
    | @cons _ m _ _ _ h ht hs =>
      obtain ⟨i1, i2, -, -, i3, -⟩ := nextToken_inv hl h
      subst hL
      refine .step h ht (.inr ?_) (i2.trans hsrc) (ih _ i1 (i2.trans hsrc) hs)
      intro hr
      cases toks with
      | nil => cases hs with | cons h' _ _ => rw [nextToken_nil hr] at h'; cases h'
      | cons q' toks =>
        rw [List.cons_append] at hs
        generalize hL : toks ++ [(Token.semiColon, ⟨p, blen a⟩), (.eof, e)] = L at hs
        cases hs with
        | last h' => simp at hL
        | cons h' ht' _ => rw [nextToken_nil hr] at h'; cases h'; exact ht' rfl

theorem scan_ne_nil {chk : Bool} {l : Lexer} {toks : List (Token × Span)} {q e : Token × Span} (h : Scan chk l (toks ++ [q, e])) :
    l.rest ≠ [] := by
  intro hr
  have hn := nextToken_nil (chk := chk) hr
  generalize hL : toks ++ [q, e] = L at h
  cases h with
  | last h => cases toks <;> simp at hL
  | cons h ht _ => rw [hn] at h; cases h; exact ht rfl

theorem new_cutR {chk : Bool} {a b : List Char} {toks : List (Token × Span)} (h : EndsInSemicolon chk a toks) {old : List Issue} {opts : Opts}
    {s : St} (hs : St.new chk a ⟨a, old⟩ opts = .ok () s) :
    ∃ t, St.new chk (a ++ b) ⟨a ++ b, old⟩ opts = .ok () t ∧ CutR chk a b s t := by
  obtain ⟨p, h⟩ := h
  have hl : CutL chk a b (Lexer.new a) (Lexer.new (a ++ b)) := ⟨rfl, rfl, toSemi_of_scan toks _ (lexInv_new chk a) rfl h⟩
  obtain ⟨t, sp, m, m', e1, e2, e3, e4⟩ := hl.next (scan_ne_nil h)
  unfold St.new at hs ⊢
  rw [e1] at hs
  rw [e2]
  cases hs
  exact ⟨_, rfl, ⟨e4, rfl, rfl, rfl, e3, nofun⟩⟩

/-! ### The result list so far does not matter -/

def Out.map {α β : Type} (f : α → β) : Out α → Out β
  | .ok a s => .ok (f a) s
  | .err s => .err s
  | .panic m => .panic m
  | .oof => .oof

variable {R : ∀ α, Fn α → St → Out α} {n : Nat}

/-- `q` is `p` with another result. -/
def Same (R : ∀ α, Fn α → St → Out α) (n : Nat) {α β : Type} (f : α → β) (p : Prog α) (q : Prog β) : Prop :=
  ∀ s, runWith R n q s = (runWith R n p s).map f

theorem Same.bind {α β γ : Type} {f : β → γ} {p : Prog α} {g : α → Prog β} {h : α → Prog γ} (hg : ∀ a, Same R n f (g a) (h a)) :
    Same R n f (p >>= g) (p >>= h) := by
  intro s
  show runWith R n (.bind p h) s = (runWith R n (.bind p g) s).map f
  unfold runWith
  cases runWith R n p s with
  | ok a s' => exact hg a s'
  | err s' => rfl
  | panic m => rfl
  | oof => rfl

theorem Same.bind2 {α α' β γ : Type} {f : β → γ} {e : α → α'} {p : Prog α} {q : Prog α'} {g : α → Prog β} {h : α' → Prog γ} (hp : Same R n e p q)
    (hg : ∀ a, Same R n f (g a) (h (e a))) : Same R n f (p >>= g) (q >>= h) := by
  intro s
  show runWith R n (.bind q h) s = (runWith R n (.bind p g) s).map f
  unfold runWith
  rw [hp s]
  cases runWith R n p s with
  | ok a s' => exact hg a s'
  | err s' => rfl
  | panic m => rfl
  | oof => rfl

theorem Same.ret {α β : Type} {f : α → β} {a : α} {b : β} (h : b = f a) : Same R n f (pure a : Prog α) (pure b) := by
  intro s; subst h; rfl

theorem Same.ite {c : Prop} [Decidable c] {α β : Type} {f : α → β} {p p' : Prog α} {q q' : Prog β} (h : Same R n f p q) (h' : Same R n f p' q') :
    Same R n f (if c then p else p') (if c then q else q') := by
  by_cases hc : c
  · rw [if_pos hc, if_pos hc]; exact h
  · rw [if_neg hc, if_neg hc]; exact h'

/-- put `acc` in front -/
def inFront (acc : List SAst) : Step (List SAst) (List SAst) → Step (List SAst) (List SAst)
  | .cont l => .cont (acc ++ l)
  | .done l => .done (acc ++ l)

theorem afterDelim_same (acc l : List SAst) (b : Bool) : Same R n (acc ++ ·) (afterDelim l b) (afterDelim (acc ++ l) b) := by
  unfold afterDelim
  refine .ite (.bind fun x => .ret (by simp)) (.bind fun x => .bind fun y => ?_)
  cases y with
  | none => intro s; rfl
  | some y => exact .ret rfl

theorem finishStatement_same (acc l : List SAst) (r : Option SAst) : Same R n (inFront acc) (finishStatement l r) (finishStatement (acc ++ l) r) := by
  unfold finishStatement
  refine .bind fun x => .bind fun y => .bind fun z => .ite (.ret (by simp [inFront])) ?_
  refine .bind2 (e := (acc ++ ·)) ?_ (fun x => .ret rfl)
  rw [List.append_assoc]
  exact afterDelim_same _ _ _

theorem statementsStep_same (acc l : List SAst) : Same R n (inFront acc) (statementsStep l) (statementsStep (acc ++ l)) := by
  unfold statementsStep
  refine .bind fun x => .ite (.ret rfl) (.bind fun y => ?_)
  cases y with
  | none => exact .bind fun z => finishStatement_same _ _ _
  | some z => exact .bind fun z => .ret rfl

theorem loop_same (acc l : List SAst) : Same R n (acc ++ ·) (.loop statementsStep l) (.loop statementsStep (acc ++ l)) := by
  intro s
  unfold runWith
  have : ∀ k l s, loopN (fun x s => runWith R n (statementsStep x) s) k (acc ++ l) s =
      (loopN (fun x s => runWith R n (statementsStep x) s) k l s).map (acc ++ ·) := by
    intro k
    induction k with
    | zero => intro l s; rfl
    | succ k ih =>
      intro l s
      unfold loopN
      rw [statementsStep_same acc l s]
      cases runWith R n (statementsStep l) s with
      | ok x s' =>
        cases x with
        | cont x => exact ih _ _
        | done x => rfl
      | err s' => rfl
      | panic m => rfl
      | oof => rfl
  exact this n l s

theorem statements_acc (n : Nat) (acc : List SAst) (s : St) :
    (Prog.loop statementsStep acc).run n s = (statements.run n s).map (acc ++ ·) := by
  have := loop_same (R := runFn n) (n := n) acc [] s
  rw [List.append_nil] at this
  exact this

/-! ### The run on the second part -/

theorem movedPos_min {d x x' y y' : Nat} (h : MovedPos d x x') (h' : MovedPos d y y') : MovedPos d (min x y) (min x' y') := by
  unfold MovedPos at *; omega
theorem movedPos_max {d x x' y y' : Nat} (h : MovedPos d x x') (h' : MovedPos d y y') : MovedPos d (max x y) (max x' y') := by
  unfold MovedPos at *; omega

theorem tokR_refl {ok : Keyword → Prop} (hk : ∀ k, ok k) (t : Token) : TokR (fun _ v w => v = w) (· = ·) ok t t :=
  alike_tok (alikeTok_refl t) (fun _ k _ => hk k)

/-- The run on `b` and the run on `c ++ b`, from the beginning of `b` on, `k` markers having been counted. -/
def shiftPar (chk : Bool) (c : List Char) (opts : Opts) (k : Nat) (old old' : List Issue) : Par where
  P := MovedPos (blen c)
  Q := MovedPos (blen c)
  p0 := .inr ⟨rfl, rfl⟩
  q0 := .inr ⟨rfl, rfl⟩
  pmin := movedPos_min
  qmax := movedPos_max
  txt := fun _ v w => v = w
  str := (· = ·)
  V := (· = ·)
  vnil := rfl
  vtxt := id
  vstr := id
  S := (· = ·)
  srefl := fun _ => rfl
  stxt := id
  W := (· = ·)
  wapp := by rintro _ _ _ _ rfl rfl; rfl
  wsingle := by rintro _ _ rfl; rfl
  wdouble := by rintro _ _ rfl; rfl
  ok := fun _ => True
  opts := opts
  chk := chk
  k := k
  caps := by rintro _ _ _ _ _ rfl; rfl
  interval := fun _ _ _ h => h
  delims := fun _ => tok_one (fun _ => oneToOne_eq) oneToOne_eq
  B := fun l l' => l' = l.shift c
  next := by
    rintro l _ rfl
    rw [nextToken_shift]
    cases l.nextToken chk with
    | ok t sp m => exact .inr ⟨t, t, _, _, m, _, rfl, rfl, tokR_refl (fun _ => trivial) t, ⟨.inl rfl, .inl rfl⟩, rfl⟩
    | panic m => exact .inl ⟨m, rfl, rfl⟩
  stdin := by
    rintro - l _ rfl
    rw [readStdin_shift]
    cases l.readStdin with
    | none => exact .inl ⟨rfl, rfl⟩
    | some r => exact .inr ⟨r.1, r.2.1, _, r.2.2, _, rfl, rfl, ⟨.inl rfl, .inl rfl⟩, rfl⟩
  pre := old
  pre' := old'

mutual
theorem arel_moved {chk : Bool} {c : List Char} {opts : Opts} {k : Nat} {old old' : List Issue} : ∀ {a b : Ast},
    ARel (shiftPar chk c opts k old old') a b → Moved (blen c) (argsBefore opts k) k a b
  | _, _, .span h => .span h
  | _, _, .str h => by cases h; exact .str _
  | _, _, .nat n => .nat n
  | _, _, .bool b => .bool b
  | _, _, .ident h h' => by cases h; exact .ident _ h'
  | _, _, .sstring h h' => by cases h; exact .sstring _ h'
  | _, _, .binop o => .binop o
  | _, _, .unop o => .unop o
  | _, _, .none => .none
  | _, _, .some h => .some (arel_moved h)
  | _, _, .list h => .list (arelL_moved h)
  | _, _, .node hk h => .node (by constructor <;> (rintro rfl; cases hk)) (arelL_moved h)
  | _, _, .copy _ h => .node (by simp) (arelL_moved h)
  | _, _, .arg h => .arg h
  | _, _, .listHack h => .listHack h
theorem arelL_moved {chk : Bool} {c : List Char} {opts : Opts} {k : Nat} {old old' : List Issue} : ∀ {a b : List Ast},
    ARelL (shiftPar chk c opts k old old') a b → MovedAll (blen c) (argsBefore opts k) k a b
  | _, _, .nil => .nil
  | _, _, .cons h hl => .cons (arel_moved h) (arelL_moved hl)
end

theorem issues_moved {chk : Bool} {c : List Char} {opts : Opts} {k : Nat} {old old' l m : List Issue}
    (h : listR (issueR (shiftPar chk c opts k old old')) l m) : Each (MovedIssue (blen c)) l m := by
  refine each_listR (listR_imp ?_ h)
  rintro i j ⟨g1, g2, g3, g4⟩
  exact ⟨g1, twinMsg_text g2, g3, each_listR g4⟩

end SqlParse
