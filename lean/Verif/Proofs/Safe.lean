import Verif.Spec.Ast
import Verif.Spec.Truth
import Verif.Proofs.Meta
/-!
The compositional predicate `SafeT`: what a parser program guarantees about the AST it builds, the issues it
adds, and panics.  The context `Ctx` fixes, once for the whole run, facts about its end ("prophecy"): `E` holds if
an Error issue is added, `hi` bounds the position, `argOK` knows the argument numbers given.
-/
namespace SqlParse

structure Ctx where
  src : List Char
  opts : Opts
  chk : Bool
  n0 : Nat
  E : Prop
  lo : Nat
  hi : Nat
  argOK : Nat → Span → Prop
  /-- the issues that are there in the end -/
  said : Issue → Prop
  /-- whether to keep track of what the issues say -/
  tr : Prop

/-- An Error issue among those after the first `n0`. -/
def HasErr (n0 : Nat) (s : St) : Prop := HasError (s.issues.drop n0)

/-- The prophecy is right about the state `s` (and so about all earlier ones). -/
structure Fut (C : Ctx) (s : St) : Prop where
  err : HasErr C.n0 s → C.E
  hi : s.span.stop ≤ C.hi
  arg : ∀ i sp, s.argLog[i]? = some sp → C.argOK i sp
  say : ∀ i ∈ s.issues.drop C.n0, C.said i

/-- The prophecy that says nothing. -/
structure Ctx.Triv (C : Ctx) : Prop where
  err : C.E
  hi : blen C.src ≤ C.hi
  arg : ∀ i sp, C.argOK i sp
  say : ∀ i, C.said i

structure Inv (C : Ctx) (s : St) : Prop where
  base : BInv s
  src : s.lx.src = C.src
  isrc : s.issueSrc = C.src
  opts : s.opts = C.opts
  chk : s.checked = C.chk
  lo : C.lo ≤ s.span.start
  n0 : C.n0 ≤ s.issues.length
  arg : s.arg = s.argLog.length
  pw : s.argLog.Pairwise (fun a b => a.stop ≤ b.start)
  mark : ∀ a ∈ s.argLog, a.stop ≤ s.span.start ∧ ∃ t, isMarker C.opts t ∧ TokOK C.chk C.src t a
  says : C.tr → ∀ i ∈ s.issues.drop C.n0, i.Truth C.chk C.src C.opts

theorem hasErr_mono {n0 : Nat} {s s' : St} (h : Mono s s') (he : HasErr n0 s) : HasErr n0 s' := by
  obtain ⟨l, h1, -⟩ := h.issues
  obtain ⟨i, hi, he⟩ := he
  refine ⟨i, ?_, he⟩
  rw [h1, List.drop_append]
  exact List.mem_append_left _ hi

theorem Fut.back {C : Ctx} {s s' : St} (h : Mono s s') (hf : Fut C s') : Fut C s := by
  refine ⟨fun he => hf.err (hasErr_mono h he), Nat.le_trans h.stop hf.hi, ?_, ?_⟩
  rotate_left
  · intro i hi
    obtain ⟨l, h1, -⟩ := h.issues
    refine hf.say i ?_
    rw [h1, List.drop_append]
    exact List.mem_append_left _ hi
  intro i sp hi
  obtain ⟨l, h1, -⟩ := h.log
  apply hf.arg
  rw [h1, List.getElem?_append]
  have := (List.getElem?_eq_some_iff.1 hi).1
  rw [if_pos this, hi]

theorem Ctx.Triv.fut {C : Ctx} (h : C.Triv) {s : St} (hb : BInv s) (hs : s.lx.src = C.src) : Fut C s := by
  have := hb.tok.bounds.2.2.2
  rw [hs] at this
  exact ⟨fun _ => h.err, Nat.le_trans this h.hi, fun i sp _ => h.arg i sp, fun i _ => h.say i⟩

/-- The panics that can happen. -/
def Allowed (C : Ctx) (m : String) : Prop :=
  (m = "Span of block" ∧ ∃ v sp, IsToken C.chk C.src (.ident v .WITH) sp) ∨
  ∃ lx, LexInv C.chk lx ∧ lx.src = C.src ∧ lx.nextToken C.chk = .panic m

/-- The source has the keyword TRIGGER. -/
def TrigTok (C : Ctx) : Prop := ∃ v sp, IsToken C.chk C.src (.ident v .TRIGGER) sp

/-- Whether compound statements are permitted has not changed, or a CREATE TRIGGER failed inside its body. -/
def Perm (C : Ctx) (s s' : St) : Prop := s'.permit = s.permit ∨ (C.E ∧ s'.permit = true ∧ TrigTok C)

theorem Perm.trans {C : Ctx} {s s1 s2 : St} (h : Perm C s s1) (h' : Perm C s1 s2) : Perm C s s2 := by
  rcases h' with h' | h'
  · rcases h with h | ⟨h1, h2, h3⟩
    · exact .inl (h'.trans h)
    · exact .inr ⟨h1, h'.trans h2, h3⟩
  · exact .inr h'

/-- What holds after running a program from `s`. -/
def Post (C : Ctx) (s : St) {α : Type} (Q : α → Prop) : Out α → Prop
  | .ok a s' => Fut C s' → Inv C s' ∧ Q a ∧ s'.delim = s.delim ∧ Perm C s s'
  | .err s' => Fut C s' → Inv C s' ∧ C.E ∧ s'.delim = s.delim ∧ Perm C s s'
  | .panic m => C.Triv → Allowed C m
  | .oof => True

/-! ### Goodness of values -/

class HasGood (α : Type) where
  good : Ctx → α → Prop
export HasGood (good)

/-- A span that lies in the part of the source read in this run. -/
structure GoodSpan (C : Ctx) (sp : Span) : Prop where
  b1 : Boundary C.src sp.start
  b2 : Boundary C.src sp.stop
  le : sp.start ≤ sp.stop
  hi : sp.stop ≤ C.hi
  lo : C.E ∨ C.lo ≤ sp.start

/-- An identifier `v` with span `sp`: unless an Error issue is reported it is a word of the source that is not
reserved, or it is quoted there. -/
def IdentOK (C : Ctx) (v : List Char) (sp : Span) : Prop :=
  C.E ∨ ∃ w, slice C.src sp.start sp.stop = some w ∧
    ((w = v ∧ (Keyword.ofStr (upper v)).reserved = false) ∨ w = '`' :: (v ++ ['`']) ∨
     (w = '"' :: (v ++ ['"']) ∧ C.opts.dialect = .postgreSQL))

/-- With `warn_unquoted_identifiers`, an identifier that is not quoted in the source is reported. -/
def Warned (C : Ctx) (v : List Char) (sp : Span) : Prop :=
  C.opts.warnUnquoted = true → v ≠ [] → slice C.src sp.start sp.stop = some v →
    ∃ i, C.said i ∧ i.span = sp ∧ (i.message = .unquoted v ∨ i.message = .reserved v)

/-- A number `n` with span `sp`: unless an Error issue is reported it is the value of the digits there, and
fits into 64 bits. -/
def IntOK (C : Ctx) (n : Nat) (sp : Span) : Prop :=
  C.E ∨ ∃ w, slice C.src sp.start sp.stop = some w ∧ w ≠ [] ∧ (∀ c ∈ w, isDig c = true) ∧ n = decVal w ∧ n < 2 ^ 64

/-- An argument. -/
def ArgOK (C : Ctx) (i : Nat) (sp : Span) : Prop :=
  (C.opts.arguments = .dollar ∧ ∃ n, TokOK C.chk C.src (.dollarArg n) sp ∧ i = dollarIndex n) ∨
  (C.opts.arguments ≠ .dollar ∧ C.argOK i sp)

/-- Which kinds of nodes we say something about. -/
inductive Tag where
  | plain | bad | arg | listHack | tuple | pg | maria | tableRef | dropIndex | update | createIndex | dropTable
  | addColumn | createFunction | withBlock | insert | stdin
  deriving DecidableEq

def nodeTag : Kind → Tag
  | .Invalid => .bad | .Statement_Invalid => .bad | .Function_Unknown => .bad
  | .Arg => .arg | .ListHack => .listHack | .Tuple => .tuple
  | .WithQuery => .pg | .OnConflict => .pg | .LockStrength_NoKeyUpdate => .pg | .LockStrength_KeyShare => .pg
  | .CreateTypeEnum => .pg | .Type_Named => .pg
  | .InsertReplaceOnDuplicateKeyUpdate => .maria
  | .TableReference_Table => .tableRef | .DropIndex => .dropIndex | .Update => .update
  | .CreateIndex => .createIndex | .DropTable => .dropTable | .AlterSpecification_AddColumn => .addColumn
  | .CreateFunction => .createFunction | .WithBlock => .withBlock | .InsertReplace => .insert
  | .Statement_Stdin => .stdin
  | _ => .plain

def isSome' : Ast → Bool
  | .some _ => true
  | _ => false

/-- The flags REPLACE does not allow. -/
def badReplaceFlag (f : Ast) : Bool :=
  decide (f.kind? = some .InsertReplaceFlag_HighPriority) || decide (f.kind? = some .InsertReplaceFlag_Ignore)

/-- What we say about a node. -/
def NodeOK (C : Ctx) (k : Kind) (fs : List Ast) : Prop :=
  match nodeTag k, fs with
  | .plain, _ => True
  | .bad, _ => C.E
  | .arg, [.nat i, .span sp] => ArgOK C i sp
  | .arg, _ => False
  | .listHack, [.nat i, .span sp] => C.argOK i sp ∧ C.opts.listHack = true
  | .listHack, _ => False
  | .tuple, [.nat n, .span sp] => IntOK C n sp
  | .tuple, _ => True
  | .pg, _ => C.E ∨ C.opts.dialect = .postgreSQL
  | .maria, _ => C.E ∨ C.opts.dialect = .mariaDB
  | .tableRef, [_, _, _, .list hints] => hints ≠ [] → C.E ∨ C.opts.dialect = .mariaDB
  | .tableRef, _ => False
  | .dropIndex, [_, _, _, _, on] => C.E ∨ ((isSome' on = false → C.opts.dialect ≠ .mariaDB) ∧
      (isSome' on = true → C.opts.dialect ≠ .postgreSQL))
  | .dropIndex, _ => False
  | .update, [_, _, _, _, _, _, ret] => isSome' ret = true → C.E ∨ C.opts.dialect = .postgreSQL
  | .update, _ => False
  | .createIndex, [_, _, _, _, _, _, _, _, _, _, _, w] => isSome' w = true → C.E ∨ C.opts.dialect ≠ .mariaDB
  | .createIndex, _ => False
  | .dropTable, [_, _, _, _, _, c] => isSome' c = true → C.opts.dialect = .postgreSQL
  | .dropTable, _ => False
  | .addColumn, [_, ine, _, _] => isSome' ine = true → C.E ∨ C.opts.dialect ≠ .mariaDB
  | .addColumn, _ => False
  | .createFunction, [_, _, _, _, _, _, _, _, _, ret] => (isSome' ret = true ↔ C.opts.dialect = .mariaDB)
  | .createFunction, _ => False
  | .withBlock, [_, _, _, st, _] => C.E ∨ withAllowed ⟨st⟩ = true
  | .withBlock, _ => False
  | .insert, [ty, .list flags, _, _, .list cols, vals, sel, set, _, _, _] =>
      C.E ∨ ((isSome' vals, isSome' sel, isSome' set) = (true, false, false) ∨
        (isSome' vals, isSome' sel, isSome' set) = (false, true, false) ∨
        ((isSome' vals, isSome' sel, isSome' set) = (false, false, true) ∧ cols = [])) ∧
        (ty.kind? = some .InsertReplaceType_Insert ∨ ∀ f ∈ flags, badReplaceFlag f = false)
  | .insert, _ => False
  | .stdin, [.str d, .span sp] => slice C.src sp.start sp.stop = some d
  | .stdin, _ => False

/-- What we say about one value in the AST. -/
def LocalOK (C : Ctx) : Ast → Prop
  | .span sp => GoodSpan C sp
  | .ident v sp => GoodSpan C sp ∧ IdentOK C v sp ∧ Warned C v sp
  | .sstring _ sp => GoodSpan C sp
  | .node k fs => NodeOK C k fs
  | _ => True

def AllOK (C : Ctx) (a : Ast) : Prop := ∀ b, a.Has b → LocalOK C b

theorem AllOK.some {C : Ctx} {a : Ast} (h : AllOK C a) : AllOK C (.some a) := by
  intro b hb
  cases hb with
  | refl => trivial
  | some _ _ hb => exact h b hb

theorem AllOK.list {C : Ctx} {l : List Ast} (h : ∀ a ∈ l, AllOK C a) : AllOK C (.list l) := by
  intro b hb
  cases hb with
  | refl => trivial
  | list _ a _ hm hb => exact h a hm b hb

theorem AllOK.node {C : Ctx} {k : Kind} {fs : List Ast} (hn : NodeOK C k fs) (h : ∀ a ∈ fs, AllOK C a) :
    AllOK C (.node k fs) := by
  intro b hb
  cases hb with
  | refl => exact hn
  | node _ _ a _ hm hb => exact h a hm b hb

theorem AllOK.none (C : Ctx) : AllOK C .none := by intro b hb; cases hb; trivial
theorem AllOK.leaf {C : Ctx} {a : Ast} (h : LocalOK C a) (hn : ∀ b, a.Has b → b = a) : AllOK C a := by
  intro b hb; rw [hn b hb]; exact h
theorem AllOK.span {C : Ctx} {sp : Span} (h : GoodSpan C sp) : AllOK C (.span sp) :=
  .leaf h (by intro b hb; cases hb; rfl)
theorem AllOK.ident {C : Ctx} {v : List Char} {sp : Span} (h : GoodSpan C sp) (hi : IdentOK C v sp) (hw : Warned C v sp) : AllOK C (.ident v sp) :=
  .leaf ⟨h, hi, hw⟩ (by intro b hb; cases hb; rfl)
theorem AllOK.sstring {C : Ctx} {v : List Char} {sp : Span} (h : GoodSpan C sp) : AllOK C (.sstring v sp) :=
  .leaf h (by intro b hb; cases hb; rfl)

/-! ### Spans of nodes -/

/-- What is known about the span of a value. -/
inductive Mode where
  /-- it has a span -/
  | must
  /-- asking for the span does not panic -/
  | may
  /-- it has a span, or asking panics (statements) -/
  | stmt
  /-- nothing -/
  | any

def Mode.Holds : Mode → SpanRes → Prop
  | .must, r => ∃ sp, r = .some sp
  | .may, r => r ≠ .panic
  | .stmt, r => r ≠ .none
  | .any, _ => True

def Mode.join : Mode → Mode → Mode
  | .must, .must => .must
  | .must, .may => .must
  | .may, .must => .must
  | .may, .may => .may
  | .may, .any => .any
  | .any, .may => .any
  | .any, .any => .any
  | _, _ => .stmt

/-- `m.le k`: what `m` knows implies what `k` knows -/
def Mode.le : Mode → Mode → Bool
  | .must, _ => true
  | .may, .may => true
  | .stmt, .stmt => true
  | _, .any => true
  | _, _ => false

theorem Mode.le_holds {m k : Mode} {r : SpanRes} (h : m.le k = true) (hr : m.Holds r) : k.Holds r := by
  cases m <;> cases k <;> simp [Mode.le] at h <;> simp_all [Mode.Holds] <;>
    (obtain ⟨sp, rfl⟩ := hr; simp)

theorem Mode.join_holds {m k : Mode} {r q : SpanRes} (h1 : m.Holds r) (h2 : k.Holds q) : (m.join k).Holds (r.join q) := by
  cases m <;> cases k <;> cases r <;> cases q <;> simp_all [Mode.Holds, Mode.join, SpanRes.join]

instance : HasGood Span := ⟨GoodSpan⟩
instance : HasGood Ast := ⟨fun C a => AllOK C a ∧ ∃ sp, a.spanRes = .some sp⟩
instance : HasGood OAst := ⟨fun C a => AllOK C a.ast ∧ a.ast.spanRes ≠ .panic ∧ ∀ n, a.ast ≠ .nat n⟩
instance : HasGood SAst := ⟨fun C a => AllOK C a.ast ∧ a.ast.spanRes ≠ .none⟩
instance : HasGood Nat := ⟨fun _ _ => True⟩
instance : HasGood Bool := ⟨fun _ _ => True⟩
instance : HasGood (List Char) := ⟨fun _ _ => True⟩
instance : HasGood BinOp := ⟨fun _ _ => True⟩
instance : HasGood UnOp := ⟨fun _ _ => True⟩
instance : HasGood Unit := ⟨fun _ _ => True⟩

def optGood {α : Type} [HasGood α] (C : Ctx) : Option α → Prop
  | some a => good C a
  | none => True
instance {α : Type} [HasGood α] : HasGood (Option α) := ⟨optGood⟩
instance (priority := low) {α : Type} [HasGood α] : HasGood (List α) := ⟨fun C l => ∀ a ∈ l, good C a⟩
instance (priority := low) {α β : Type} [HasGood α] [HasGood β] : HasGood (α × β) := ⟨fun C p => good C p.1 ∧ good C p.2⟩
instance : HasGood (Nat × Span) := ⟨fun C p => GoodSpan C p.2 ∧ IntOK C p.1 p.2⟩
instance {σ β : Type} [HasGood σ] [HasGood β] : HasGood (Step σ β) :=
  ⟨fun C x => match x with | .cont s => good C s | .done b => good C b⟩

/-- How a value relates to the AST field that stores it. -/
class Val (α : Type) [ToF α] [HasGood α] where
  mode : Mode
  isNat : Bool
  allOK : ∀ {C : Ctx} {a : α}, good C a → AllOK C (toF a)
  law : ∀ {C : Ctx} {a : α}, good C a → mode.Holds (toF a).spanRes
  notNat : isNat = false → ∀ {C : Ctx} {a : α}, good C a → ∀ n, toF a ≠ Ast.nat n

class NN (α : Type) [ToF α] [HasGood α] [Val α] : Prop where
  nn : Val.isNat α = false

instance : Val Span where
  mode := .must
  isNat := false
  allOK h := .span h
  law h := ⟨_, rfl⟩
  notNat _ _ _ _ n := by simp [toF]
instance : NN Span := ⟨rfl⟩

instance : Val Ast where
  mode := .must
  isNat := false
  allOK h := h.1
  law h := h.2
  notNat _ {C a} h n := by
    rintro (rfl : a = _)
    obtain ⟨sp, h⟩ := h.2
    simp [Ast.spanRes] at h
instance : NN Ast := ⟨rfl⟩

instance : Val OAst where
  mode := .may
  isNat := false
  allOK h := h.1
  law h := h.2.1
  notNat _ _ _ h n := h.2.2 n
instance : NN OAst := ⟨rfl⟩

instance : Val SAst where
  mode := .stmt
  isNat := false
  allOK h := h.1
  law h := h.2
  notNat _ {C a} h n := by
    rintro (hh : a.ast = _)
    exact h.2 (by simp [hh, Ast.spanRes])
instance : NN SAst := ⟨rfl⟩

instance : Val Nat where
  mode := .may
  isNat := true
  allOK h := .leaf trivial (by intro b hb; cases hb; rfl)
  law h := by simp [toF, Ast.spanRes, Mode.Holds]
  notNat h := by cases h

instance : Val Bool where
  mode := .may
  isNat := false
  allOK h := .leaf trivial (by intro b hb; cases hb; rfl)
  law h := by simp [toF, Ast.spanRes, Mode.Holds]
  notNat _ _ _ h n := by simp [toF]
instance : NN Bool := ⟨rfl⟩

instance : Val (List Char) where
  mode := .may
  isNat := false
  allOK h := .leaf trivial (by intro b hb; cases hb; rfl)
  law h := by simp [toF, Ast.spanRes, Mode.Holds]
  notNat _ _ _ h n := by simp [toF]
instance : NN (List Char) := ⟨rfl⟩

instance : Val BinOp where
  mode := .may
  isNat := false
  allOK h := .leaf trivial (by intro b hb; cases hb; rfl)
  law h := by simp [toF, Ast.spanRes, Mode.Holds]
  notNat _ _ _ h n := by simp [toF]
instance : NN BinOp := ⟨rfl⟩

instance : Val UnOp where
  mode := .may
  isNat := false
  allOK h := .leaf trivial (by intro b hb; cases hb; rfl)
  law h := by simp [toF, Ast.spanRes, Mode.Holds]
  notNat _ _ _ h n := by simp [toF]
instance : NN UnOp := ⟨rfl⟩

/-- Mode of an optional value or of a list. -/
def Mode.opt : Mode → Mode
  | .must => .may
  | .may => .may
  | _ => .any

theorem Mode.opt_holds {m : Mode} {r : SpanRes} (h : m.Holds r) : m.opt.Holds r := by
  cases m <;> simp_all [Mode.Holds, Mode.opt]
  obtain ⟨sp, rfl⟩ := h; simp

theorem Mode.opt_none (m : Mode) : m.opt.Holds .none := by cases m <;> simp [Mode.Holds, Mode.opt]
theorem Mode.opt_join (m : Mode) : (m.opt.join m.opt) = m.opt := by cases m <;> rfl

instance {α : Type} [ToF α] [HasGood α] [v : Val α] : Val (Option α) where
  mode := v.mode.opt
  isNat := false
  allOK {C a} h := by
    cases a with
    | none => exact .none C
    | some a => exact .some (v.allOK h)
  law {C a} h := by
    cases a with
    | none => exact Mode.opt_none _
    | some a => exact Mode.opt_holds (v.law h)
  notNat _ {C a} h n := by cases a <;> simp [toF]
instance {α : Type} [ToF α] [HasGood α] [Val α] : NN (Option α) := ⟨rfl⟩

theorem list_law {α : Type} [ToF α] [HasGood α] [v : Val α] {C : Ctx} (l : List α) (h : ∀ a ∈ l, good C a) (i : Nat) :
    v.mode.opt.Holds (spanResList [] i (l.map toF)) := by
  induction l generalizing i with
  | nil => exact Mode.opt_none _
  | cons a l ih =>
    rw [List.map_cons, spanResList]
    simp only [List.contains_nil, Bool.false_eq_true, if_false]
    rw [← Mode.opt_join]
    exact Mode.join_holds (Mode.opt_holds (v.law (h a (by simp)))) (ih (fun b hb => h b (by simp [hb])) _)

instance (priority := low) {α : Type} [ToF α] [HasGood α] [v : Val α] : Val (List α) where
  mode := v.mode.opt
  isNat := false
  allOK {C a} h := .list (by
    intro b hb
    obtain ⟨x, hx, rfl⟩ := List.mem_map.1 hb
    exact v.allOK (h x hx))
  law {C a} h := by
    show v.mode.opt.Holds (Ast.spanRes (Ast.list (a.map toF)))
    rw [Ast.spanRes]
    exact list_law a h 0
  notNat _ _ _ h n := by simp [toF]
instance (priority := low) {α : Type} [ToF α] [HasGood α] [Val α] : NN (List α) := ⟨rfl⟩

theorem tuple_spanRes (a b : Ast) : (Ast.node .Tuple [a, b]).spanRes = a.spanRes.join b.spanRes := by
  have h1 : kindOmit .Tuple = [] := rfl
  have h2 : kindIsBlock .Tuple = false := rfl
  simp only [Ast.spanRes, h1, h2, spanResList]
  simp
  cases a.spanRes <;> cases b.spanRes <;> simp [SpanRes.join]

instance (priority := low) {α β : Type} [ToF α] [ToF β] [HasGood α] [HasGood β] [v : Val α] [w : Val β] [NN α] : Val (α × β) where
  mode := v.mode.join w.mode
  isNat := false
  allOK {C a} h := by
    refine .node ?_ ?_
    · have := v.notNat NN.nn h.1
      show NodeOK C .Tuple [toF a.1, toF a.2]
      simp only [NodeOK, nodeTag]
      split <;> simp_all
    · intro x hx
      simp at hx
      rcases hx with rfl | rfl
      · exact v.allOK h.1
      · exact w.allOK h.2
  law {C a} h := by
    show Mode.Holds _ (Ast.spanRes (.node .Tuple [toF a.1, toF a.2]))
    rw [tuple_spanRes]
    exact Mode.join_holds (v.law h.1) (w.law h.2)
  notNat _ _ _ h n := by simp [toF]
instance (priority := low) {α β : Type} [ToF α] [ToF β] [HasGood α] [HasGood β] [Val α] [Val β] [NN α] : NN (α × β) := ⟨rfl⟩

instance : Val (Nat × Span) where
  mode := .must
  isNat := false
  allOK {C a} h := by
    refine .node h.2 ?_
    intro x hx
    simp at hx
    rcases hx with rfl | rfl
    · exact Val.allOK (α := Nat) (C := C) (a := a.1) trivial
    · exact .span h.1
  law {C a} h := by
    show Mode.Holds _ (Ast.spanRes (.node .Tuple [toF a.1, toF a.2]))
    rw [tuple_spanRes]
    exact ⟨a.2, rfl⟩
  notNat _ _ _ h n := by simp [toF]
instance : NN (Nat × Span) := ⟨rfl⟩

/-! ### Building nodes -/

/-- Facts about the fields `fs` from position `i` on. -/
def FL (C : Ctx) (om : List Nat) (i : Nat) (fs : List Ast) (m : Mode) : Prop :=
  (∀ f ∈ fs, AllOK C f) ∧ m.Holds (spanResList om i fs)

theorem FL.nil (C : Ctx) (om : List Nat) (i : Nat) : FL C om i [] .may :=
  ⟨by simp, by simp [spanResList, Mode.Holds]⟩

theorem FL.cons {C : Ctx} {om : List Nat} {i : Nat} {fs : List Ast} {m : Mode} {α : Type} [ToF α] [HasGood α] [v : Val α]
    {a : α} (ha : good C a) (h : FL C om (i + 1) fs m) :
    FL C om i (toF a :: fs) (if om.contains i then m else v.mode.join m) := by
  refine ⟨?_, ?_⟩
  · intro f hf
    rcases List.mem_cons.1 hf with rfl | hf
    · exact v.allOK ha
    · exact h.1 f hf
  · rw [spanResList]
    split
    · exact h.2
    · exact Mode.join_holds (v.law ha) h.2

/-- Mode of a node from that of its fields. -/
def Mode.node (k : Kind) (m : Mode) : Mode := if kindIsBlock k then (if m.le .must then .must else .stmt) else m

theorem FL.node {C : Ctx} {k : Kind} {fs : List Ast} {m : Mode} (h : FL C (kindOmit k) 0 fs m) :
    (Mode.node k m).Holds (Ast.node k fs).spanRes := by
  have h2 := h.2
  rw [Ast.spanRes]
  revert h2
  generalize spanResList (kindOmit k) 0 fs = r
  intro h2
  unfold Mode.node
  cases hb : kindIsBlock k with
  | false => cases r <;> simp_all [Mode.Holds]
  | true =>
    simp only [if_true]
    split
    · next hm =>
      have := Mode.le_holds hm h2
      obtain ⟨sp, rfl⟩ := this
      exact ⟨sp, rfl⟩
    · cases r <;> simp [Mode.Holds]

theorem nd_good {C : Ctx} {k : Kind} {fs : List Ast} (m : Mode) (h : FL C (kindOmit k) 0 fs m)
    (hm : (Mode.node k m).le .must = true) (hn : NodeOK C k fs) : good C (Ast.node k fs) :=
  ⟨.node hn h.1, Mode.le_holds hm h.node⟩

theorem ond_good {C : Ctx} {k : Kind} {fs : List Ast} (m : Mode) (h : FL C (kindOmit k) 0 fs m)
    (hm : (Mode.node k m).le .may = true) (hn : NodeOK C k fs) : good C (OAst.mk (Ast.node k fs)) :=
  ⟨.node hn h.1, Mode.le_holds hm h.node, by simp⟩

theorem snd_good {C : Ctx} {k : Kind} {fs : List Ast} (m : Mode) (h : FL C (kindOmit k) 0 fs m)
    (hm : (Mode.node k m).le .stmt = true) (hn : NodeOK C k fs) : good C (SAst.mk (Ast.node k fs)) :=
  ⟨.node hn h.1, Mode.le_holds hm h.node⟩

theorem sast_good {C : Ctx} {a : Ast} (h : good C a) : good C (SAst.mk a) := by
  obtain ⟨h, sp, hs⟩ := h
  exact ⟨h, by simp [hs]⟩

theorem joinSpan_good {C : Ctx} {a b : Span} (ha : good C a) (hb : good C b) : good C (joinSpan a b) := by
  obtain ⟨a1, a2, a3, a4, a5⟩ := ha
  obtain ⟨b1, b2, b3, b4, b5⟩ := hb
  refine ⟨?_, ?_, ?_, ?_, ?_⟩
  · simp only [joinSpan]; rcases Nat.le_total a.start b.start with h | h
    · rw [Nat.min_eq_left h]; exact a1
    · rw [Nat.min_eq_right h]; exact b1
  · simp only [joinSpan]; rcases Nat.le_total a.stop b.stop with h | h
    · rw [Nat.max_eq_right h]; exact b2
    · rw [Nat.max_eq_left h]; exact a2
  · simp only [joinSpan]; omega
  · simp only [joinSpan]; omega
  · rcases a5 with h | h
    · exact .inl h
    · rcases b5 with h' | h'
      · exact .inl h'
      · exact .inr (by simp only [joinSpan]; omega)

end SqlParse
