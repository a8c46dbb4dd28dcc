import Verif.Proofs.Kw
import Verif.Model.Statement
import Verif.Spec.Twin
/-! A relational logic for parser programs: two runs of the same program on two sources whose tokens correspond.

`Par` says how two runs may differ: positions, texts of identifiers and strings, argument numbers.  `PR E Q p q` says
that `p` and `q`, started in corresponding states, end in corresponding states, with results related by `Q`. -/
namespace SqlParse

/-- Tokens whose text is opaque to the parser. -/
def Token.noText : Token → Bool
  | .ident _ _ => false
  | .singleQuotedString _ => false
  | .doubleQuotedString _ => false
  | _ => true

/-- Corresponding tokens: the same up to the text of words (of the same keyword) and of strings. -/
inductive TokR (txt : Keyword → List Char → List Char → Prop) (str : List Char → List Char → Prop) (ok : Keyword → Prop) : Token → Token → Prop where
  | same {t : Token} (h : t.noText = true) : TokR txt str ok t t
  | ident {v w : List Char} {k : Keyword} (h : txt k v w) (hk : ok k) : TokR txt str ok (.ident v k) (.ident w k)
  | single {v w : List Char} (h : str v w) : TokR txt str ok (.singleQuotedString v) (.singleQuotedString w)
  | double {v w : List Char} (h : str v w) : TokR txt str ok (.doubleQuotedString v) (.doubleQuotedString w)

/-- How two runs may differ. -/
structure Par where
  /-- positions at which tokens start, and end -/
  P : Nat → Nat → Prop
  Q : Nat → Nat → Prop
  p0 : P 0 0
  q0 : Q 0 0
  pmin : ∀ {a a' b b'}, P a a' → P b b' → P (min a b) (min a' b')
  qmax : ∀ {a a' b b'}, Q a a' → Q b b' → Q (max a b) (max a' b')
  /-- texts of words and of strings -/
  txt : Keyword → List Char → List Char → Prop
  str : List Char → List Char → Prop
  /-- texts of identifiers in the AST -/
  V : List Char → List Char → Prop
  vnil : V [] []
  vtxt : ∀ {k v w}, txt k v w → V v w
  vstr : ∀ {v w}, str v w → V v w
  /-- other texts in the AST -/
  S : List Char → List Char → Prop
  srefl : ∀ v, S v v
  stxt : ∀ {k v w}, txt k v w → S v w
  /-- values of strings in the AST -/
  W : List Char → List Char → Prop
  wapp : ∀ {a a' b b'}, W a a' → W b b' → W (a ++ b) (a' ++ b')
  wsingle : ∀ {v w}, str v w → W (decodeSingle v) (decodeSingle w)
  wdouble : ∀ {v w}, str v w → W (decodeDouble v) (decodeDouble w)
  /-- the words that occur -/
  ok : Keyword → Prop
  opts : Opts
  chk : Bool
  /-- difference of the argument counters -/
  k : Nat
  caps : opts.warnCaps = true → ∀ {k v w}, k.isWord = true → txt k v w → allUpper v = allUpper w
  interval : ok .INTERVAL → ∀ {v w}, str v w → v = w
  delims : ok .DELIMITER → ∀ {t t' u u'}, TokR txt str ok t t' → TokR txt str ok u u' → (t = u ↔ t' = u')
  /-- corresponding lexers -/
  B : Lexer → Lexer → Prop
  next : ∀ {l l'}, B l l' → (∃ m, l.nextToken chk = .panic m ∧ l'.nextToken chk = .panic m) ∨
    ∃ t t' sp sp' m m', l.nextToken chk = .ok t sp m ∧ l'.nextToken chk = .ok t' sp' m' ∧ TokR txt str ok t t' ∧
      (P sp.start sp'.start ∧ Q sp.stop sp'.stop) ∧ B m m'
  stdin : ok .COPY → ∀ {l l'}, B l l' → (l.readStdin = none ∧ l'.readStdin = none) ∨
    ∃ d sp sp' m m', l.readStdin = some (d, sp, m) ∧ l'.readStdin = some (d, sp', m') ∧
      (P sp.start sp'.start ∧ Q sp.stop sp'.stop) ∧ B m m'
  /-- the issues before -/
  pre : List Issue
  pre' : List Issue

variable (E : Par)

abbrev Par.tok : Token → Token → Prop := TokR E.txt E.str E.ok
/-- corresponding spans -/
def Par.sp (s t : Span) : Prop := E.P s.start t.start ∧ E.Q s.stop t.stop
/-- corresponding delimiters (without the word DELIMITER, only `;`) -/
def Par.dl (d d' : Token) : Prop := (∀ t t', E.tok t t' → (t = d ↔ t' = d')) ∧ (¬ E.ok .DELIMITER → d = .semiColon) ∧ d.name = d'.name
/-- difference of the numbers in `Arg` nodes -/
def Par.argShift : Nat := if E.opts.arguments = .dollar then 0 else E.k

/-- Kinds of nodes that are treated alike. -/
def Kind.alike (k : Kind) : _root_.Bool := !(decide (k = .Arg) || decide (k = .ListHack) || decide (k = .Copy))

mutual
/-- Corresponding ASTs. -/
inductive ARel (E : Par) : Ast → Ast → Prop where
  | span {s t} (h : E.sp s t) : ARel E (.span s) (.span t)
  | str {v w} (h : E.S v w) : ARel E (.str v) (.str w)
  | nat (n) : ARel E (.nat n) (.nat n)
  | bool (b) : ARel E (.bool b) (.bool b)
  | ident {v w s t} (h : E.V v w) (hs : E.sp s t) : ARel E (.ident v s) (.ident w t)
  | sstring {v w s t} (h : E.W v w) (hs : E.sp s t) : ARel E (.sstring v s) (.sstring w t)
  | binop (o) : ARel E (.binop o) (.binop o)
  | unop (o) : ARel E (.unop o) (.unop o)
  | none : ARel E .none .none
  | some {a b} (h : ARel E a b) : ARel E (.some a) (.some b)
  | list {l m} (h : ARelL E l m) : ARel E (.list l) (.list m)
  | node {k fs gs} (hk : k.alike = true) (h : ARelL E fs gs) : ARel E (.node k fs) (.node k gs)
  | copy {fs gs} (hk : E.ok .COPY) (h : ARelL E fs gs) : ARel E (.node .Copy fs) (.node .Copy gs)
  | arg {i s t} (h : E.sp s t) : ARel E (.node .Arg [.nat i, .span s]) (.node .Arg [.nat (i + E.argShift), .span t])
  | listHack {i s t} (h : E.sp s t) : ARel E (.node .ListHack [.nat i, .span s]) (.node .ListHack [.nat (i + E.k), .span t])
inductive ARelL (E : Par) : List Ast → List Ast → Prop where
  | nil : ARelL E [] []
  | cons {a b l m} (h : ARel E a b) (hl : ARelL E l m) : ARelL E (a :: l) (b :: m)
end

/-! ### Values -/

/-- Corresponding values. -/
class VRel (α : Type) where
  vr : Par → α → α → Prop
export VRel (vr)

instance : VRel Token := ⟨fun E => E.tok⟩
instance : VRel Span := ⟨fun E => E.sp⟩
instance : VRel Ast := ⟨ARel⟩
instance : VRel OAst := ⟨fun E a b => ARel E a.ast b.ast⟩
instance : VRel SAst := ⟨fun E a b => ARel E a.ast b.ast⟩
instance : VRel Nat := ⟨fun _ a b => a = b⟩
instance : VRel Bool := ⟨fun _ a b => a = b⟩
instance : VRel Unit := ⟨fun _ a b => a = b⟩
instance : VRel Keyword := ⟨fun _ a b => a = b⟩
instance : VRel Dialect := ⟨fun _ a b => a = b⟩
instance : VRel Arguments := ⟨fun _ a b => a = b⟩
instance : VRel BinOp := ⟨fun _ a b => a = b⟩
instance : VRel UnOp := ⟨fun _ a b => a = b⟩
instance : VRel (List Char) := ⟨fun E => E.S⟩

def optR {α : Type} (R : α → α → Prop) : Option α → Option α → Prop
  | .none, .none => True
  | .some a, .some b => R a b
  | _, _ => False
instance {α : Type} [VRel α] : VRel (Option α) := ⟨fun E => optR (vr E)⟩

def listR {α : Type} (R : α → α → Prop) : List α → List α → Prop
  | [], [] => True
  | a :: l, b :: m => R a b ∧ listR R l m
  | _, _ => False
instance (priority := low) {α : Type} [VRel α] : VRel (List α) := ⟨fun E => listR (vr E)⟩

instance {α β : Type} [VRel α] [VRel β] : VRel (α × β) := ⟨fun E a b => vr E a.1 b.1 ∧ vr E a.2 b.2⟩

def stepR {α β : Type} (R : α → α → Prop) (S : β → β → Prop) : Step α β → Step α β → Prop
  | .cont a, .cont b => R a b
  | .done a, .done b => S a b
  | _, _ => False
instance {α β : Type} [VRel α] [VRel β] : VRel (Step α β) := ⟨fun E => stepR (vr E) (vr E)⟩

def rmR (E : Par) : RM → RM → Prop
  | .expr e, .expr f => ARel E e f
  | .bin o s, .bin p t => o = p ∧ E.sp s t
  | .un o s, .un p t => o = p ∧ E.sp s t
  | _, _ => False
instance : VRel RM := ⟨rmR⟩

def exceptR (E : Par) : Except String (List RM) → Except String (List RM) → Prop
  | .ok l, .ok m => vr E l m
  | .error a, .error b => a = b
  | _, _ => False
instance : VRel (Except String (List RM)) := ⟨exceptR⟩

/-- Values that are stored in the AST. -/
class ToFRel (α : Type) [ToF α] [VRel α] : Prop where
  toF_rel : ∀ (E : Par) {a b : α}, vr E a b → ARel E (toF a) (toF b)
export ToFRel (toF_rel)

instance : ToFRel Span := ⟨fun _ _ _ h => .span h⟩
instance : ToFRel Ast := ⟨fun _ _ _ h => h⟩
instance : ToFRel OAst := ⟨fun _ _ _ h => h⟩
instance : ToFRel SAst := ⟨fun _ _ _ h => h⟩
instance : ToFRel Nat := ⟨fun _ a _ h => by cases h; exact .nat a⟩
instance : ToFRel Bool := ⟨fun _ a _ h => by cases h; exact .bool a⟩
instance : ToFRel BinOp := ⟨fun _ a _ h => by cases h; exact .binop a⟩
instance : ToFRel UnOp := ⟨fun _ a _ h => by cases h; exact .unop a⟩
instance : ToFRel (List Char) := ⟨fun _ _ _ h => .str h⟩
instance {α : Type} [ToF α] [VRel α] [ToFRel α] : ToFRel (Option α) := ⟨fun E a b h => by
  cases a <;> cases b
  · exact .none
  · cases h
  · cases h
  · exact .some (toF_rel E h)⟩
theorem map_toF_rel {α : Type} [ToF α] [VRel α] [ToFRel α] : ∀ {l m : List α}, listR (vr E) l m →
    ARelL E (l.map toF) (m.map toF)
  | [], [], _ => .nil
  | _ :: _, _ :: _, h => .cons (toF_rel E h.1) (map_toF_rel h.2)
instance (priority := low) {α : Type} [ToF α] [VRel α] [ToFRel α] : ToFRel (List α) :=
  ⟨fun E _ _ h => .list (map_toF_rel E h)⟩
instance {α β : Type} [ToF α] [ToF β] [VRel α] [VRel β] [ToFRel α] [ToFRel β] : ToFRel (α × β) :=
  ⟨fun E _ _ h => .node rfl (.cons (toF_rel E h.1) (.cons (toF_rel E h.2) .nil))⟩

/-! ### States and outcomes -/

/-- Corresponding fragments and issues. -/
def fragR (f g : Fragment) : Prop := f.message = g.message ∧ E.sp f.span g.span
def issueR (i j : Issue) : Prop :=
  i.level = j.level ∧ TwinMsg E.S i.message j.message ∧ E.sp i.span j.span ∧ listR (fragR E) i.fragments j.fragments

/-- Corresponding states. -/
structure SR (s t : St) : Prop where
  token : E.tok s.token t.token
  span : E.sp s.span t.span
  peeked : optR (fun a b => E.tok a.1 b.1 ∧ E.sp a.2 b.2) s.peeked t.peeked
  lx : E.B s.lx t.lx
  issues : ∃ l m, s.issues = E.pre ++ l ∧ t.issues = E.pre' ++ m ∧ listR (issueR E) l m
  arg : t.arg = s.arg + E.k
  delim : E.dl s.delim t.delim
  opts : s.opts = E.opts
  opts' : t.opts = E.opts
  permit : s.permit = t.permit
  chk : s.checked = E.chk
  chk' : t.checked = E.chk
  /-- COPY data is read only if the word COPY occurs -/
  data : ¬ E.ok .COPY → s.dataLog = []

/-- Corresponding outcomes.  (A panic of a slice operation corresponds to anything: it does not happen, see C02.) -/
inductive ORel {α β : Type} (Q : α → β → Prop) : Out α → Out β → Prop where
  | ok {a b s t} (h : Q a b) (hs : SR E s t) : ORel Q (.ok a s) (.ok b t)
  | err {s t} (hs : SR E s t) : ORel Q (.err s) (.err t)
  | panic (m) : ORel Q (.panic m) (.panic m)
  | oof : ORel Q .oof .oof
  | left (o) : ORel Q (.panic "slice") o
  | right (o) : ORel Q o (.panic "slice")

/-- The result relation of the recursive functions. -/
def FnR : {α : Type} → Fn α → α → α → Prop
  | _, .expression _ => ARel E
  | _, .compoundQuery => ARel E
  | _, .statement => vr E

def CallsR (R : ∀ α, Fn α → St → Out α) : Prop :=
  ∀ α (f : Fn α) s t, SR E s t → ORel E (FnR E f) (R α f s) (R α f t)

/-- `p` and `q` correspond. -/
def PR {α β : Type} (Q : α → β → Prop) (p : Prog α) (q : Prog β) : Prop :=
  ∀ (R : ∀ α, Fn α → St → Out α) (n : Nat), CallsR E R → ∀ s t, SR E s t → ORel E Q (runWith R n p s) (runWith R n q t)

variable {E} {α β σ τ γ δ : Type}

/-! ### Rules -/

theorem ORel.imp {Q Q' : α → β → Prop} {o : Out α} {o' : Out β} (h : ORel E Q o o') (hq : ∀ a b, Q a b → Q' a b) :
    ORel E Q' o o' := by
  cases h with
  | ok h hs => exact .ok (hq _ _ h) hs
  | err hs => exact .err hs
  | panic m => exact .panic m
  | oof => exact .oof
  | left o => exact .left _
  | right o => exact .right _

theorem PR.imp {Q Q' : α → β → Prop} {p : Prog α} {q : Prog β} (h : PR E Q p q) (hq : ∀ a b, Q a b → Q' a b) :
    PR E Q' p q := fun R n hR s t hs => (h R n hR s t hs).imp hq

theorem ret_par {Q : α → β → Prop} {a : α} {b : β} (h : Q a b) : PR E Q (.ret a) (.ret b) :=
  fun _ _ _ _ _ hs => .ok h hs

theorem pure_par {Q : α → β → Prop} {a : α} {b : β} (h : Q a b) : PR E Q (pure a : Prog α) (pure b : Prog β) := ret_par h

theorem throw_par {Q : α → β → Prop} : PR E Q (.throw : Prog α) (.throw : Prog β) :=
  fun _ _ _ _ _ hs => .err hs

theorem panic_par {Q : α → β → Prop} {m : String} : PR E Q (.panic m : Prog α) (.panic m : Prog β) :=
  fun _ _ _ _ _ _ => .panic m

theorem bind'_par {Q1 : α → β → Prop} {Q : γ → δ → Prop} {p : Prog α} {q : Prog β} {f : α → Prog γ} {g : β → Prog δ}
    (h : PR E Q1 p q) (hf : ∀ a b, Q1 a b → PR E Q (f a) (g b)) : PR E Q (.bind p f) (.bind q g) := by
  intro R n hR s t hs
  have h1 := h R n hR s t hs
  unfold runWith
  revert h1
  generalize runWith R n p s = o1
  generalize runWith R n q t = o2
  intro h1
  cases h1 with
  | ok h hs => exact hf _ _ h R n hR _ _ hs
  | err hs => exact .err hs
  | panic m => exact .panic m
  | oof => exact .oof
  | left o => exact .left _
  | right o => exact .right _

theorem bind_par {Q1 : α → β → Prop} {Q : γ → δ → Prop} {p : Prog α} {q : Prog β} {f : α → Prog γ} {g : β → Prog δ}
    (h : PR E Q1 p q) (hf : ∀ a b, Q1 a b → PR E Q (f a) (g b)) : PR E Q (p >>= f) (q >>= g) := bind'_par h hf

theorem bindV_par [VRel α] {Q : γ → δ → Prop} {p : Prog α} {q : Prog α} {f : α → Prog γ} {g : α → Prog δ}
    (h : PR E (vr E) p q) (hf : ∀ a b, vr E a b → PR E Q (f a) (g b)) : PR E Q (p >>= f) (q >>= g) := bind'_par h hf

theorem ite_par {c c' : Prop} [Decidable c] [Decidable c'] {Q : α → β → Prop} {p p' : Prog α} {q q' : Prog β} (hc : c ↔ c')
    (h1 : c → c' → PR E Q p q) (h2 : ¬c → ¬c' → PR E Q p' q') : PR E Q (if c then p else p') (if c' then q else q') := by
  by_cases h : c
  · rw [if_pos h, if_pos (hc.1 h)]; exact h1 h (hc.1 h)
  · have h' : ¬c' := fun h' => h (hc.2 h')
    rw [if_neg h, if_neg h']; exact h2 h h'

theorem tryP'_par {Q : α → α → Prop} {p q : Prog α} (h : PR E Q p q) : PR E (optR Q) (.tryP p) (.tryP q) := by
  intro R n hR s t hs
  have h1 := h R n hR s t hs
  unfold runWith
  revert h1
  generalize runWith R n p s = o1
  generalize runWith R n q t = o2
  intro h1
  cases h1 with
  | ok h hs => exact .ok h hs
  | err hs => exact .ok trivial hs
  | panic m => exact .panic m
  | oof => exact .oof
  | left o => exact .left _
  | right o => exact .right _

theorem tryP_par [VRel α] {p q : Prog α} (h : PR E (vr E) p q) : PR E (vr E) (.tryP p) (.tryP q) := tryP'_par h

theorem loop'_par {I : σ → σ → Prop} {Q : β → β → Prop} {f g : σ → Prog (Step σ β)} {x y : σ}
    (h : ∀ x y, I x y → PR E (stepR I Q) (f x) (g y)) (hx : I x y) : PR E Q (.loop f x) (.loop g y) := by
  intro R n hR s t hs
  unfold runWith
  have : ∀ m x y s t, I x y → SR E s t →
      ORel E Q (loopN (fun x s => runWith R n (f x) s) m x s) (loopN (fun x s => runWith R n (g x) s) m y t) := by
    intro m
    induction m with
    | zero => intro x y s t _ _; exact .oof
    | succ m ih =>
      intro x y s t hI hs
      have h1 := h x y hI R n hR s t hs
      unfold loopN
      revert h1
      generalize runWith R n (f x) s = o1
      generalize runWith R n (g y) t = o2
      intro h1
      cases h1 with
      | ok h hs =>
        next a b _ _ =>
        cases a <;> cases b
        · exact ih _ _ _ _ h hs
        · cases h
        · cases h
        · exact .ok h hs
      | err hs => exact .err hs
      | panic m => exact .panic m
      | oof => exact .oof
      | left o => exact .left _
      | right o => exact .right _
  exact this n x y s t hx hs

theorem loop_par [VRel σ] [VRel β] {f g : σ → Prog (Step σ β)} {x y : σ}
    (h : ∀ x y, vr E x y → PR E (vr E) (f x) (g y)) (hx : vr E x y) : PR E (vr E) (.loop f x) (.loop g y) :=
  loop'_par h hx

theorem call_par {f : Fn α} : PR E (FnR E f) (.call f) (.call f) := fun _ _ hR s t hs => hR _ f s t hs

theorem callExpression_par {b : Bool} : PR E (vr E) (.call (.expression b)) (.call (.expression b)) :=
  call_par (f := .expression b)
theorem callCompoundQuery_par : PR E (vr E) (.call .compoundQuery) (.call .compoundQuery) := call_par (f := .compoundQuery)
theorem callStatement_par : PR E (vr E) (.call .statement) (.call .statement) := call_par (f := .statement)

/-! ### Primitive operations -/

theorem op_par {o o' : Op α} {Q : α → α → Prop} (h : ∀ s t, SR E s t → ORel E Q (o.run s) (o'.run t)) :
    PR E Q (.op o) (.op o') := fun _ _ _ s t hs => h s t hs

theorem cur_par' : PR E (fun (a b : Token × Span) => E.tok a.1 b.1 ∧ E.sp a.2 b.2) (.op .cur) (.op .cur) :=
  op_par fun _ _ hs => .ok ⟨hs.token, hs.span⟩ hs

theorem next_sr {s t : St} (hs : SR E s t) : ORel E (fun _ _ => True) s.next t.next := by
  have hp := hs.peeked
  unfold St.next
  revert hp
  cases h1 : s.peeked with
  | some a =>
    cases h2 : t.peeked with
    | some b =>
      intro hp
      exact .ok trivial { hs with token := hp.1, span := hp.2, peeked := trivial }
    | none => intro h; cases h
  | none =>
    cases h2 : t.peeked with
    | some b => intro h; cases h
    | none =>
      intro _
      simp only [hs.chk, hs.chk']
      rcases E.next hs.lx with ⟨m, e1, e2⟩ | ⟨t1, t2, sp, sp', m, m', e1, e2, e3, e4, e5⟩
      · rw [e1, e2]; exact .panic m
      · rw [e1, e2]
        exact .ok trivial { hs with token := e3, span := e4, lx := e5, chk := rfl, chk' := rfl, peeked := trivial }

theorem next_par : PR E (vr E) next next :=
  op_par fun _ _ hs => (next_sr hs).imp fun _ _ _ => rfl

theorem leftParenAhead_par : PR E (vr E) (.op .leftParenAhead) (.op .leftParenAhead) := by
  refine op_par fun s t hs => ?_
  have hk : t.token.isKw .LEFT = s.token.isKw .LEFT := by
    have := hs.token
    revert this
    generalize s.token = a
    generalize t.token = b
    intro h; cases h <;> rfl
  have hl : ∀ a b, E.tok a b → decide (a = .lParen) = decide (b = .lParen) := by
    intro a b h
    cases h with
    | same h => rfl
    | ident h _ => simp
    | single h => simp
    | double h => simp
  simp only [Op.run, hk]
  split
  · have hp := hs.peeked
    revert hp
    cases h1 : s.peeked with
    | some a =>
      cases h2 : t.peeked with
      | some b =>
        intro hp
        exact .ok (hl _ _ hp.1) hs
      | none => intro h; cases h
    | none =>
      cases h2 : t.peeked with
      | some b => intro h; cases h
      | none =>
        intro _
        simp only [hs.chk, hs.chk']
        rcases E.next hs.lx with ⟨m, e1, e2⟩ | ⟨t1, t2, sp, sp', m, m', e1, e2, e3, e4, e5⟩
        · rw [e1, e2]; exact .panic m
        · rw [e1, e2]
          exact .ok (hl _ _ e3) { hs with lx := e5, chk := rfl, chk' := rfl, peeked := ⟨e3, e4⟩ }
  · exact .ok rfl hs

theorem listR_append {R : α → α → Prop} : ∀ {l m l' m' : List α}, listR R l m → listR R l' m' → listR R (l ++ l') (m ++ m')
  | [], [], _, _, _, h => h
  | _ :: _, _ :: _, _, _, h, h' => ⟨h.1, listR_append h.2 h'⟩

/-- corresponding fragments of an issue -/
def fragsR (E : Par) : List (String × Span) → List (String × Span) → Prop := listR (fun a b => a.1 = b.1 ∧ E.sp a.2 b.2)

theorem mkFrags_par {src src' : List Char} : ∀ {l m : List (String × Span)}, fragsR E l m → ∀ {fs gs},
    mkFrags src l = some fs → mkFrags src' m = some gs → listR (fragR E) fs gs
  | [], [], _, fs, gs, h1, h2 => by simp only [mkFrags] at h1 h2; cases h1; cases h2; trivial
  | (a, sp) :: l, (b, sp') :: m, h, fs, gs, h1, h2 => by
    simp only [mkFrags] at h1 h2
    split at h1
    · split at h2
      · next e1 e2 _ _ _ _ e3 e4 => cases h1; cases h2; exact ⟨h.1, mkFrags_par h.2 e2 e4⟩
      · cases h2
    · cases h1

theorem issue_sr {s t : St} (hs : SR E s t) {l : Level} {m m' : Msg} {sp sp' : Span} {fr fr' : List (String × Span)}
    (hm : TwinMsg E.S m m') (h : E.sp sp sp') (hf : fragsR E fr fr') : ORel E (fun _ _ => True) (s.issue l m sp fr) (t.issue l m' sp' fr') := by
  unfold St.issue
  split
  · split
    · next seg1 fs1 _ e2 _ _ seg2 fs2 _ e4 =>
      refine .ok trivial { hs with issues := ?_ }
      obtain ⟨i, j, h1, h2, h3⟩ := hs.issues
      refine ⟨i ++ [⟨l, m, sp, seg1, fs1⟩], j ++ [⟨l, m', sp', seg2, fs2⟩], by simp only [h1, List.append_assoc],
        by simp only [h2, List.append_assoc], listR_append h3 ⟨⟨rfl, hm, h, mkFrags_par hf e2 e4⟩, trivial⟩⟩
    · exact .right _
  · exact .left _

theorem err_par {m : String} {sp sp' : Span} {fr fr' : List (String × Span)} (h : vr E sp sp') (hf : fragsR E fr fr') :
    PR E (vr E) (err m sp fr) (err m sp' fr') :=
  op_par fun _ _ hs => (issue_sr hs (.plain m) h hf).imp fun _ _ _ => rfl

theorem errMsg_par {m m' : Msg} {sp sp' : Span} (hm : TwinMsg E.S m m') (h : vr E sp sp') :
    PR E (vr E) (err m sp) (err m' sp') :=
  op_par fun _ _ hs => (issue_sr (fr := []) (fr' := []) hs hm h trivial).imp fun _ _ _ => rfl

theorem warn_par {m : String} {sp sp' : Span} {fr fr' : List (String × Span)} (h : vr E sp sp') (hf : fragsR E fr fr') :
    PR E (vr E) (warn m sp fr) (warn m sp' fr') :=
  op_par fun _ _ hs => (issue_sr hs (.plain m) h hf).imp fun _ _ _ => rfl

theorem issueIf_par {f : WarnFlag} {l : Level} {v w : List Char} {sp sp' : Span} (hv : E.S v w) (h : vr E sp sp') :
    PR E (vr E) (issueIf f l v sp) (issueIf f l w sp') := by
  refine op_par fun _ _ hs => ?_
  simp only [Op.run, hs.opts, hs.opts']
  split
  · exact (issue_sr (fr := []) (fr' := []) hs (by cases f <;> constructor <;> exact hv) h trivial).imp fun _ _ _ => rfl
  · exact .ok rfl hs

theorem takeArg_par : PR E (fun (a b : Nat × Span) => b.1 = a.1 + E.k ∧ E.sp a.2 b.2) (.op .takeArg) (.op .takeArg) := by
  refine op_par fun s t hs => ?_
  have := @next_sr E { s with arg := s.arg + 1, argLog := s.argLog ++ [s.span] } { t with arg := t.arg + 1, argLog := t.argLog ++ [t.span] }
    { hs with arg := by have := hs.arg; dsimp only; omega }
  simp only [Op.run]
  revert this
  generalize St.next { s with arg := s.arg + 1, argLog := s.argLog ++ [s.span] } = o1
  generalize St.next { t with arg := t.arg + 1, argLog := t.argLog ++ [t.span] } = o2
  intro h1
  cases h1 with
  | ok h hs' => exact .ok ⟨hs.arg, hs.span⟩ hs'
  | err hs => exact .err hs
  | panic m => exact .panic m
  | oof => exact .oof
  | left o => exact .left _
  | right o => exact .right _

theorem delim_par : PR E E.dl (.op .delim) (.op .delim) := op_par fun _ _ hs => .ok hs.delim hs
theorem setDelim_par {d d' : Token} (h : E.dl d d') : PR E (vr E) (.op (.setDelim d)) (.op (.setDelim d')) :=
  op_par fun _ _ hs => .ok rfl { hs with delim := h }
theorem permit_par : PR E (vr E) (.op .permit) (.op .permit) := op_par fun _ _ hs => .ok hs.permit hs
theorem setPermit_par {b b' : Bool} (h : vr E b b') : PR E (vr E) (.op (.setPermit b)) (.op (.setPermit b')) :=
  op_par fun _ _ hs => .ok rfl { hs with permit := h }
theorem dialect_par : PR E (fun a b => a = E.opts.dialect ∧ b = E.opts.dialect) dialect dialect :=
  op_par fun _ _ hs => .ok ⟨by rw [hs.opts], by rw [hs.opts']⟩ hs
theorem arguments_par : PR E (fun a b => a = E.opts.arguments ∧ b = E.opts.arguments) (.op .arguments) (.op .arguments) :=
  op_par fun _ _ hs => .ok ⟨by rw [hs.opts], by rw [hs.opts']⟩ hs
theorem listHack_par : PR E (vr E) (.op .listHack) (.op .listHack) :=
  op_par fun _ _ hs => .ok (by rw [hs.opts, hs.opts']; rfl) hs

theorem stdin_par (hk : E.ok .COPY) : PR E (vr E) (.op .stdin) (.op .stdin) := by
  refine op_par fun s t hs => ?_
  simp only [Op.run]
  rcases E.stdin hk hs.lx with ⟨e1, e2⟩ | ⟨d, sp, sp', m, m', e1, e2, e3, e4⟩
  · rw [e1, e2]; exact .panic _
  · rw [e1, e2]
    have := @next_sr E { s with lx := m, dataLog := s.dataLog ++ [(s.span, d, sp)] } { t with lx := m', dataLog := t.dataLog ++ [(t.span, d, sp')] }
      { hs with lx := e4, data := fun h => absurd hk h }
    dsimp only
    revert this
    generalize St.next { s with lx := m, dataLog := s.dataLog ++ [(s.span, d, sp)] } = o1
    generalize St.next { t with lx := m', dataLog := t.dataLog ++ [(t.span, d, sp')] } = o2
    intro h1
    cases h1 with
    | ok h hs' => exact .ok ⟨E.srefl d, e3⟩ hs'
    | err hs => exact .err hs
    | panic m => exact .panic m
    | oof => exact .oof
    | left o => exact .left _
    | right o => exact .right _

/-! ### Facts about corresponding values -/

theorem tok_isKw {t u : Token} (h : E.tok t u) (k : Keyword) : u.isKw k = t.isKw k := by cases h <;> rfl
theorem tok_kw {t u : Token} (h : E.tok t u) : u.kw = t.kw := by cases h <;> rfl
theorem tok_isStr {t u : Token} (h : E.tok t u) : u.isStr = t.isStr := by cases h <;> rfl
theorem tok_eq {t u : Token} (h : E.tok t u) {c : Token} (hc : c.noText = true) : (u = c) = (t = c) := by
  cases h with
  | same h => rfl
  | ident h _ => apply propext; constructor <;> (rintro rfl; cases hc)
  | single h => apply propext; constructor <;> (rintro rfl; cases hc)
  | double h => apply propext; constructor <;> (rintro rfl; cases hc)
theorem tok_ok {t u : Token} (h : E.tok t u) {k : Keyword} (hk : t.isKw k = true) : E.ok k := by
  cases h with
  | same h =>
    unfold Token.isKw at hk
    split at hk
    · cases h
    · cases hk
  | ident h h' => simp only [Token.isKw, decide_eq_true_eq] at hk; subst hk; exact h'
  | single h => cases hk
  | double h => cases hk
theorem vr_isSome [VRel α] {a b : Option α} (h : vr E a b) : b.isSome = a.isSome := by
  cases a <;> cases b <;> first | rfl | cases h
theorem vr_isNone [VRel α] {a b : Option α} (h : vr E a b) : b.isNone = a.isNone := by
  cases a <;> cases b <;> first | rfl | cases h
theorem vr_isEmpty [VRel α] {a b : List α} (h : listR (vr E) a b) : b.isEmpty = a.isEmpty := by
  cases a <;> cases b <;> first | rfl | cases h
theorem vr_kind {a b : Ast} (h : ARel E a b) : b.kind? = a.kind? := by cases h <;> rfl
theorem copy_ok {a b : Ast} (h : ARel E a b) (hk : a.kind? = some .Copy) : E.ok .COPY := by
  cases h <;> simp_all [Ast.kind?, Kind.alike]
theorem topExpr_vr {a b : List RM} (h : vr E a b) : topExpr b = topExpr a := by
  cases a with
  | nil => cases b with
    | nil => rfl
    | cons => cases h
  | cons x l => cases b with
    | nil => cases h
    | cons y m => cases x <;> cases y <;> first | rfl | cases h.1

theorem sp_join {a a' b b' : Span} (h : E.sp a a') (h' : E.sp b b') : E.sp (joinSpan a b) (joinSpan a' b') :=
  ⟨E.pmin h.1 h'.1, E.qmax h.2 h'.2⟩
theorem sp_zero : E.sp ⟨0, 0⟩ ⟨0, 0⟩ := ⟨E.p0, E.q0⟩

/-- corresponding results of `span()` -/
def spanResR (E : Par) : SpanRes → SpanRes → Prop
  | .none, .none => True
  | .some a, .some b => E.sp a b
  | .panic, .panic => True
  | _, _ => False

theorem join_par {a a' b b' : SpanRes} (h : spanResR E a a') (h' : spanResR E b b') : spanResR E (a.join b) (a'.join b') := by
  cases a <;> cases a' <;> first | (cases h; done) | (cases b <;> cases b' <;> first | (cases h'; done) | trivial | exact h | exact h' | exact sp_join h h')

theorem nodeSpan_par : ∀ {k : Kind} {r r' : SpanRes}, spanResR E r r' →
    spanResR E (match r with | .none => if kindIsBlock k then .panic else .none | r => r)
      (match r' with | .none => if kindIsBlock k then .panic else .none | r => r)
  | k, .none, .none, _ => by dsimp only; split <;> trivial
  | _, .some _, .some _, h => h
  | _, .panic, .panic, _ => trivial

mutual
theorem spanRes_par : ∀ {a b : Ast}, ARel E a b → spanResR E a.spanRes b.spanRes
  | _, _, .span h => h
  | _, _, .str _ => trivial
  | _, _, .nat _ => trivial
  | _, _, .bool _ => trivial
  | _, _, .ident _ h => h
  | _, _, .sstring _ h => h
  | _, _, .binop _ => trivial
  | _, _, .unop _ => trivial
  | _, _, .none => trivial
  | _, _, .some h => by simp only [Ast.spanRes]; exact spanRes_par h
  | _, _, .list h => spanResList_par h [] 0
  | _, _, .node (k := k) _ h => nodeSpan_par (spanResList_par h (kindOmit k) 0)
  | _, _, .copy _ h => nodeSpan_par (spanResList_par h (kindOmit .Copy) 0)
  | _, _, .arg h => by
    simp only [Ast.spanRes, spanResList, SpanRes.join, kindOmit]; simp; exact h
  | _, _, .listHack h => by
    simp only [Ast.spanRes, spanResList, SpanRes.join, kindOmit]; simp; exact h
theorem spanResList_par : ∀ {l m : List Ast}, ARelL E l m → ∀ om i, spanResR E (spanResList om i l) (spanResList om i m)
  | _, _, .nil, _, _ => trivial
  | _, _, .cons h hl, om, i => by
    unfold spanResList
    split
    · exact spanResList_par hl om (i + 1)
    · exact join_par (spanRes_par h) (spanResList_par hl om (i + 1))
end

theorem spanOf_par [ToF α] [VRel α] [ToFRel α] {a b : α} (h : vr E a b) : PR E (vr E) (spanOf a) (spanOf b) := by
  have := spanRes_par (toF_rel E h)
  unfold spanOf
  revert this
  cases (toF a).spanRes <;> cases (toF b).spanRes <;> intro h <;> first | (cases h; done) | exact panic_par | exact ret_par h

theorem twinMsg_imp {R R' : List Char → List Char → Prop} (h : ∀ v w, R v w → R' v w) {m m' : Msg} (hm : TwinMsg R m m') :
    TwinMsg R' m m' := by
  cases hm with
  | plain s => exact .plain s
  | expected e => exact .expected e
  | reserved e => exact .reserved (h _ _ e)
  | unquoted e => exact .unquoted (h _ _ e)
  | caps e => exact .caps (h _ _ e)

/-- Messages that mention the same words read the same. -/
theorem twinMsg_text {m m' : Msg} (hm : TwinMsg (· = ·) m m') : m.text = m'.text := by
  cases hm with
  | plain s => rfl
  | expected e => simp only [Msg.text, e]
  | reserved e => rw [e]
  | unquoted e => rw [e]
  | caps e => rw [e]

end SqlParse
