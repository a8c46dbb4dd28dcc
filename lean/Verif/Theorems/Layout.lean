import Verif.Spec.Twin
import Verif.Proofs.ParApi
import Verif.Theorems.Flags
import Verif.Theorems.Written
/-! C42: blanks and comments between the tokens do not matter.  C43: the texts of words and strings do not matter. -/
namespace SqlParse
variable {chk : Bool}

/-! ### The tokens of a source -/

theorem next_eof {lx m : Lexer} {sp : Span} (hi : LexInv chk lx) (h : lx.nextToken chk = .ok .eof sp m) :
    m.nextToken chk = .ok .eof sp m := by
  obtain ⟨⟨pre, h1, h2⟩, hr⟩ := hi
  have := nextToken_spec chk lx pre h1 h2
  rw [h] at this
  obtain ⟨ts, w, g1, g2, g3, g4, g5, g6, g7, g8⟩ := this
  have hw := g8.1 rfl
  subst hw
  obtain ⟨src, pos, rest⟩ := m
  obtain ⟨s, e⟩ := sp
  obtain ⟨-, hr⟩ := g7
  simp only [blen_nil, Nat.add_zero] at g4 g6 hr
  subst hr g4 g6
  have hb : blen src = pos := by
    simp only [List.append_nil] at g1 g5 g3
    rw [g5, h1, g1, blen_append]
    exact g3.symm
  simp [Lexer.nextToken, nextLoop, hb]

theorem scan_pos {lx : Lexer} {L : List (Token × Span)} (h : Scan chk lx L) (hi : LexInv chk lx) :
    ∀ p ∈ L, lx.pos ≤ p.2.start ∧ p.2.start ≤ p.2.stop := by
  induction h with
  | last h =>
    obtain ⟨-, -, h3, h4, -⟩ := nextToken_inv hi h
    simpa using ⟨h3, h4⟩
  | cons h ht hs ih =>
    obtain ⟨h1, -, h3, h4, h5, -⟩ := nextToken_inv hi h
    simp only [List.mem_cons, forall_eq_or_imp]
    refine ⟨⟨h3, h4⟩, fun p hp => ?_⟩
    have := ih h1 p hp
    omega

theorem scan_sorted {lx : Lexer} {L : List (Token × Span)} (h : Scan chk lx L) (hi : LexInv chk lx) :
    ∀ (i j : Nat) (p q : Token × Span), i ≤ j → L[i]? = some p → L[j]? = some q → p.2.start ≤ q.2.start ∧ p.2.stop ≤ q.2.stop := by
  induction h with
  | last h =>
    intro i j p q hij hp hq
    cases i <;> cases j <;> simp at hp hq
    subst hp hq
    omega
  | cons h ht hs ih =>
    obtain ⟨h1, -, h3, h4, h5, -⟩ := nextToken_inv hi h
    intro i j p q hij hp hq
    cases i with
    | zero =>
      simp at hp
      subst hp
      cases j with
      | zero => simp at hq; subst hq; omega
      | succ j =>
        simp at hq
        have := scan_pos hs h1 q (List.mem_of_getElem? hq)
        simp only
        omega
    | succ i =>
      cases j with
      | zero => omega
      | succ j =>
        simp at hp hq
        exact ih h1 i j p q (by omega) hp hq

theorem scan_ne {lx : Lexer} {L : List (Token × Span)} (h : Scan chk lx L) : L ≠ [] := by cases h <;> simp

/-- One step. -/
theorem scan_step {lx : Lexer} {L : List (Token × Span)} {i : Nat} (h : Scan chk lx (L.drop i)) (hi : LexInv chk lx) :
    ∃ t sp lx' j, L[i]? = some (t, sp) ∧ lx.nextToken chk = .ok t sp lx' ∧ LexInv chk lx' ∧ Scan chk lx' (L.drop j) ∧
      j = (if t = .eof then i else i + 1) := by
  generalize hL : L.drop i = M at h
  cases h with
  | last h =>
    refine ⟨_, _, _, i, ?_, h, (nextToken_inv hi h).1, ?_, rfl⟩
    · have := congrArg (·[0]?) hL
      simpa using this
    · rw [hL]; exact .last (next_eof hi h)
  | cons h ht hs =>
    refine ⟨_, _, _, i + 1, ?_, h, (nextToken_inv hi h).1, ?_, by simp [ht]⟩
    · have := congrArg (·[0]?) hL
      simpa using this
    · have : L.drop (i + 1) = (L.drop i).drop 1 := by simp
      rw [this, hL]; exact hs

theorem each_get {α : Type} {R : α → α → Prop} {l m : List α} (h : Each R l m) : ∀ (i : Nat) (a b : α), l[i]? = some a →
    m[i]? = some b → R a b := by
  induction h with
  | nil => intro i a b h; simp at h
  | cons h hl ih =>
    intro i a b ha hb
    cases i with
    | zero => simp at ha hb; subst ha hb; exact h
    | succ i => simp at ha hb; exact ih i a b ha hb

theorem each_refl {α : Type} {R : α → α → Prop} (h : ∀ a, R a a) : ∀ l : List α, Each R l l
  | [] => .nil
  | a :: l => .cons (h a) (each_refl h l)

theorem each_listR {α : Type} {R : α → α → Prop} : ∀ {l m : List α}, listR R l m → Each R l m
  | [], [], _ => .nil
  | _ :: _, _ :: _, h => .cons h.1 (each_listR h.2)

theorem startsAt_min {L L' : List (Token × Span)} {l l' : Lexer} (h : Scan chk l L) (hi : LexInv chk l) (h' : Scan chk l' L')
    (hi' : LexInv chk l') {a a' b b' : Nat} (h1 : StartsAt L L' a a') (h2 : StartsAt L L' b b') : StartsAt L L' (min a b) (min a' b') := by
  rcases h1 with ⟨rfl, rfl⟩ | ⟨i, p, q, e1, e2, rfl, rfl⟩
  · left; omega
  rcases h2 with ⟨rfl, rfl⟩ | ⟨j, p', q', e3, e4, rfl, rfl⟩
  · left; omega
  by_cases hij : i ≤ j
  · have k1 := scan_sorted h hi i j p p' hij e1 e3
    have k2 := scan_sorted h' hi' i j q q' hij e2 e4
    exact .inr ⟨i, p, q, e1, e2, by omega, by omega⟩
  · have k1 := scan_sorted h hi j i p' p (by omega) e3 e1
    have k2 := scan_sorted h' hi' j i q' q (by omega) e4 e2
    exact .inr ⟨j, p', q', e3, e4, by omega, by omega⟩

theorem stopsAt_max {L L' : List (Token × Span)} {l l' : Lexer} (h : Scan chk l L) (hi : LexInv chk l) (h' : Scan chk l' L')
    (hi' : LexInv chk l') {a a' b b' : Nat} (h1 : StopsAt L L' a a') (h2 : StopsAt L L' b b') : StopsAt L L' (max a b) (max a' b') := by
  rcases h1 with ⟨rfl, rfl⟩ | ⟨i, p, q, e1, e2, rfl, rfl⟩
  · simpa using h2
  rcases h2 with ⟨rfl, rfl⟩ | ⟨j, p', q', e3, e4, rfl, rfl⟩
  · have : StopsAt L L' p.2.stop q.2.stop := .inr ⟨i, p, q, e1, e2, rfl, rfl⟩
    simpa using this
  by_cases hij : i ≤ j
  · have k1 := scan_sorted h hi i j p p' hij e1 e3
    have k2 := scan_sorted h' hi' i j q q' hij e2 e4
    exact .inr ⟨j, p', q', e3, e4, by omega, by omega⟩
  · have k1 := scan_sorted h hi j i p' p (by omega) e3 e1
    have k2 := scan_sorted h' hi' j i q' q (by omega) e4 e2
    exact .inr ⟨i, p, q, e1, e2, by omega, by omega⟩

/-! ### The correspondence -/

variable {word : Keyword → List Char → List Char → Prop} {str : List Char → List Char → Prop}

theorem alike_tok {ok : Keyword → Prop} {t t' : Token} (h : AlikeTok word str t t') (hk : ∀ v k, t = .ident v k → ok k) :
    TokR word str ok t t' := by
  cases h with
  | word k h => exact .ident h (hk _ k rfl)
  | single h => exact .single h
  | double h => exact .double h
  | other _ h1 h2 h3 =>
    refine .same ?_
    unfold Token.noText
    split
    · exact absurd rfl (h1 _ _)
    · exact absurd rfl (h2 _)
    · exact absurd rfl (h3 _)
    · rfl

theorem tok_one {ok : Keyword → Prop} (hw : ∀ k, OneToOne (word k)) (hs : OneToOne str) {t t' u u' : Token} (h : TokR word str ok t t')
    (h' : TokR word str ok u u') : t = u ↔ t' = u' := by
  cases h with
  | same h =>
    cases h' with
    | same _ => exact Iff.rfl
    | ident _ _ => constructor <;> (rintro rfl; cases h)
    | single _ => constructor <;> (rintro rfl; cases h)
    | double _ => constructor <;> (rintro rfl; cases h)
  | ident h hk =>
    cases h' with
    | same h' => constructor <;> (rintro rfl; cases h')
    | ident h' _ =>
      simp only [Token.ident.injEq]
      constructor
      · rintro ⟨e, rfl⟩; exact ⟨(hw _ _ _ _ _ h h').1 e, rfl⟩
      · rintro ⟨e, rfl⟩; exact ⟨(hw _ _ _ _ _ h h').2 e, rfl⟩
    | single _ => simp
    | double _ => simp
  | single h =>
    cases h' with
    | same h' => constructor <;> (rintro rfl; cases h')
    | ident h' _ => simp
    | single h' => have := hs _ _ _ _ h h'; simp [this]
    | double _ => simp
  | double h =>
    cases h' with
    | same h' => constructor <;> (rintro rfl; cases h')
    | ident h' _ => simp
    | single h' => simp
    | double h' => have := hs _ _ _ _ h h'; simp [this]

theorem each_some {α : Type} {R : α → α → Prop} {l m : List α} (h : Each R l m) : ∀ (i : Nat) (a : α), l[i]? = some a →
    ∃ b, m[i]? = some b := by
  induction h with
  | nil => intro i a h; simp at h
  | cons h hl ih =>
    intro i a ha
    cases i with
    | zero => exact ⟨_, rfl⟩
    | succ i => simp at ha; simpa using ih i a ha

theorem alike_eof {t t' : Token} (h : AlikeTok word str t t') : t = .eof ↔ t' = .eof := by
  cases h <;> simp

/-- The way two runs differ. -/
def twinPar (src src' : List Char) (L L' : List (Token × Span)) (opts : Opts) (old old' : List Issue)
    (h : TokensOf chk src L) (h' : TokensOf chk src' L') (ha : AllAlike word str L L') (hc : ¬ Occurs .COPY L)
    (hw : opts.warnCaps = true → ∀ k v w, k ≠ .NOT_A_KEYWORD → k ≠ .QUOTED_IDENTIFIER → word k v w → allUpper v = allUpper w)
    (hint : Occurs .INTERVAL L → ∀ v w, str v w → v = w)
    (hdel : Occurs .DELIMITER L → (∀ k, OneToOne (word k)) ∧ OneToOne str) : Par where
  P := StartsAt L L'
  Q := StopsAt L L'
  p0 := .inl ⟨rfl, rfl⟩
  q0 := .inl ⟨rfl, rfl⟩
  pmin := startsAt_min h (lexInv_new chk src) h' (lexInv_new chk src')
  qmax := stopsAt_max h (lexInv_new chk src) h' (lexInv_new chk src')
  txt := word
  str := str
  V := fun v w => (v = [] ∧ w = []) ∨ (∃ k, word k v w) ∨ str v w
  vnil := .inl ⟨rfl, rfl⟩
  vtxt := fun h => .inr (.inl ⟨_, h⟩)
  vstr := fun h => .inr (.inr h)
  S := fun v w => v = w ∨ ∃ k, word k v w
  srefl := fun _ => .inl rfl
  stxt := fun h => .inr ⟨_, h⟩
  W := ValueOf str
  wapp := .append
  wsingle := .single
  wdouble := .double
  ok := fun k => Occurs k L
  opts := opts
  chk := chk
  k := 0
  caps := fun ho {k _ _} hk h => hw ho k _ _ (by rintro rfl; cases hk) (by rintro rfl; cases hk) h
  interval := fun ho _ _ h => hint ho _ _ h
  delims := fun ho => tok_one (hdel ho).1 (hdel ho).2
  B := fun l l' => LexInv chk l ∧ LexInv chk l' ∧ ∃ i, Scan chk l (L.drop i) ∧ Scan chk l' (L'.drop i)
  next := by
    rintro l l' ⟨hl, hl', i, hs, hs'⟩
    right
    obtain ⟨t, sp, m, j, e1, e2, e3, e4, e5⟩ := scan_step hs hl
    obtain ⟨t', sp', m', j', e1', e2', e3', e4', e5'⟩ := scan_step hs' hl'
    have hA := each_get ha i _ _ e1 e1'
    have hj : j' = j := by
      rw [e5, e5']
      have := alike_eof hA
      simp only at this
      simp [this]
    refine ⟨t, t', sp, sp', m, m', e2, e2', alike_tok hA ?_, ⟨.inr ⟨i, _, _, e1, e1', rfl, rfl⟩, .inr ⟨i, _, _, e1, e1', rfl, rfl⟩⟩,
      e3, e3', j, e4, hj ▸ e4'⟩
    rintro v k rfl
    exact ⟨v, sp, List.mem_of_getElem? e1⟩
  stdin := fun hk => absurd hk hc
  pre := old
  pre' := old'

/-- How the results differ, given how the texts of words and strings differ. -/
def mayDiffer (word : Keyword → List Char → List Char → Prop) (str : List Char → List Char → Prop) (L L' : List (Token × Span)) : May where
  place := SamePlace L L'
  name := fun v w => (v = [] ∧ w = []) ∨ (∃ k, word k v w) ∨ str v w
  text := fun v w => v = w ∨ ∃ k, word k v w
  value := ValueOf str

mutual
theorem arel_twin {E : Par} {M : May} (hp : ∀ s t, E.sp s t → M.place s t) (hn : ∀ v w, E.V v w → M.name v w)
    (ht : ∀ v w, E.S v w → M.text v w) (hv : ∀ v w, E.W v w → M.value v w) (hk : E.k = 0) : ∀ {a b : Ast}, ARel E a b → Twin M a b
  | _, _, .span h => .span (hp _ _ h)
  | _, _, .str h => .str (ht _ _ h)
  | _, _, .nat n => .nat n
  | _, _, .bool b => .bool b
  | _, _, .ident h h' => .ident (hn _ _ h) (hp _ _ h')
  | _, _, .sstring h h' => .sstring (hv _ _ h) (hp _ _ h')
  | _, _, .binop o => .binop o
  | _, _, .unop o => .unop o
  | _, _, .none => .none
  | _, _, .some h => .some (arel_twin hp hn ht hv hk h)
  | _, _, .list h => .list (arelL_twin hp hn ht hv hk h)
  | _, _, .node _ h => .node _ (arelL_twin hp hn ht hv hk h)
  | _, _, .copy _ h => .node _ (arelL_twin hp hn ht hv hk h)
  | _, _, .arg h => by
    have : E.argShift = 0 := by unfold Par.argShift; rw [hk]; split <;> rfl
    rw [this]
    exact .node _ (.cons (.nat _) (.cons (.span (hp _ _ h)) .nil))
  | _, _, .listHack h => by
    rw [hk]
    exact .node _ (.cons (.nat _) (.cons (.span (hp _ _ h)) .nil))
theorem arelL_twin {E : Par} {M : May} (hp : ∀ s t, E.sp s t → M.place s t) (hn : ∀ v w, E.V v w → M.name v w)
    (ht : ∀ v w, E.S v w → M.text v w) (hv : ∀ v w, E.W v w → M.value v w) (hk : E.k = 0) : ∀ {a b : List Ast}, ARelL E a b → Twins M a b
  | _, _, .nil => .nil
  | _, _, .cons h hl => .cons (arel_twin hp hn ht hv hk h) (arelL_twin hp hn ht hv hk hl)
end

theorem stmts_arel {E : Par} : ∀ {l m : List SAst}, listR (vr E) l m → ARelL E (l.map (·.ast)) (m.map (·.ast))
  | [], [], _ => .nil
  | _ :: _, _ :: _, h => .cons h.1 (stmts_arel h.2)

theorem listR_imp {α : Type} {R R' : α → α → Prop} (h : ∀ a b, R a b → R' a b) : ∀ {l m : List α}, listR R l m → listR R' l m
  | [], [], _ => trivial
  | _ :: _, _ :: _, hl => ⟨h _ _ hl.1, listR_imp h hl.2⟩

theorem opt_listR {E : Par} {a b : Option SAst} (h : vr E a b) : listR (vr E) a.toList b.toList := toList_vr h

/-- **C43**: the texts of words and strings do not matter.  Two sources whose tokens correspond one by one are parsed alike:
both calls return, panic or go on; what they return has the same shape, with corresponding texts and positions, and they
report corresponding issues. -/
theorem C43_texts {α : Type} (api : Api α) (src src' : List Char) (L L' : List (Token × Span)) (opts : Opts) (old old' : List Issue)
    (h : TokensOf chk src L) (h' : TokensOf chk src' L') (ha : AllAlike word str L L') (hc : ¬ Occurs .COPY L)
    (hw : opts.warnCaps = true → ∀ k v w, k ≠ .NOT_A_KEYWORD → k ≠ .QUOTED_IDENTIFIER → word k v w → allUpper v = allUpper w)
    (hint : Occurs .INTERVAL L → ∀ v w, str v w → v = w)
    (hdel : Occurs .DELIMITER L → (∀ k, OneToOne (word k)) ∧ OneToOne str) (n : Nat) :
    TwinRes api (mayDiffer word str L L') old old' (api.run n chk src ⟨src, old⟩ opts) (api.run n chk src' ⟨src', old'⟩ opts) := by
  have hB : (twinPar src src' L L' opts old old' h h' ha hc hw hint hdel).B (Lexer.new src) (Lexer.new src') :=
    ⟨lexInv_new chk src, lexInv_new chk src', 0, h, h'⟩
  have key : ResR (twinPar src src' L L' opts old old' h h' ha hc hw hint hdel)
      (fun a b => listR (vr (twinPar src src' L L' opts old old' h h' ha hc hw hint hdel)) (api.stmts a) (api.stmts b))
      (api.run n chk src ⟨src, old⟩ opts) (api.run n chk src' ⟨src', old'⟩ opts) := by
    cases api with
    | one => exact runApi_par (dflt := none) (E := twinPar src src' L L' opts old old' h h' ha hc hw hint hdel) (PR.imp singleStatement_par fun _ _ h => opt_listR h) (show listR _ [] [] from trivial) n hB rfl rfl rfl
    | many => exact runApi_par (dflt := []) (E := twinPar src src' L L' opts old old' h h' ha hc hw hint hdel) statements_par (show listR _ [] [] from trivial) n hB rfl rfl rfl
  generalize e1 : api.run n chk src ⟨src, old⟩ opts = r1 at key
  generalize e2 : api.run n chk src' ⟨src', old'⟩ opts = r2 at key
  cases key with
  | ret hr hi =>
    obtain ⟨l, m, rfl, rfl, hlm⟩ := hi
    refine .ret (arelL_twin (fun _ _ h => h) (fun _ _ h => h) (fun _ _ h => h) (fun _ _ h => h) rfl (stmts_arel hr)) ?_
    have : ∀ {l m}, listR (issueR (twinPar src src' L L' opts old old' h h' ha hc hw hint hdel)) l m →
        Each (TwinIssue (mayDiffer word str L L')) l m := by
      intro l m hlm
      refine each_listR (listR_imp ?_ hlm)
      rintro i j ⟨g1, g2, g3, g4⟩
      exact ⟨g1, g2, g3, each_listR g4⟩
    exact this hlm
  | panic m => exact .panic m
  | running => exact .running
  | left o => exact absurd rfl (not_slice e1)
  | right o => exact absurd rfl (not_slice e2)

/-! ### C42 -/

theorem written_scan {o : Nat} {l : List Char} {toks : List (Token × Span)} (h : Written chk o l toks)
    (pre : List Char) (ho : o = blen pre) :
    Scan chk ⟨pre ++ l, o, l⟩ (toks ++ [(.eof, ⟨blen (pre ++ l), blen (pre ++ l)⟩)]) := by
  induction h generalizing pre with
  | nil o u h =>
    subst ho
    have hf : Fits chk .eof [] [] := ⟨by simp, ⟨rfl, rfl⟩, by simp [NotHead]⟩
    have := nextToken_fits chk pre u [] [] .eof h hf
    simp at this
    simp
    exact .last this
  | cons o u w rest t toks ht hs hf h ih =>
    subst ho
    have := nextToken_reads chk pre u w rest t hs hf
    have ih := ih (pre ++ (u ++ w)) (by simp; omega)
    simp only [List.append_assoc] at ih
    refine .cons this ht ?_
    simpa using ih

/-- The tokens of a text written token by token. -/
theorem written_tokensOf {src : List Char} {toks : List (Token × Span)} (h : Written chk 0 src toks) :
    TokensOf chk src (toks ++ [(.eof, ⟨blen src, blen src⟩)]) := by
  have := written_scan h [] rfl
  simpa [TokensOf, Lexer.new] using this

theorem each_append {α : Type} {R : α → α → Prop} {l m l' m' : List α} (h : Each R l m) (h' : Each R l' m') :
    Each R (l ++ l') (m ++ m') := by
  induction h with
  | nil => exact h'
  | cons h _ ih => exact .cons h ih

theorem alikeTok_refl (t : Token) : AlikeTok (fun _ v w => v = w) (· = ·) t t := by
  cases t
  case ident v k => exact .word k rfl
  case singleQuotedString v => exact .single rfl
  case doubleQuotedString v => exact .double rfl
  all_goals exact .other _ (by simp) (by simp) (by simp)

theorem allAlike_of_map {L L' : List (Token × Span)} (h : L.map (·.1) = L'.map (·.1)) : AllAlike (fun _ v w => v = w) (· = ·) L L' := by
  induction L generalizing L' with
  | nil => cases L' with
    | nil => exact .nil
    | cons => simp at h
  | cons p L ih => cases L' with
    | nil => simp at h
    | cons q L' =>
      simp at h
      exact .cons (by rw [← h.1]; exact alikeTok_refl _) (ih h.2)

theorem valueOf_eq {v w : List Char} (h : ValueOf (· = ·) v w) : v = w := by
  induction h with
  | single h => rw [h]
  | double h => rw [h]
  | append _ _ ih ih' => rw [ih, ih']

theorem oneToOne_eq : OneToOne (· = ·) := by
  rintro v w v' w' rfl rfl
  exact Iff.rfl

/-- Only positions differ. -/
def onlyPlaces (L L' : List (Token × Span)) : May where
  place := SamePlace L L'
  name := (· = ·)
  text := (· = ·)
  value := (· = ·)

mutual
theorem twin_imp {M N : May} (hp : ∀ s t, M.place s t → N.place s t) (hn : ∀ v w, M.name v w → N.name v w)
    (ht : ∀ v w, M.text v w → N.text v w) (hv : ∀ v w, M.value v w → N.value v w) : ∀ {a b : Ast}, Twin M a b → Twin N a b
  | _, _, .span h => .span (hp _ _ h)
  | _, _, .str h => .str (ht _ _ h)
  | _, _, .nat n => .nat n
  | _, _, .bool b => .bool b
  | _, _, .ident h h' => .ident (hn _ _ h) (hp _ _ h')
  | _, _, .sstring h h' => .sstring (hv _ _ h) (hp _ _ h')
  | _, _, .binop o => .binop o
  | _, _, .unop o => .unop o
  | _, _, .none => .none
  | _, _, .some h => .some (twin_imp hp hn ht hv h)
  | _, _, .list h => .list (twins_imp hp hn ht hv h)
  | _, _, .node _ h => .node _ (twins_imp hp hn ht hv h)
theorem twins_imp {M N : May} (hp : ∀ s t, M.place s t → N.place s t) (hn : ∀ v w, M.name v w → N.name v w)
    (ht : ∀ v w, M.text v w → N.text v w) (hv : ∀ v w, M.value v w → N.value v w) : ∀ {a b : List Ast}, Twins M a b → Twins N a b
  | _, _, .nil => .nil
  | _, _, .cons h hl => .cons (twin_imp hp hn ht hv h) (twins_imp hp hn ht hv hl)
end

theorem each_imp {α : Type} {R R' : α → α → Prop} (h : ∀ a b, R a b → R' a b) {l m : List α} (hl : Each R l m) : Each R' l m := by
  induction hl with
  | nil => exact .nil
  | cons h' _ ih => exact .cons (h _ _ h') ih

theorem twinRes_imp {α : Type} {api : Api α} {M N : May} {old old' : List Issue} {r r' : Res α}
    (hp : ∀ s t, M.place s t → N.place s t) (hn : ∀ v w, M.name v w → N.name v w)
    (ht : ∀ v w, M.text v w → N.text v w) (hv : ∀ v w, M.value v w → N.value v w) (h : TwinRes api M old old' r r') :
    TwinRes api N old old' r r' := by
  cases h with
  | ret h hi =>
    refine .ret (twins_imp hp hn ht hv h) (each_imp ?_ hi)
    rintro i j ⟨g1, g2, g3, g4⟩
    exact ⟨g1, twinMsg_imp ht g2, hp _ _ g3, each_imp (fun f g hh => ⟨hh.1, hp _ _ hh.2⟩) g4⟩
  | panic m => exact .panic m
  | running => exact .running

/-- **C42**: layout does not matter.  Two texts in which the same tokens are written, with whatever blanks and comments before,
between and after them, are parsed alike: both calls return, panic or go on; they return the same statements and report the
same issues, except that every span goes from where its first token starts to where its last token stops in its own text. -/
theorem C42_layout {α : Type} (api : Api α) (src src' : List Char) (toks toks' : List (Token × Span)) (opts : Opts)
    (old old' : List Issue) (h : Written chk 0 src toks) (h' : Written chk 0 src' toks')
    (ht : toks.map (·.1) = toks'.map (·.1)) (hc : ¬ Occurs .COPY toks) (n : Nat) :
    TwinRes api (onlyPlaces (toks ++ [(.eof, ⟨blen src, blen src⟩)]) (toks' ++ [(.eof, ⟨blen src', blen src'⟩)])) old old'
      (api.run n chk src ⟨src, old⟩ opts) (api.run n chk src' ⟨src', old'⟩ opts) := by
  have key := C43_texts api src src' _ _ opts old old' (written_tokensOf h) (written_tokensOf h')
    (each_append (allAlike_of_map ht) (.cons (alikeTok_refl _) .nil)) ?_ (fun _ k v w _ _ h => h ▸ rfl) (fun _ v w h => h)
    (fun _ => ⟨fun _ => oneToOne_eq, oneToOne_eq⟩) n
  · refine twinRes_imp (M := mayDiffer (fun _ v w => v = w) (· = ·) _ _) (fun _ _ h => h) ?_ ?_ (fun _ _ h => valueOf_eq h) key
    · rintro v w (⟨rfl, rfl⟩ | ⟨-, h⟩ | h)
      · rfl
      · exact h
      · exact h
    · rintro v w (h | ⟨-, h⟩) <;> exact h
  · rintro ⟨v, sp, hm⟩
    simp at hm
    exact hc ⟨v, sp, hm⟩

/-! ### Equal up to spans -/

mutual
/-- The AST without its positions. -/
def Ast.noSpans : Ast → Ast
  | .span _ => .span ⟨0, 0⟩
  | .ident v _ => .ident v ⟨0, 0⟩
  | .sstring v _ => .sstring v ⟨0, 0⟩
  | .some a => .some a.noSpans
  | .list l => .list (Ast.noSpansL l)
  | .node k l => .node k (Ast.noSpansL l)
  | a => a
def Ast.noSpansL : List Ast → List Ast
  | [] => []
  | a :: l => a.noSpans :: Ast.noSpansL l
end

mutual
theorem twin_noSpans {L L' : List (Token × Span)} : ∀ {a b : Ast}, Twin (onlyPlaces L L') a b → a.noSpans = b.noSpans
  | _, _, .span _ => rfl
  | _, _, .str h => by cases h; rfl
  | _, _, .nat n => rfl
  | _, _, .bool b => rfl
  | _, _, .ident h _ => by cases h; rfl
  | _, _, .sstring h _ => by cases h; rfl
  | _, _, .binop o => rfl
  | _, _, .unop o => rfl
  | _, _, .none => rfl
  | _, _, .some h => by simp [Ast.noSpans, twin_noSpans h]
  | _, _, .list h => by simp [Ast.noSpans, twins_noSpans h]
  | _, _, .node _ h => by simp [Ast.noSpans, twins_noSpans h]
theorem twins_noSpans {L L' : List (Token × Span)} : ∀ {a b : List Ast}, Twins (onlyPlaces L L') a b → Ast.noSpansL a = Ast.noSpansL b
  | _, _, .nil => rfl
  | _, _, .cons h hl => by simp [Ast.noSpansL, twin_noSpans h, twins_noSpans hl]
end

/-- **C42**: in particular a call that returns on one text returns on the other, and the statements are equal but for their
positions, and as many issues, of the same levels and with the same messages, are reported. -/
theorem C42_noSpans {α : Type} (api : Api α) (src src' : List Char) (toks toks' : List (Token × Span)) (opts : Opts)
    (h : Written chk 0 src toks) (h' : Written chk 0 src' toks')
    (ht : toks.map (·.1) = toks'.map (·.1)) (hc : ¬ Occurs .COPY toks) (n : Nat) (a : α) (is : List Issue)
    (hr : api.run n chk src ⟨src, []⟩ opts = .ret a is) :
    ∃ b js, api.run n chk src' ⟨src', []⟩ opts = .ret b js ∧
      Ast.noSpansL ((api.stmts a).map (·.ast)) = Ast.noSpansL ((api.stmts b).map (·.ast)) ∧
      is.map (fun i => (i.level, i.message.text)) = js.map (fun i => (i.level, i.message.text)) := by
  have key := C42_layout api src src' toks toks' opts [] [] h h' ht hc n
  rw [hr] at key
  generalize api.run n chk src' ⟨src', []⟩ opts = r' at key
  generalize hr' : Res.ret a is = r at key
  cases key with
  | ret h hi =>
    cases hr'
    refine ⟨_, _, rfl, twins_noSpans h, ?_⟩
    clear hr h
    simp only [List.nil_append]
    induction hi with
    | nil => rfl
    | cons h _ ih => simp [h.1, twinMsg_text h.2.1, ih]
  | panic m => cases hr'
  | running => cases hr'

/-! ### Two uses of C43 -/

/-- The same letters, but for their case (ASCII letters only). -/
def SameLetters (v w : List Char) : Prop := v.map Char.toUpper = w.map Char.toUpper

theorem occurs_eof {k : Keyword} {L : List (Token × Span)} {sp : Span} : Occurs k (L ++ [(.eof, sp)]) ↔ Occurs k L := by
  constructor
  · rintro ⟨v, s, h⟩; simp at h; exact ⟨v, s, h⟩
  · rintro ⟨v, s, h⟩; exact ⟨v, s, by simp [h]⟩

/-- How results differ when the case of words is changed. -/
def onlyCase (L L' : List (Token × Span)) : May where
  place := SamePlace L L'
  name := SameLetters
  text := SameLetters
  value := (· = ·)

/-- **C43**: the case of keywords does not matter.  Two texts whose tokens are the same except for the case of the letters of
words are parsed alike, and the results are the same except for the case of identifiers (and positions).  The warning for
keywords that are not in capitals is off, and the delimiter, which is compared letter by letter, is not changed. -/
theorem C43_case {α : Type} (api : Api α) (src src' : List Char) (toks toks' : List (Token × Span)) (opts : Opts)
    (old old' : List Issue) (h : Written chk 0 src toks) (h' : Written chk 0 src' toks')
    (ht : AllAlike (fun _ => SameLetters) (· = ·) toks toks') (hc : ¬ Occurs .COPY toks) (hd : ¬ Occurs .DELIMITER toks)
    (hw : opts.warnCaps = false) (n : Nat) :
    TwinRes api (onlyCase (toks ++ [(.eof, ⟨blen src, blen src⟩)]) (toks' ++ [(.eof, ⟨blen src', blen src'⟩)])) old old'
      (api.run n chk src ⟨src, old⟩ opts) (api.run n chk src' ⟨src', old'⟩ opts) := by
  have key := C43_texts api src src' _ _ opts old old' (written_tokensOf h) (written_tokensOf h')
    (each_append ht (.cons (.other _ (by simp) (by simp) (by simp)) .nil)) (by rwa [occurs_eof]) (fun hh => by rw [hw] at hh; cases hh)
    (fun _ v w h => h) (fun hh => absurd (occurs_eof.1 hh) hd) n
  refine twinRes_imp (M := mayDiffer (fun _ => SameLetters) (· = ·) _ _) (fun _ _ h => h) ?_ ?_ (fun _ _ h => valueOf_eq h) key
  · rintro v w (⟨rfl, rfl⟩ | ⟨-, h⟩ | h)
    · rfl
    · exact h
    · exact congrArg (List.map Char.toUpper) h
  · rintro v w (h | ⟨-, h⟩)
    · exact congrArg (List.map Char.toUpper) h
    · exact h

/-- `w` is `v`, renamed by `f` unless it is a keyword. -/
def Renamed (f : List Char → List Char) (k : Keyword) (v w : List Char) : Prop :=
  if k = .NOT_A_KEYWORD ∨ k = .QUOTED_IDENTIFIER then w = f v else w = v

/-- How results differ when identifiers are renamed by `f`. -/
def onlyNames (f : List Char → List Char) (L L' : List (Token × Span)) : May where
  place := SamePlace L L'
  name := fun v w => w = v ∨ w = f v
  text := fun v w => w = v ∨ w = f v
  value := (· = ·)

/-- **C43**: identifiers are opaque.  Two texts whose tokens are the same except that every identifier has been renamed are
parsed alike, with all options, and the results are the same except for the renaming (and positions). -/
theorem C43_rename {α : Type} (api : Api α) (src src' : List Char) (toks toks' : List (Token × Span)) (opts : Opts)
    (old old' : List Issue) (f : List Char → List Char) (h : Written chk 0 src toks) (h' : Written chk 0 src' toks')
    (ht : AllAlike (Renamed f) (· = ·) toks toks') (hc : ¬ Occurs .COPY toks)
    (hd : Occurs .DELIMITER toks → ∀ v w, f v = f w → v = w) (n : Nat) :
    TwinRes api (onlyNames f (toks ++ [(.eof, ⟨blen src, blen src⟩)]) (toks' ++ [(.eof, ⟨blen src', blen src'⟩)])) old old'
      (api.run n chk src ⟨src, old⟩ opts) (api.run n chk src' ⟨src', old'⟩ opts) := by
  have key := C43_texts api src src' _ _ opts old old' (written_tokensOf h) (written_tokensOf h')
    (each_append ht (.cons (.other _ (by simp) (by simp) (by simp)) .nil)) (by rwa [occurs_eof])
    (fun _ k v w h1 h2 h => by unfold Renamed at h; rw [if_neg (by simp [h1, h2])] at h; rw [h]) (fun _ v w h => h)
    (fun hh => ⟨?_, oneToOne_eq⟩) n
  · have hR : ∀ k v w, Renamed f k v w → w = v ∨ w = f v := by
      intro k v w h
      unfold Renamed at h
      split at h
      · exact .inr h
      · exact .inl h
    refine twinRes_imp (M := mayDiffer (Renamed f) (· = ·) _ _) (fun _ _ h => h) ?_ ?_ (fun _ _ h => valueOf_eq h) key
    · rintro v w (⟨rfl, rfl⟩ | ⟨k, h⟩ | h)
      · exact .inl rfl
      · exact hR k _ _ h
      · exact .inl h.symm
    · rintro v w (h | ⟨k, h⟩)
      · exact .inl h.symm
      · exact hR k _ _ h
  · intro k v w v' w' h1 h2
    have hd := hd (occurs_eof.1 hh)
    unfold Renamed at h1 h2
    split at h1
    · rw [if_pos (by assumption)] at h2
      subst h1 h2
      exact ⟨congrArg f, hd _ _⟩
    · rw [if_neg (by assumption)] at h2
      subst h1 h2
      exact Iff.rfl

/-! ### Non-vacuity -/

/-- The same three tokens, written in two ways. -/
theorem ex_layout1 : Written true 0 c!"SELECT a,'x'" [(.ident c!"SELECT" .SELECT, ⟨0, 6⟩), (.ident c!"a" .NOT_A_KEYWORD, ⟨7, 8⟩),
    (.comma, ⟨8, 9⟩), (.singleQuotedString c!"x", ⟨9, 12⟩)] :=
  (C37_written_iff true _ _ (by decide)).2 ⟨⟨c!"SELECT a,'x'", 12, []⟩, by decide +kernel⟩
theorem ex_layout2 : Written true 0 c!"/*é*/SELECT\n a, -- b\n 'x' " [(.ident c!"SELECT" .SELECT, ⟨6, 12⟩),
    (.ident c!"a" .NOT_A_KEYWORD, ⟨14, 15⟩), (.comma, ⟨15, 16⟩), (.singleQuotedString c!"x", ⟨23, 26⟩)] :=
  (C37_written_iff true _ _ (by decide)).2 ⟨⟨c!"/*é*/SELECT\n a, -- b\n 'x' ", 27, []⟩, by decide +kernel⟩

/-- The hypotheses of C42 are met, the calls return, and the second one returns different spans. -/
example : ∃ a b is js, Api.one.run 40 true c!"SELECT a,'x'" ⟨c!"SELECT a,'x'", []⟩ { warnUnquoted := true } = .ret (some a) is ∧
    Api.one.run 40 true c!"/*é*/SELECT\n a, -- b\n 'x' " ⟨c!"/*é*/SELECT\n a, -- b\n 'x' ", []⟩ { warnUnquoted := true } = .ret (some b) js ∧
    a.ast.noSpans = b.ast.noSpans ∧ a.ast.spanRes = .some ⟨0, 12⟩ ∧ b.ast.spanRes = .some ⟨6, 26⟩ ∧ is.length = 1 ∧ js.length = 1 := by
  have hr : (Api.one.run 40 true c!"SELECT a,'x'" ⟨c!"SELECT a,'x'", []⟩ { warnUnquoted := true }).test (fun a is => match a with
    | some a => decide (a.ast.spanRes = .some ⟨0, 12⟩) && decide (is.length = 1) | none => false) = true := by decide +kernel
  have hr' : (Api.one.run 40 true c!"/*é*/SELECT\n a, -- b\n 'x' " ⟨c!"/*é*/SELECT\n a, -- b\n 'x' ", []⟩ { warnUnquoted := true }).test (fun a is => match a with
    | some a => decide (a.ast.spanRes = .some ⟨6, 26⟩) && decide (is.length = 1) | none => false) = true := by decide +kernel
  cases e : Api.one.run 40 true c!"SELECT a,'x'" ⟨c!"SELECT a,'x'", []⟩ { warnUnquoted := true } with
  | ret a is =>
    obtain ⟨b, js, h1, h2, h3⟩ := C42_noSpans Api.one _ _ _ _ { warnUnquoted := true } ex_layout1 ex_layout2 (by decide) (by
      rintro ⟨v, sp, h⟩; revert h; simp [Keyword.COPY, Keyword.SELECT, Keyword.NOT_A_KEYWORD]) 40 a is e
    rw [e] at hr
    rw [h1] at hr'
    cases a with
    | none => simp [Res.test] at hr
    | some a =>
      cases b with
      | none => simp [Res.test] at hr'
      | some b =>
        simp [Res.test] at hr hr'
        simp [Api.stmts, Ast.noSpansL] at h2
        exact ⟨a, b, is, js, rfl, h1, h2, hr.1, hr'.1, hr.2, hr'.2⟩
  | panic m => rw [e] at hr; simp [Res.test] at hr
  | running => rw [e] at hr; simp [Res.test] at hr

/-- Another text with the same words in another case, and one with the identifier renamed. -/
theorem ex_case : Written true 0 c!"Select A,'x'" [(.ident c!"Select" .SELECT, ⟨0, 6⟩), (.ident c!"A" .NOT_A_KEYWORD, ⟨7, 8⟩),
    (.comma, ⟨8, 9⟩), (.singleQuotedString c!"x", ⟨9, 12⟩)] :=
  (C37_written_iff true _ _ (by decide)).2 ⟨⟨c!"Select A,'x'", 12, []⟩, by decide +kernel⟩
theorem ex_rename : Written true 0 c!"SELECT users,'x'" [(.ident c!"SELECT" .SELECT, ⟨0, 6⟩), (.ident c!"users" .NOT_A_KEYWORD, ⟨7, 12⟩),
    (.comma, ⟨12, 13⟩), (.singleQuotedString c!"x", ⟨13, 16⟩)] :=
  (C37_written_iff true _ _ (by decide)).2 ⟨⟨c!"SELECT users,'x'", 16, []⟩, by decide +kernel⟩

/-- The hypotheses of `C43_case` are met. -/
example (n : Nat) := C43_case Api.one _ _ _ _ {} [] [] ex_layout1 ex_case
  (.cons (.word _ (by unfold SameLetters; decide)) (.cons (.word _ (by unfold SameLetters; decide)) (.cons (.other _ (by simp) (by simp) (by simp)) (.cons (.single rfl) .nil))))
  (by rintro ⟨v, sp, h⟩; revert h; simp [Keyword.COPY, Keyword.SELECT, Keyword.NOT_A_KEYWORD])
  (by rintro ⟨v, sp, h⟩; revert h; simp [Keyword.DELIMITER, Keyword.SELECT, Keyword.NOT_A_KEYWORD]) rfl n

/-- The hypotheses of `C43_rename` are met. -/
example (n : Nat) := C43_rename Api.one _ _ _ _ { warnCaps := true } [] [] (fun _ => c!"users") ex_layout1 ex_rename
  (.cons (.word _ (by unfold Renamed; decide)) (.cons (.word _ (by unfold Renamed; decide)) (.cons (.other _ (by simp) (by simp) (by simp)) (.cons (.single rfl) .nil))))
  (by rintro ⟨v, sp, h⟩; revert h; simp [Keyword.COPY, Keyword.SELECT, Keyword.NOT_A_KEYWORD])
  (by rintro ⟨v, sp, h⟩; revert h; simp [Keyword.DELIMITER, Keyword.SELECT, Keyword.NOT_A_KEYWORD]) n

end SqlParse
