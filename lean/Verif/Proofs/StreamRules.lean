import Verif.Proofs.Words
import Verif.Proofs.Stream
/-! Rules for the helper functions of the parser, on streams of tokens. -/
namespace SqlParse

theorem joinSpan_comm (a b : Span) : joinSpan a b = joinSpan b a := by
  simp [joinSpan, Nat.min_comm, Nat.max_comm]

theorem joinSpan_assoc (a b c : Span) : joinSpan (joinSpan a b) c = joinSpan a (joinSpan b c) := by
  simp [joinSpan, Nat.min_assoc, Nat.max_assoc]

theorem tableFind_lookup (k : Keyword) (tbl : List (Keyword × Kind)) : tableFind k tbl = tbl.lookup k := by
  induction tbl with
  | nil => rfl
  | cons p tbl ih =>
    obtain ⟨k', f⟩ := p
    unfold tableFind
    rw [List.lookup_cons]
    by_cases h : k = k'
    · subst h; simp
    · have : (k == k') = false := by simpa using h
      rw [if_neg h, this, ih]

/-- A table without the entries that are no words, and without the list marker. -/
def okTable (tbl : List (Keyword × Kind)) : Bool :=
  tbl.all fun p => decide (p.1 ≠ .NOT_A_KEYWORD) && decide (p.1 ≠ .«_LIST_»)

theorem lookup_mem {α β : Type} [BEq α] [LawfulBEq α] {k : α} {b : β} {tbl : List (α × β)} (h : tbl.lookup k = some b) : (k, b) ∈ tbl := by
  induction tbl with
  | nil => cases h
  | cons p tbl ih =>
    obtain ⟨k', b'⟩ := p
    rw [List.lookup_cons] at h
    cases hk : (k == k') with
    | true =>
      rw [hk] at h
      cases h
      rw [eq_of_beq hk]
      exact List.mem_cons_self ..
    | false =>
      rw [hk] at h
      exact List.mem_cons_of_mem _ (ih h)

theorem lookup_isKw {t : Token} {tbl : List (Keyword × Kind)} {K : Kind} (ho : okTable tbl = true) (h : tbl.lookup t.kw = some K) :
    t.isKw t.kw = true ∧ t.kw ≠ .«_LIST_» := by
  have hm := lookup_mem h
  have := List.all_eq_true.1 ho _ hm
  simp only [Bool.and_eq_true, decide_eq_true_eq] at this
  refine ⟨?_, this.2⟩
  cases t with
  | ident v k => simp [Token.isKw, Token.kw]
  | _ => exact absurd rfl this.1

section
variable {α β σ : Type} {e : Env} {ts ts1 ts2 r r1 tl : List Tk} {t : Token} {sp : Span}

theorem Next.elim {q : Token → Prop} {l : List Tk} (h : Next q l) : ∃ t sp tl, l = (t, sp) :: tl ∧ q t := by
  cases l with
  | nil => cases h
  | cons x tl => exact ⟨x.1, x.2, tl, rfl, h⟩

theorem p_iteT {c : Prop} [Decidable c] {p q : Prog α} {a : α} (hc : c) (h : P e p ts a r) : P e (if c then p else q) ts a r := by
  rw [if_pos hc]; exact h

theorem p_iteF {c : Prop} [Decidable c] {p q : Prog α} {a : α} (hc : ¬ c) (h : P e q ts a r) : P e (if c then p else q) ts a r := by
  rw [if_neg hc]; exact h

theorem p_mapRet {p : Prog α} {f : α → β} {a : α} (h : P e p ts a r) : P e (p >>= fun x => Prog.ret (f x)) ts (f a) r :=
  P.bind h (P.ret _)

theorem p_when_no {p : Prog Unit} : P e (Prog.when false p) ts () ts := by
  unfold Prog.when; simp; exact P.ret _

theorem p_when_f {b : Bool} {p : Prog Unit} (h : b = false) : P e (Prog.when b p) ts () ts := by
  subst h; exact p_when_no

theorem p_ident {a : Ast} (h : Idn e ts a r) : P e ident ts a r := by
  cases h with
  | @word v k sp r hk hq hm =>
    refine P.bind P.cur ?_
    refine P.bind P.isPg ?_
    have hx : P e (if k.reserved then err (.reserved v) sp
       else if k ≠ .QUOTED_IDENTIFIER then issueIf .unquoted .error v sp
       else Prog.when (decide (e.opts.dialect = .postgreSQL)) (err "quoted identifiers not supported by postgresql" sp))
         ((Token.ident v k, sp) :: r) () ((Token.ident v k, sp) :: r) := by
      refine p_iteF (by simp [hk]) ?_
      split
      · exact P.issueIf
      · next h =>
        refine p_when_f ?_
        exact decide_eq_false (hq (by simpa using h))
    exact P.bind hx (P.bind (P.nextA (by simp) hm) (P.ret _))
  | @quoted v sp r hd =>
    refine P.bind P.cur ?_
    refine P.bind P.isPg ?_
    refine p_iteT (by simp [hd]) ?_
    exact P.bind (P.next (by simp) (by simp [marker, Token.isKw])) (P.ret _)

theorem n_stk_no {tok : Token} (h : Next (· ≠ tok) r) : P e (SqlParse.stk tok) r none r := by
  obtain ⟨t, sp, tl, rfl, h⟩ := h.elim
  exact P.stk_no h

theorem n_skips_no {tok : Token} (h : Next (· ≠ tok) r) : P e (SqlParse.skips tok) r false r := by
  obtain ⟨t, sp, tl, rfl, h⟩ := h.elim
  exact P.skips_no h

theorem n_skw_no {k : Keyword} (h : NotKw k r) : P e (SqlParse.skw k) r none r := by
  obtain ⟨t, sp, tl, rfl, h⟩ := Next.elim h
  exact P.skw_no h

theorem p_ctk_lParen : P e (SqlParse.ctk .lParen) ((.lParen, sp) :: tl) sp tl := P.ctk (by simp) (by simp [marker, Token.isKw])
theorem p_ctk_rParen : P e (SqlParse.ctk .rParen) ((.rParen, sp) :: tl) sp tl := P.ctk (by simp) (by simp [marker, Token.isKw])
theorem p_ctk_comma : P e (SqlParse.ctk .comma) ((.comma, sp) :: tl) sp tl := P.ctk (by simp) (by simp [marker, Token.isKw])
theorem p_ctk_eq : P e (SqlParse.ctk .eq) ((.eq, sp) :: tl) sp tl := P.ctk (by simp) (by simp [marker, Token.isKw])
theorem p_ctk_period : P e (SqlParse.ctk .period) ((.period, sp) :: tl) sp tl := P.ctk (by simp) (by simp [marker, Token.isKw])
theorem p_skips_comma : P e (SqlParse.skips .comma) ((.comma, sp) :: tl) true tl := P.skips (by simp) (by simp [marker, Token.isKw])
theorem p_skips_period : P e (SqlParse.skips .period) ((.period, sp) :: tl) true tl := P.skips (by simp) (by simp [marker, Token.isKw])

theorem p_qualifiedName {a : Ast} (h : QName e ts a r) : P e qualifiedName ts a r := by
  cases h with
  | @mk _ p i h =>
    unfold SqlParse.qualifiedName
    suffices hg : ∀ acc : List (Ast × Span), ∃ (i0 : Ast) (rest : List Tk), P e SqlParse.ident ts i0 rest ∧
        P e (.loop (σ := List (Ast × Span) × Ast) (fun x => do
        let dot ← SqlParse.stk .period
        match dot with
        | some d => do
          let j ← SqlParse.ident
          return .cont (x.1 ++ [(x.2, d)], j)
        | none => return .done (nd% QualifiedName [x.1, x.2])) (acc, i0)) rest (nd% QualifiedName [acc ++ p, i]) r by
      obtain ⟨i0, rest, h1, h2⟩ := hg []
      exact P.bind h1 h2
    induction h with
    | @last ts r i h hr =>
      intro acc
      refine ⟨i, r, p_ident h, P.done (P.bind (n_stk_no hr) ?_)⟩
      rw [List.append_nil]
      exact P.ret _
    | @dot ts r r' i j d p h hs ih =>
      intro acc
      obtain ⟨i0, rest, h1, h2⟩ := ih (acc ++ [(i, d)])
      refine ⟨i, _, p_ident h, P.cont (P.bind (P.stk (by simp) (by simp [marker, Token.isKw])) (P.bind h1 (P.ret _))) ?_⟩
      rw [List.append_assoc] at h2
      exact h2

theorem p_strPair {a : List Char × Span} (h : Strs ts a r) : P e strPair ts a r := by
  have hm : ∀ {t : Token} {v : List Char}, t.strVal? = some v → t ≠ .eof ∧ marker e.opts t = false := by
    intro t v h
    cases t with
    | singleQuotedString _ => exact ⟨by simp, by simp [marker, Token.isKw]⟩
    | doubleQuotedString _ => exact ⟨by simp, by simp [marker, Token.isKw]⟩
    | _ => cases h
  have key : ∀ {ts : List Tk} {a : List Char × Span} {r : List Tk}, Strs ts a r → ∀ ab : List Char × Span,
      P e (.loop (σ := List Char × Span) (fun ab => do
      let (t', sp') ← cur
      match t'.strVal? with
      | some v' => do
        next
        return .cont (ab.1 ++ v', joinSpan ab.2 sp')
      | none => return .done ab) ab) ts (ab.1 ++ a.1, joinSpan ab.2 a.2) r := by
    intro ts a r h
    have hend : ∀ {r : List Tk} (ab : List Char × Span), Next (fun t => t.strVal? = none) r →
        P e (.loop (σ := List Char × Span) (fun ab => do
      let (t', sp') ← cur
      match t'.strVal? with
      | some v' => do
        next
        return .cont (ab.1 ++ v', joinSpan ab.2 sp')
      | none => return .done ab) ab) r ab r := by
      intro r ab hr
      obtain ⟨t, sp, tl, rfl, h⟩ := hr.elim
      refine P.done (P.bind P.cur ?_)
      simp only [h]
      exact P.ret _
    induction h with
    | @one t sp v r h hr =>
      intro ab
      simp only [stringText_eq] at h hr
      refine P.cont (y := (ab.1 ++ v, joinSpan ab.2 sp)) (P.bind P.cur ?_) (hend _ hr)
      simp only [h]
      exact P.bind (P.next (hm h).1 (hm h).2 (after_str h _ _)) (P.ret _)
    | @cons t sp sp' v v' r r' h hs ih =>
      intro ab
      simp only [stringText_eq] at h
      refine P.cont (y := (ab.1 ++ v, joinSpan ab.2 sp)) (ts1 := r) (P.bind P.cur ?_) ?_
      · simp only [h]
        exact P.bind (P.next (hm h).1 (hm h).2 (after_str h _ _)) (P.ret _)
      · have := ih (ab.1 ++ v, joinSpan ab.2 sp)
        simp only [List.append_assoc, joinSpan_assoc] at this
        exact this
  unfold SqlParse.strPair
  cases h with
  | @one t sp v r h hr =>
    simp only [stringText_eq] at h hr
    refine P.bind P.cur ?_
    simp only [h]
    refine P.bind (P.next (hm h).1 (hm h).2 (after_str h _ _)) ?_
    obtain ⟨t, sp, tl, rfl, h⟩ := hr.elim
    refine P.done (P.bind P.cur ?_)
    simp only [h]
    exact P.ret _
  | @cons t sp sp' v v' r r' h hs =>
    simp only [stringText_eq] at h
    refine P.bind P.cur ?_
    simp only [h]
    exact P.bind (P.next (hm h).1 (hm h).2 (after_str h _ _)) (key hs (v, sp))

theorem p_string {a : Ast} (h : Str ts a r) : P e string ts a r := by
  cases h with
  | mk h => exact P.bind (p_strPair h) (P.ret _)

theorem p_int {max : Nat} {a : Nat × Span} (h : Num max ts a r) : P e (int max) ts a r := by
  cases h with
  | @mk v sp r h =>
    simp only [numberOf_eq] at h ⊢
    refine P.bind P.cur ?_
    refine P.bind (p_when_f (by simpa using h)) (P.bind (P.next (by simp) (by simp [marker, Token.isKw])) ?_)
    rw [if_neg (by omega)]
    exact P.ret _

theorem p_float {v : List Char} : P e float ((.float v, sp) :: r) (v, sp) r := by
  refine P.bind P.cur ?_
  exact P.bind (P.next (by simp) (by simp [marker, Token.isKw])) (P.ret _)

theorem p_commaList {item : Prog α} {l : List α} (h : CommaL (P e item) ts l r) : P e (commaList item) ts l r := by
  unfold SqlParse.commaList SqlParse.sepLoop
  suffices hg : ∀ acc : List α, P e (.loop (fun acc => do
      let a ← item
      let m ← SqlParse.skips .comma
      return (if m then .cont (acc ++ [a]) else .done (acc ++ [a]))) acc) ts (acc ++ l) r from hg []
  induction h with
  | @one ts r a h hr =>
    intro acc
    exact P.done (P.bind h (P.bind (n_skips_no hr) (P.ret _)))
  | @cons ts r r' a sp l h hl ih =>
    intro acc
    have := ih (acc ++ [a])
    rw [List.append_assoc] at this
    exact P.cont (P.bind h (P.bind p_skips_comma (P.ret _))) this

theorem p_recoveredEnd {name : String} {endP : Token → Bool} (h : Next (fun t => endP t = true) r) :
    P e (recoveredEnd name endP true) r () r := by
  obtain ⟨t, sp, tl, rfl, hx⟩ := h.elim
  exact P.bind p_when_no (P.bind P.curT (p_when_f (by simp [hx])))

theorem p_recovered {name : String} {endP : Token → Bool} {p : Prog α} {a : α} (h : P e p ts a r)
    (hr : Next (fun t => endP t = true) r) : P e (recovered name endP p) ts (some a) r :=
  P.bind h.tryP (P.bind (p_recoveredEnd hr) (P.ret _))

theorem p_recoveredAcc {name : String} {endP : Token → Bool} {p : Prog (Bool × σ)} {x : σ} (h : P e p ts (true, x) r)
    (hr : Next (fun t => endP t = true) r) : P e (recoveredAcc name endP p) ts x r :=
  P.bind h (P.bind (p_recoveredEnd hr) (P.ret _))

theorem p_accDone {body : σ → Prog (Step σ σ)} {x y : σ} (h : P e (body x) ts (.done y) r) : P e (accLoop body x) ts (true, y) r :=
  P.done (P.bind h.tryP (P.ret _))

theorem p_accCont {body : σ → Prog (Step σ σ)} {x y : σ} {z : Bool × σ} (h : P e (body x) ts (.cont y) r1)
    (hr : P e (accLoop body y) r1 z r) : P e (accLoop body x) ts z r :=
  P.cont (P.bind h.tryP (P.ret _)) hr

/-- Lists whose items are parsed with recovery at `)` and `,`. -/
theorem p_recList {name : String} {item : Prog α} {l : List α} {rp : Span} (h : CommaL (P e item) ts l ((.rParen, rp) :: r)) :
    P e (recList name isRParenComma item) ts l ((.rParen, rp) :: r) := by
  unfold SqlParse.recList
  suffices hg : ∀ acc : List α, P e (.loop (fun acc => do
      let x ← SqlParse.recovered name isRParenComma item
      let acc' := acc ++ x.toList
      let m ← SqlParse.skips .comma
      return (if m then .cont acc' else .done acc')) acc) ts (acc ++ l) ((.rParen, rp) :: r) from hg []
  generalize hq : (Token.rParen, rp) :: r = q at h ⊢
  induction h with
  | @one ts q a h hr =>
    intro acc
    subst hq
    exact P.done (P.bind (p_recovered h (by simp [Next, isRParenComma])) (P.bind (n_skips_no hr) (P.ret _)))
  | @cons ts r1 q a sp l h hl ih =>
    intro acc
    have := ih hq (acc ++ [a])
    rw [List.append_assoc] at this
    exact P.cont (P.bind (p_recovered h (by simp [Next, isRParenComma])) (P.bind p_skips_comma (P.ret _))) this

theorem p_hintIndexList {l : List Ast} {rp : Span} (h : CommaL (Idn e) ts l ((.rParen, rp) :: r)) :
    P e hintIndexList ts l ((.rParen, rp) :: r) := by
  unfold SqlParse.hintIndexList
  suffices hg : ∀ acc : List Ast, P e (.loop (fun acc => do
    let x ← SqlParse.recovered "')' or ','" isRParenComma SqlParse.ident
    let t ← SqlParse.curT
    if t = .rParen then return .done (acc ++ x.toList)
    else do
      let _ ← SqlParse.ctk .comma
      return .cont (acc ++ x.toList)) acc) ts (acc ++ l) ((.rParen, rp) :: r) from hg []
  generalize hq : (Token.rParen, rp) :: r = q at h ⊢
  induction h with
  | @one ts q a h hr =>
    intro acc
    subst hq
    exact P.done (P.bind (p_recovered (p_ident h) (by simp [Next, isRParenComma])) (P.bind P.curT (p_iteT rfl (P.ret _))))
  | @cons ts r1 q a sp l h hl ih =>
    intro acc
    have := ih hq (acc ++ [a])
    rw [List.append_assoc] at this
    exact P.cont (P.bind (p_recovered (p_ident h) (by simp [Next, isRParenComma])) (P.bind P.curT (p_iteF (by simp)
      (P.bind p_ctk_comma (P.ret _))))) this

/-- Items in parentheses with recovery at `)`. -/
theorem p_parenItems {m : String} {item : Prog α} {l : List α} {rp : Span} (h : CommaL (P e item) ts l ((.rParen, rp) :: r)) :
    P e (recoveredAcc m isRParen (accLoop (fun acc => do
    let i ← item
    let m ← SqlParse.skips .comma
    return (if m then .cont (acc ++ [i]) else .done (acc ++ [i]))) [])) ts l ((.rParen, rp) :: r) := by
  refine p_recoveredAcc ?_ (by simp [Next, isRParen])
  suffices hg : ∀ acc : List α, P e (accLoop (fun acc => do
    let i ← item
    let m ← SqlParse.skips .comma
    return (if m then .cont (acc ++ [i]) else .done (acc ++ [i]))) acc) ts (true, acc ++ l) ((.rParen, rp) :: r) from hg []
  generalize hq : (Token.rParen, rp) :: r = q at h ⊢
  induction h with
  | @one ts q a h hr =>
    intro acc
    exact p_accDone (P.bind h (P.bind (n_skips_no hr) (P.ret _)))
  | @cons ts r1 q a sp l h hl ih =>
    intro acc
    have := ih hq (acc ++ [a])
    rw [List.append_assoc] at this
    exact p_accCont (P.bind h (P.bind p_skips_comma (P.ret _))) this

theorem CommaL.map {R R' : List Tk → α → List Tk → Prop} (hR : ∀ {ts a r}, R ts a r → R' ts a r) {l : List α}
    (h : CommaL R ts l r) : CommaL R' ts l r := by
  induction h with
  | one h hr => exact .one (hR h) hr
  | cons h _ ih => exact .cons (hR h) ih

theorem OptKw.map {k : Keyword} {R R' : Span → List Tk → α → List Tk → Prop} (hR : ∀ {sp ts a r}, R sp ts a r → R' sp ts a r)
    {o : Option α} (h : OptKw k R ts o r) : OptKw k R' ts o r := by
  cases h with
  | none h => exact .none h
  | some h hr => exact .some h (hR hr)

theorem p_optKw {k : Keyword} {f : Span → Prog α} {o : Option α} (h : OptKw k (fun sp => P e (f sp)) ts o r)
    (hk : k ≠ .«_LIST_» := by decide) : P e (SqlParse.skw k >>= fun s => optMap s f) ts o r := by
  cases h with
  | none h => exact P.bind (n_skw_no h) (P.ret _)
  | some h hr => exact P.bind (P.skw h hk) (P.bind hr (P.ret _))

theorem p_optK {k : Keyword} {o : Option Span} (h : OptK k ts o r) (hk : k ≠ .«_LIST_» := by decide) : P e (SqlParse.skw k) ts o r := by
  cases h with
  | none h => exact n_skw_no h
  | some h => exact P.skw h hk

theorem p_ckwsTail {ks : List Keyword} {s : Span} (h : Kws ks ts s r) (hk : ∀ k ∈ ks, k ≠ .«_LIST_») (s0 : Span) :
    P e (ckwsTail s0 ks) ts (joinSpan s0 s) r := by
  induction h generalizing s0 with
  | @one k t sp r h =>
    refine P.bind (P.ckw h (hk _ (List.mem_cons_self ..))) ?_
    rw [joinSpan_comm]
    exact P.ret _
  | @cons k k' ks t sp sp' r r' h hs ih =>
    refine P.bind (P.ckw h (hk _ (List.mem_cons_self ..))) ?_
    have := ih (fun k hm => hk k (List.mem_cons_of_mem _ hm)) (joinSpan sp s0)
    rw [joinSpan_comm sp s0, joinSpan_assoc] at this
    rw [joinSpan_comm sp s0]
    exact this

theorem p_ckws {k : Keyword} {ks : List Keyword} {s : Span} (h : Kws (k :: ks) ts s r)
    (hk : ∀ k' ∈ k :: ks, k' ≠ .«_LIST_» := by decide) : P e (ckws k ks) ts s r := by
  cases h with
  | @one k t sp r h => exact P.bind (P.ckw h (hk _ (List.mem_cons_self ..))) (P.ret _)
  | @cons k k' ks t sp sp' r r' h hs =>
    exact P.bind (P.ckw h (hk _ (List.mem_cons_self ..))) (p_ckwsTail hs (fun k hm => hk k (List.mem_cons_of_mem _ hm)) sp)

/-- The keywords one by one. -/
theorem Kws.elim2 {k k' : Keyword} {s : Span} (h : Kws [k, k'] ts s r) : ∃ t t' a b, ts = (t, a) :: (t', b) :: r ∧ t.isKw k = true ∧
    t'.isKw k' = true ∧ s = joinSpan a b := by
  cases h with
  | cons h hs =>
    cases hs with
    | one h' => exact ⟨_, _, _, _, rfl, h, h', rfl⟩

theorem Kws.elim1 {k : Keyword} {s : Span} (h : Kws [k] ts s r) : ∃ t, ts = (t, s) :: r ∧ t.isKw k = true := by
  cases h with
  | one h => exact ⟨_, rfl, h⟩

theorem Kws.elim {k : Keyword} {ks : List Keyword} {s : Span} (h : Kws (k :: ks) ts s r) : ∃ t a tl, ts = (t, a) :: tl ∧ t.isKw k = true := by
  cases h with
  | one h => exact ⟨_, _, _, rfl, h⟩
  | cons h _ => exact ⟨_, _, _, rfl, h⟩

theorem p_kwNode {tbl : List (Keyword × Kind)} {K : Kind} (ho : okTable tbl = true) (h : tbl.lookup t.kw = some K) :
    P e (kwNode tbl) ((t, sp) :: tl) (some (.node K [.span sp])) tl := by
  obtain ⟨h1, h2⟩ := lookup_isKw ho h
  refine P.bind P.curT ?_
  rw [tableFind_lookup, h]
  exact P.bind (P.ckw h1 h2) (P.ret _)

theorem p_kwNode_no {tbl : List (Keyword × Kind)} (h : Next (fun t => tbl.lookup t.kw = none) r) : P e (SqlParse.kwNode tbl) r none r := by
  obtain ⟨t, sp, tl, rfl, h⟩ := h.elim
  refine P.bind P.curT ?_
  rw [tableFind_lookup, h]
  exact P.ret _

theorem p_consNode {tbl : List (Keyword × Kind)} {K : Kind} (ho : okTable tbl = true) (h : tbl.lookup t.kw = some K) :
    P e (consNode tbl) ((t, sp) :: tl) (some (.node K [.span sp])) tl := by
  obtain ⟨h1, h2⟩ := lookup_isKw ho h
  refine P.bind P.curT ?_
  rw [tableFind_lookup, h]
  exact P.bind (P.consume (isKw_ne_eof h1) (marker_kw h1 h2) (after_kw h1 _ _)) (P.ret _)

theorem p_consNode_no {tbl : List (Keyword × Kind)} (h : Next (fun t => tbl.lookup t.kw = none) r) : P e (SqlParse.consNode tbl) r none r := by
  obtain ⟨t, sp, tl, rfl, h⟩ := h.elim
  refine P.bind P.curT ?_
  rw [tableFind_lookup, h]
  exact P.ret _


theorem p_many_none {p : Prog (Option α)} {x : List α} (h : P e p ts none r) :
    P e (.loop (fun acc => do
    let r ← p
    return (match r with
      | some a => .cont (acc ++ [a])
      | none => .done acc)) x) ts x r := P.done (P.bind h (P.ret _))

theorem p_many_some {p : Prog (Option α)} {x l : List α} {a : α} (h : P e p ts (some a) r)
    (hr : P e (.loop (fun acc => do
    let r ← p
    return (match r with
      | some a => .cont (acc ++ [a])
      | none => .done acc)) (x ++ [a])) r (x ++ [a] ++ l) ts2) :
    P e (.loop (fun acc => do
    let r ← p
    return (match r with
      | some a => .cont (acc ++ [a])
      | none => .done acc)) x) ts (x ++ a :: l) ts2 := by
  rw [List.append_assoc] at hr
  exact P.cont (P.bind h (P.ret _)) hr

/-- The loop of `manyOpt`, after the items `acc`. -/
def manyFrom (p : Prog (Option α)) (acc : List α) : Prog (List α) := .loop (fun acc => do
    let r ← p
    return (match r with
      | some a => .cont (acc ++ [a])
      | none => .done acc)) acc

theorem p_manyOpt {p : Prog (Option α)} {l : List α} (h : ∀ x, P e (manyFrom p x) ts (x ++ l) r) : P e (manyOpt p) ts l r := h []

theorem p_flags {tbl : List (Keyword × Kind)} {l : List Ast} (ho : okTable tbl = true) (h : Flags tbl ts l r) :
    P e (manyOpt (kwNode tbl)) ts l r := by
  refine p_manyOpt ?_
  induction h with
  | nil h =>
    intro acc
    rw [List.append_nil]
    exact p_many_none (p_kwNode_no h)
  | @cons t sp K r r' l h hr ih =>
    intro acc
    exact p_many_some (p_kwNode ho h) (ih _)

end
end SqlParse
