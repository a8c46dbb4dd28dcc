import Verif.Proofs.StreamOps
/-! The operands of expressions, on streams of tokens. -/
namespace SqlParse

section
variable {α β σ : Type} {e : Env} {ts ts1 ts2 r r1 r2 tl : List Tk} {t : Token} {sp : Span} {inner : Bool}

theorem od_true (h : t.isKw .TRUE = true) : POd e ((t, sp) :: r) (nd% Bool [true, sp]) r := by
  intro inner st ht
  obtain ⟨v, rfl⟩ := isKw_iff h
  refine P.bind P.curT ?_
  branch
  exact p_doExpr ht (P.bind (P.ckw h) (P.ret _))

theorem od_false (h : t.isKw .FALSE = true) : POd e ((t, sp) :: r) (nd% Bool [false, sp]) r := by
  intro inner st ht
  obtain ⟨v, rfl⟩ := isKw_iff h
  refine P.bind P.curT ?_
  branch
  exact p_doExpr ht (P.bind (P.ckw h) (P.ret _))

theorem od_null (h : t.isKw .NULL = true) : POd e ((t, sp) :: r) (nd% Null [sp]) r := by
  intro inner st ht
  obtain ⟨v, rfl⟩ := isKw_iff h
  refine P.bind P.curT ?_
  branch
  exact p_doExpr ht (P.bind (P.ckw h) (P.ret _))

theorem od_star : POd e ((.mul, sp) :: r) (nd% Identifier [[nd% IdentifierPart_Star [sp]]]) r := by
  intro inner st ht
  refine P.bind P.curT ?_
  skipIfs
  refine p_iteT (by simp [ht]) ?_
  exact p_doExpr ht (P.bind (P.ctk (by simp) (by simp [marker, Token.isKw])) (P.ret _))

theorem od_integer {n : Nat × Span} (h : Num u64Max ts n r) : POd e ts (nd% Integer [n]) r := by
  intro inner st ht
  have hp := p_int (e := e) h
  cases h
  refine P.bind P.curT ?_
  skipIfs
  refine P.bind P.listHack ?_
  skipIfs
  exact p_doExpr ht (P.bind hp (P.ret _))

theorem od_float {v : List Char} : POd e ((.float v, sp) :: r) (nd% Float [(v, sp)]) r := by
  intro inner st ht
  refine P.bind P.curT ?_
  skipIfs
  refine P.bind P.listHack ?_
  skipIfs
  exact p_doExpr ht (P.bind p_float (P.ret _))

theorem Strs.first {a : List Char × Span} (h : Strs ts a r) : ∃ t sp tl, ts = (t, sp) :: tl ∧ t.isStr = true := by
  cases h with
  | one h _ => exact ⟨_, _, _, rfl, by simp [Token.isStr, ← stringText_eq, h]⟩
  | cons h _ => exact ⟨_, _, _, rfl, by simp [Token.isStr, ← stringText_eq, h]⟩

theorem od_str {a : Ast} (h : Str ts a r) : POd e ts a r := by
  intro inner st ht
  have hp := p_string (e := e) h
  cases h with
  | mk h =>
    obtain ⟨t, sp, tl, rfl, hs⟩ := h.first
    refine P.bind P.curT ?_
    cases t with
    | singleQuotedString v =>
      skipIfs
      refine P.bind P.listHack ?_
      branch
      exact p_doExpr ht hp
    | doubleQuotedString v =>
      skipIfs
      refine P.bind P.listHack ?_
      branch
      exact p_doExpr ht hp
    | _ => cases hs

theorem od_arg (hm : argTk e.opts e.args (t, sp) = true) (hl : t.isKw .«_LIST_» = false) : POd e ((t, sp) :: r) (nd% Arg [e.num sp, sp]) r := by
  intro inner st ht
  have hp : t ≠ .eof → P e exprArg ((t, sp) :: r) (nd% Arg [e.num sp, sp]) r := fun he => P.bind (P.takeArg he hm) (P.ret _)
  replace hm : marker e.opts t = true := by simp [argTk] at hm; exact hm.1
  unfold marker at hm
  simp only [hl, Bool.false_and, Bool.or_false, Bool.or_eq_true, Bool.and_eq_true, decide_eq_true_eq] at hm
  rcases hm with ⟨rfl, ha⟩ | ⟨rfl, ha⟩ <;>
  · refine P.bind P.curT ?_
    skipIfs
    refine P.bind P.listHack ?_
    skipIfs
    exact P.bind P.arguments (p_iteT ha (p_doExpr ht (hp (by simp))))

theorem od_list (hm : argTk e.opts e.args (t, sp) = true) (hl : t.isKw .«_LIST_» = true) : POd e ((t, sp) :: r) (nd% ListHack [e.num sp, sp]) r := by
  intro inner st ht
  have hp : P e (.op .takeArg) ((t, sp) :: r) (e.num sp, sp) r := P.takeArg (isKw_ne_eof hl) hm
  obtain ⟨v, rfl⟩ := isKw_iff hl
  have hh : e.opts.listHack = true := by
    simp [argTk, marker, Token.isKw] at hm
    exact hm.1
  refine P.bind P.curT ?_
  skipIfs
  refine P.bind P.listHack (p_iteT (by simp [hh, Token.isKw]) (p_doExpr ht ?_))
  exact P.bind P.cur (P.bind P.capsWarn (P.bind hp (P.ret _)))

theorem od_dollar {n : Nat} (h : e.opts.arguments = .dollar) :
    POd e ((.dollarArg n, sp) :: r) (nd% Arg [if n = 0 then usizeMod - 1 else n - 1, sp]) r := by
  intro inner st ht
  refine P.bind P.curT ?_
  skipIfs
  refine P.bind P.listHack ?_
  skipIfs
  refine P.bind P.arguments (p_iteT h (p_doExpr ht (P.bind p_consTk ?_)))
  exact P.ret _

theorem od_paren {lp rp : Span} {a : Ast} (h : P e exprParen ts a ((.rParen, rp) :: r)) : POd e ((.lParen, lp) :: ts) a r := by
  intro inner st ht
  refine P.bind P.curT ?_
  skipIfs
  refine P.bind P.listHack ?_
  skipIfs
  exact p_doExpr ht (P.bind p_ctk_lParen (P.bind h (P.bind p_ctk_rParen (P.ret _))))

theorem od_globalVar {g d s : Span} {v : List Char} {k : Keyword} (hm : e.noArg (.ident v k, s)) :
    POd e ((.atAtGlobal, g) :: (.period, d) :: (.ident v k, s) :: r)
        (nd% Variable [some g, (none : Option Span), some d,
          (if k = .TIME_ZONE then ond% Variable_TimeZone [] else ond% Variable_Other [v] : OAst), s]) r := by
  intro inner st ht
  refine P.bind P.curT ?_
  skipIfs
  refine P.bind P.listHack ?_
  skipIfs
  refine p_doExpr ht ?_
  refine P.bind (P.stk (by simp) (by simp [marker, Token.isKw])) (P.bind (p_optIfF rfl) (P.bind p_ctk_period (P.bind P.curT ?_)))
  exact P.bind (P.consumeA (by simp) hm) (P.ret _)

theorem od_sessionVar {g d s : Span} {v : List Char} {k : Keyword} (hm : e.noArg (.ident v k, s)) :
    POd e ((.atAtSession, g) :: (.period, d) :: (.ident v k, s) :: r)
        (nd% Variable [(none : Option Span), some g, some d,
          (if k = .TIME_ZONE then ond% Variable_TimeZone [] else ond% Variable_Other [v] : OAst), s]) r := by
  intro inner st ht
  refine P.bind P.curT ?_
  skipIfs
  refine P.bind P.listHack ?_
  skipIfs
  refine p_doExpr ht ?_
  refine P.bind (P.stk_no (by simp)) (P.bind (p_optIfT rfl (P.ctk (by simp) (by simp [marker, Token.isKw]))) (P.bind p_ctk_period (P.bind P.curT ?_)))
  exact P.bind (P.consumeA (by simp) hm) (P.ret _)

theorem od_intervalP {x : List Nat × Span} {u : OAst × Span} (h : t.isKw .INTERVAL = true) (hv : P e intervalValue ts x r1)
    (hu : TimeUnit r1 u r) : POd e ((t, sp) :: ts) (nd% Interval [sp, x, u]) r := by
  intro inner st ht
  obtain ⟨v, rfl⟩ := isKw_iff h
  refine P.bind P.curT ?_
  branch
  exact p_doExpr ht (P.bind (p_consKw h) (P.bind hv (P.bind (p_timeUnit hu) (P.ret _))))

theorem p_intervalStr {v : List Char} {sp' : Span} {l : List Nat} (hs : Strs ts (v, sp') r) (hv : IntervalText v l) :
    P e intervalValue ts (l, sp') r := by
  have hp := p_strPair (e := e) hs
  obtain ⟨t, sp, tl, rfl, h⟩ := hs.first
  refine P.bind P.curT (p_iteT h (P.bind hp (P.bind (p_intervalParts (intervalText_split hv) [] sp') (P.ret _))))

theorem p_intervalInt {n : Nat} {sp' : Span} (hn : Num i64Max ts (n, sp') r) : P e intervalValue ts ([n], sp') r := by
  have hp := p_int (e := e) hn
  cases hn
  refine P.bind P.curT ?_
  skipIfs
  exact P.bind hp (P.ret _)

theorem p_timestampArgs {c1 c2 : Span} {u : OAst × Span} {a b : Ast} (hu : TimeUnit ts u ((.comma, c1) :: r1))
    (ha : P e exprOuter r1 a ((.comma, c2) :: r2)) (hb : P e exprOuter r2 b r) : P e (timestampArgs parseSelect) ts (u, a, b) r :=
  P.bind (p_timeUnit hu) (P.bind p_ctk_comma (P.bind ha (P.bind p_ctk_comma (P.bind hb (P.ret _)))))

theorem od_timestampAdd {lp c1 c2 rp : Span} {u : OAst × Span} {a b : Ast}
    (h : t.isKw .TIMESTAMPADD = true) (hu : TimeUnit ts u ((.comma, c1) :: r1)) (ha : P e exprOuter r1 a ((.comma, c2) :: r2))
    (hb : P e exprOuter r2 b ((.rParen, rp) :: r)) : POd e ((t, sp) :: (.lParen, lp) :: ts) (nd% TimestampAdd [sp, u, a, b]) r := by
  intro inner st ht
  obtain ⟨v, rfl⟩ := isKw_iff h
  refine P.bind P.curT ?_
  branch
  exact p_doExpr ht (P.bind (p_consKw h) (P.bind p_ctk_lParen (P.bind (p_recovered (p_timestampArgs hu ha hb) (by simp [Next, isRParen]))
    (P.bind p_ctk_rParen (P.ret _)))))

theorem od_timestampDiff {lp c1 c2 rp : Span} {u : OAst × Span} {a b : Ast}
    (h : t.isKw .TIMESTAMPDIFF = true) (hu : TimeUnit ts u ((.comma, c1) :: r1)) (ha : P e exprOuter r1 a ((.comma, c2) :: r2))
    (hb : P e exprOuter r2 b ((.rParen, rp) :: r)) : POd e ((t, sp) :: (.lParen, lp) :: ts) (nd% TimestampDiff [sp, u, a, b]) r := by
  intro inner st ht
  obtain ⟨v, rfl⟩ := isKw_iff h
  refine P.bind P.curT ?_
  branch
  exact p_doExpr ht (P.bind (p_consKw h) (P.bind p_ctk_lParen (P.bind (p_recovered (p_timestampArgs hu ha hb) (by simp [Next, isRParen]))
    (P.bind p_ctk_rParen (P.ret _)))))

theorem od_cast {t' : Token} {lp as rp : Span} {a d : Ast} (h : t.isKw .CAST = true)
    (ha : P e exprOuter ts a ((t', as) :: r1)) (h' : t'.isKw .AS = true) (hd : P e (parseDataType false) r1 d ((.rParen, rp) :: r)) :
    POd e ((t, sp) :: (.lParen, lp) :: ts) (nd% Cast [sp, a, as, d]) r := by
  intro inner st ht
  obtain ⟨v, rfl⟩ := isKw_iff h
  refine P.bind P.curT ?_
  skipIfs
  refine P.bind P.listHack ?_
  branch
  exact p_doExpr ht (P.bind (P.ckw h) (P.bind p_ctk_lParen (P.bind (p_recovered (P.bind ha (P.bind (P.ckw h') (P.bind hd (P.ret _))))
    (by simp [Next, isRParen])) (P.bind p_ctk_rParen (P.ret _)))))

theorem od_count {lp rp : Span} {d : Option Span} {a : Ast} (h : t.isKw .COUNT = true)
    (hd : OptK .DISTINCT ts d r1) (ha : P e exprOuter r1 a ((.rParen, rp) :: r)) :
    POd e ((t, sp) :: (.lParen, lp) :: ts) (nd% Count [sp, d, a]) r := by
  intro inner st ht
  obtain ⟨v, rfl⟩ := isKw_iff h
  refine P.bind P.curT ?_
  skipIfs
  refine P.bind P.listHack ?_
  branch
  exact p_doExpr ht (P.bind (P.ckw h) (P.bind p_ctk_lParen (P.bind (p_optK hd) (P.bind (p_recovered ha (by simp [Next, isRParen]))
    (P.bind p_ctk_rParen (P.ret _))))))

theorem od_groupConcat {lp rp : Span} {d : Option Span} {a : Ast} (h : t.isKw .GROUP_CONCAT = true)
    (hd : OptK .DISTINCT ts d r1) (ha : P e exprOuter r1 a ((.rParen, rp) :: r)) :
    POd e ((t, sp) :: (.lParen, lp) :: ts) (nd% GroupConcat [sp, d, a]) r := by
  intro inner st ht
  obtain ⟨v, rfl⟩ := isKw_iff h
  refine P.bind P.curT ?_
  skipIfs
  refine P.bind P.listHack ?_
  branch
  exact p_doExpr ht (P.bind (P.ckw h) (P.bind p_ctk_lParen (P.bind (p_optK hd) (P.bind (p_recovered ha (by simp [Next, isRParen]))
    (P.bind p_ctk_rParen (P.ret _))))))

theorem od_extract {t' : Token} {lp f rp : Span} {u : OAst × Span} {a : Ast} (h : t.isKw .EXTRACT = true)
    (hu : TimeUnit ts u ((t', f) :: r1)) (h' : t'.isKw .FROM = true) (ha : P e exprOuter r1 a ((.rParen, rp) :: r)) :
    POd e ((t, sp) :: (.lParen, lp) :: ts) (nd% Extract [sp, u, f, a]) r := by
  intro inner st ht
  obtain ⟨v, rfl⟩ := isKw_iff h
  refine P.bind P.curT ?_
  skipIfs
  refine P.bind P.listHack ?_
  branch
  exact p_doExpr ht (P.bind (P.ckw h) (P.bind p_ctk_lParen (P.bind (p_recovered (P.bind (p_timeUnit hu) (P.bind (P.ckw h')
    (P.bind ha (P.ret _)))) (by simp [Next, isRParen])) (P.bind p_ctk_rParen (P.ret _)))))

/-- The words that have no meaning of their own. -/
theorem p_word {v : List Char} {k : Keyword} {st : List RM} {x : Step (List RM) (List RM)} (h2 : k ∉ exprWords) (h3 : k ∉ opWords)
    (hm : marker e.opts (.ident v k) = false)
    (h : P e (do
          let left ← Prog.op .leftParenAhead
          if left then doExpr st (exprLeft parseSelect)
          else if k.exprIdent then doExpr st (exprWord parseSelect)
          else return .done st) ((.ident v k, sp) :: tl) x r) : P e (round inner st) ((.ident v k, sp) :: tl) x r := by
  have hl : (decide (k = .«_LIST_») && e.opts.listHack) = false := by
    simpa [marker, Token.isKw] using hm
  have hw := notMem h2
  have ho := notMem h3
  refine P.bind P.curT ?_
  have hx : ∀ k', (Token.ident v k).isKw k' = decide (k = k') := fun _ => rfl
  have hsym : ∀ t : Token, (∀ v k, t ≠ .ident v k) → decide (Token.ident v k = t) = false := by
    intro t h
    exact decide_eq_false (fun he => h _ _ he.symm)
  simp only [hx]
  rw [if_neg (by rw [hsym _ (by simp), Bool.or_false, ho .OR (by decide)]; simp), if_neg (by rw [ho .XOR (by decide)]; simp),
    if_neg (by rw [hsym _ (by simp), Bool.or_false, ho .AND (by decide)]; simp)]
  iterate 11 refine p_dF rfl ?_
  rw [if_neg (by rw [ho .BINARY (by decide)]; simp), if_neg (by rw [ho .COLLATE (by decide)]; simp)]
  iterate 3 refine p_dF rfl ?_
  rw [if_neg (by rw [ho .IN (by decide)]; simp), if_neg (by rw [ho .IS (by decide)]; simp), if_neg (by rw [ho .NOT (by decide)]; simp),
    if_neg (by rw [ho .NOT (by decide)]; simp), if_neg (by rw [ho .LIKE (by decide)]; simp),
    if_neg (by rw [hw .INTERVAL (by decide)]; simp), if_neg (by rw [hw .TIMESTAMPADD (by decide)]; simp),
    if_neg (by rw [hw .TIMESTAMPDIFF (by decide)]; simp)]
  iterate 4 refine p_dF rfl ?_
  rw [if_neg (by rw [hw .TRUE (by decide)]; simp), if_neg (by rw [hw .FALSE (by decide)]; simp),
    if_neg (by rw [hw .NULL (by decide)]; simp)]
  refine P.bind P.listHack ?_
  rw [if_neg (by rw [hl]; simp)]
  refine p_dF rfl ?_
  refine p_iteF (of_decide_eq_false (hw .CAST (by decide))) ?_
  refine p_iteF (of_decide_eq_false (hw .COUNT (by decide))) ?_
  refine p_iteF (of_decide_eq_false (hw .GROUP_CONCAT (by decide))) ?_
  refine p_iteF (of_decide_eq_false (hw .EXTRACT (by decide))) ?_
  rw [if_neg (of_decide_eq_false (hw .EXISTS (by decide))), if_neg (of_decide_eq_false (hw .CASE (by decide)))]
  exact h

theorem LEFT_not : Keyword.LEFT ∉ exprWords ∧ Keyword.LEFT ∉ opWords ∧ Keyword.LEFT ≠ .«_LIST_» := by decide

/-- A function call, given the rest. -/
theorem od_call {v : List Char} {k : Keyword} {lp : Span} {a : Ast} (hn : nameWord e.opts v k ∨ k = .LEFT)
    (h : P e (parseFunction parseSelect (.ident v k) sp) ((.lParen, lp) :: ts) a r) : POd e ((.ident v k, sp) :: (.lParen, lp) :: ts) a r := by
  intro inner st ht
  by_cases hk : k = .LEFT
  · subst hk
    have hm := marker_kw (c := e) (t := .ident v .LEFT) kw_here LEFT_not.2.2
    refine p_word LEFT_not.1 LEFT_not.2.1 hm ?_
    refine P.bind (P.leftParenAhead kw_here) (p_iteT rfl (p_doExpr ht ?_))
    exact P.bind P.cur (P.bind (P.next (by simp) hm) h)
  · rcases hn with ⟨h1, h2, h3, h4⟩ | hn
    · refine p_word h3 h2 h4 ?_
      refine P.bind (P.leftParenAhead_no (by simp [Token.isKw, hk])) (p_iteF (by simp) (p_iteT h1 (p_doExpr ht ?_)))
      exact P.bind P.cur (P.bind (P.next (by simp) h4) (P.bind P.curT (p_iteT rfl h)))
    · exact absurd hn hk

/-- The arguments and the closing parenthesis are read. -/
def PArgs (e : Env) (ts : List Tk) (as : List Ast) (r : List Tk) : Prop :=
  (as = [] ∧ ∃ rp, ts = (.rParen, rp) :: r) ∨
    (Next (· ≠ .rParen) ts ∧ ∃ rp, CommaL (P e exprOuter) ts as ((.rParen, rp) :: r))

theorem p_args {as : List Ast} {b : Ast} {g : List Ast → Prog Ast} (h : PArgs e ts as r1) (hg : P e (g as) r1 b r) :
    P e (do
      let t' ← curT
      let args ← (if t' = .rParen then .ret [] else recList "')' or ','" isRParenComma exprOuter)
      let _ ← ctk .rParen
      g args) ts b r := by
  rcases h with ⟨rfl, rp, rfl⟩ | ⟨hn, rp, h⟩
  · exact P.bind P.curT (P.bind (p_iteT rfl (P.ret _)) (P.bind p_ctk_rParen hg))
  · have hp := p_recList (name := "')' or ','") h
    obtain ⟨t', sp', tl, rfl, hx⟩ := Next.elim hn
    exact P.bind P.curT (P.bind (p_iteF hx hp) (P.bind p_ctk_rParen hg))

theorem od_func {v : List Char} {k : Keyword} {lp : Span} {f : OAst} {as : List Ast}
    (hn : nameWord e.opts v k ∨ k = .LEFT) (hf : FunctionName v k f) (ha : PArgs e ts as r) (ho : NotKw .OVER r) :
    POd e ((.ident v k, sp) :: (.lParen, lp) :: ts) (nd% Function [f, as, sp]) r := by
  refine od_call hn (P.bind p_ctk_lParen (P.bind (p_functionOf hf sp) (p_args ha (P.bind (n_skw_no ho) (P.ret _)))))

theorem od_window {v : List Char} {k : Keyword} {lp os lp' o rp : Span} {f : OAst} {as : List Ast}
      {l : List (Ast × OAst)} (hn : nameWord e.opts v k ∨ k = .LEFT) (hf : FunctionName v k f)
      (ha : PArgs e ts as ((t, os) :: (.lParen, lp') :: r1)) (ht : t.isKw .OVER = true)
      (ho : Kws [.ORDER, .BY] r1 o r2) (hl : CommaL (P e orderItem) r2 l ((.rParen, rp) :: r)) :
      POd e ((.ident v k, sp) :: (.lParen, lp) :: ts) (nd% WindowFunction [f, as, sp, os, nd% WindowSpec [(o, l)]]) r := by
  refine od_call hn (P.bind p_ctk_lParen (P.bind (p_functionOf hf sp) (p_args ha (P.bind (P.skw ht) ?_))))
  exact P.bind p_ctk_lParen (P.bind (p_ckws ho) (P.bind (p_commaList hl) (P.bind p_ctk_rParen (P.ret _))))

theorem od_exists {lp rp : Span} {q : Ast} (h : t.isKw .EXISTS = true) (hq : P e (.call .compoundQuery) ts q ((.rParen, rp) :: r)) :
    POd e ((t, sp) :: (.lParen, lp) :: ts) (nd% Exists [q]) r := by
  intro inner st ht
  obtain ⟨v, rfl⟩ := isKw_iff h
  refine P.bind P.curT ?_
  skipIfs
  refine P.bind P.listHack ?_
  skipIfs
  refine P.bind (P.leftParenAhead_no rfl) ?_
  branch
  exact p_doExpr ht (P.bind (P.ckw h) (P.bind p_ctk_lParen (P.bind hq (P.bind p_ctk_rParen (P.ret _)))))

theorem od_nullary {K : Kind} (h : nullaryTable.lookup t.kw = some K) (hr : Next (· ≠ .lParen) r) :
    POd e ((t, sp) :: r) (nd% Function [OAst.mk (.node K []), ([] : List Ast), sp]) r := by
  intro inner st ht
  have hm := lookup_mem h
  have hk := (lookup_isKw (by decide) h)
  obtain ⟨t', sp', tl, rfl, hx⟩ := Next.elim hr
  obtain ⟨hk1, hk2⟩ := hk
  generalize hkk : t.kw = k at *
  have hmk := marker_kw (c := e) hk1 hk2
  obtain ⟨v, rfl⟩ := isKw_iff hk1
  have hkeys : k ∉ exprWords ∧ k ∉ opWords ∧ k.exprIdent = true ∧ k ≠ .LEFT := by
    simp only [nullaryTable, List.mem_cons, Prod.mk.injEq, List.not_mem_nil, or_false] at hm
    rcases hm with ⟨rfl, -⟩ | ⟨rfl, -⟩ | ⟨rfl, -⟩ | ⟨rfl, -⟩ | ⟨rfl, -⟩ | ⟨rfl, -⟩ | ⟨rfl, -⟩ | ⟨rfl, -⟩ <;> decide
  refine p_word hkeys.1 hkeys.2.1 hmk ?_
  refine P.bind (P.leftParenAhead_no (by simp [Token.isKw, hkeys.2.2.2])) (p_iteF (by simp) (p_iteT hkeys.2.2.1 (p_doExpr ht ?_)))
  refine P.bind P.cur (P.bind (P.next (by simp) hmk) (P.bind P.curT (p_iteF hx ?_)))
  rw [tableFind_lookup]
  show P e (match nullaryTable.lookup k with | some f => _ | none => _) _ _ _
  rw [h]
  exact P.ret _

theorem od_name {v : List Char} {k : Keyword} {l : List Ast} (hn : nameWord e.opts v k)
    (hk : k.reserved = false) (hr : Next (· ≠ .lParen) ts) (hp : Parts e ts l r) :
    POd e ((.ident v k, sp) :: ts) (nd% Identifier [Ast.ident v sp :: l]) r := by
  intro inner st ht
  obtain ⟨h1, h2, h3, h4⟩ := hn
  obtain ⟨t', sp', tl, rfl, hx⟩ := Next.elim hr
  have hL : k ≠ .LEFT := by rintro rfl; exact absurd hk (by decide)
  refine p_word h3 h2 h4 ?_
  refine P.bind (P.leftParenAhead_no (by simp [Token.isKw, hL])) (p_iteF (by simp) (p_iteT h1 (p_doExpr ht ?_)))
  refine P.bind P.cur (P.bind (P.next (by simp) h4) (P.bind P.curT (p_iteF hx ?_)))
  have hnul : tableFind k nullaryTable = none := by
    rw [tableFind_lookup]
    cases hq : nullaryTable.lookup k with
    | none => rfl
    | some K =>
      have hm := lookup_mem hq
      simp only [nullaryTable, List.mem_cons, Prod.mk.injEq, List.not_mem_nil, or_false] at hm
      rcases hm with ⟨rfl, -⟩ | ⟨rfl, -⟩ | ⟨rfl, -⟩ | ⟨rfl, -⟩ | ⟨rfl, -⟩ | ⟨rfl, -⟩ | ⟨rfl, -⟩ | ⟨rfl, -⟩ <;> exact absurd hk (by decide)
  show P e (match tableFind k nullaryTable with | some f => _ | none => _) _ _ _
  rw [hnul]
  refine P.bind (a := Ast.ident v sp) ?_ (P.bind (p_parts hp _) (P.ret _))
  unfold tokenToIdent
  refine P.bind (a := ()) ?_ (P.ret _)
  refine p_iteF (by simp [hk]) ?_
  split
  · exact P.issueIf
  · exact P.ret _

/-- The WHENs of a CASE. -/
inductive PWhens (e : Env) : List Tk → List Ast → List Tk → Prop where
  | one {ts r : List Tk} {w : Ast} (h : P e caseWhen ts w r) (hn : NotKw .WHEN r) : PWhens e ts [w] r
  | cons {ts r1 r : List Tk} {w : Ast} {l : List Ast} (h : P e caseWhen ts w r1) (hn : Next (fun t => t.isKw .WHEN = true) r1)
      (hl : PWhens e r1 l r) : PWhens e ts (w :: l) r

theorem p_whens {l : List Ast} (h : PWhens e ts l r) (x : List Ast) : P e (accLoop (fun acc => do
    let w ← caseWhen
    let t ← curT
    return (if t.isKw .WHEN then .cont (acc ++ [w]) else .done (acc ++ [w]))) x) ts (true, x ++ l) r := by
  induction h generalizing x with
  | @one ts r w h hn =>
    obtain ⟨t, sp, tl, rfl, hx⟩ := Next.elim hn
    refine p_accDone (P.bind h (P.bind P.curT ?_))
    rw [hx]
    exact P.ret _
  | @cons ts r1 r w l h hn hl ih =>
    obtain ⟨t, sp, tl, rfl, hx⟩ := Next.elim hn
    have := ih (x ++ [w])
    rw [List.append_assoc] at this
    refine p_accCont (P.bind h (P.bind P.curT ?_)) this
    rw [hx]
    exact P.ret _

theorem p_caseBody {ws : List Ast} {el : Option (Span × Ast)} (hw : PWhens e ts ws r1)
    (hl : OptKw .ELSE (fun sp ts a r => ∃ v, a = (sp, v) ∧ P e expr ts v r) r1 el r) : P e caseBody ts (true, ws, el) r := by
  refine P.bind (p_whens hw []) (p_iteT rfl (P.bind (P.tryP (a := el) ?_) (P.ret _)))
  refine p_optKw (OptKw.map (fun {sp ts a r} h => ?_) hl)
  obtain ⟨v, rfl, h⟩ := h
  exact P.bind h (P.ret _)

theorem od_case {t' : Token} {ep : Span} {r0 : List Tk} {v : Option Ast} {ws : List Ast} {el : Option (Span × Ast)}
    (h : t.isKw .CASE = true)
    (hv : (v = none ∧ r0 = ts ∧ Next (fun t => t.isKw .WHEN = true) ts) ∨ ∃ a, v = some a ∧ NotKw .WHEN ts ∧ P e expr ts a r0)
    (hw : PWhens e r0 ws r1) (hl : OptKw .ELSE (fun sp ts a r => ∃ v, a = (sp, v) ∧ P e expr ts v r) r1 el ((t', ep) :: r))
    (he : t'.isKw .END = true) : POd e ((t, sp) :: ts) (nd% Case [sp, v, ws, el, ep]) r := by
  intro inner st ht
  obtain ⟨x, rfl⟩ := isKw_iff h
  refine P.bind P.curT ?_
  skipIfs
  refine P.bind P.listHack ?_
  skipIfs
  refine P.bind (P.leftParenAhead_no rfl) ?_
  branch
  refine p_doExpr ht (P.bind (P.ckw h) ?_)
  have hb := p_recoveredAcc (name := "'END'") (endP := fun t => t.isKw .END) (p_caseBody hw hl) he
  have hrest : P e (do
      let (whens, els) ← recoveredAcc "'END'" (fun t => t.isKw .END) caseBody
      let e ← ckw .END
      return nd% Case [sp, v, whens, els, e]) r0 (nd% Case [sp, v, ws, el, ep]) r := P.bind hb (P.bind (P.ckw he) (P.ret _))
  rcases hv with ⟨rfl, rfl, hn⟩ | ⟨a, rfl, hn, ha⟩
  · obtain ⟨t1, sp1, tl1, rfl, hx⟩ := Next.elim hn
    exact P.bind P.curT (P.bind (p_optIfF (by simp [hx])) hrest)
  · obtain ⟨t1, sp1, tl1, rfl, hx⟩ := Next.elim hn
    exact P.bind P.curT (P.bind (p_optIfT (by simp [hx]) ha) hrest)

end
end SqlParse
