import Verif.Theorems.Sound
import Verif.Proofs.CleanStmt
import Verif.Proofs.LaidApp
import Verif.Proofs.LaidCut
/-! C50: the two entry points agree. -/
namespace SqlParse

/-- What `parse_statement` accepts, and there is no data at the end of the source or after it. -/
theorem accepted {chk : Bool} {src : List Char} {iss : Issues} {opts : Opts} {r : Option SAst}
    (h : Api.one.Returns chk src iss opts r iss.issues) : ∃ v, r = some v ∧ ∃ data args ts, Laid chk data 0 src ts ∧
      Stm (Env.start opts data args ts) ts v [eofTk src] ∧ ∀ sp, blen src ≤ sp.start → data sp = none := by
  obtain ⟨n, h⟩ := h
  have := calls_sound n
  simp only [Api.run, parseStatement, runApi] at h
  cases hs : St.new chk src iss opts with
  | ok u s =>
    rw [hs] at h
    simp only at h
    cases h4 : singleStatement.run n s with
    | ok a s' =>
      obtain ⟨ts, h1, h2, hla⟩ := start_sat hs ⟨s'.dataLog, s'.argLog⟩
      have h3 := singleStatement_d (n := n) ⟨s'.dataLog, s'.argLog⟩ s h1
      rw [h4] at h h3
      simp only [Out.res, Res.ret.injEq] at h
      obtain ⟨rfl, h5⟩ := h
      obtain ⟨r, k1, k2, v, t, sp, tl, k3, k4, rfl, rfl⟩ := h3 (calm_end _ _ (by rw [h5, h2]))
      have := sat_eof k1 rfl
      subst this
      have hl := hla sp k2
      have he := laid_end hl k2
      refine ⟨v, k3, _, _, ts, hl, by rw [he] at k4; exact k4, fun x hx => ?_⟩
      obtain ⟨tl, c1, -⟩ := k1.cur
      have c1 : sp = s'.span := by simp at c1; exact c1.1.2
      have c2 : sp = ⟨blen src, blen src⟩ := by simp [eofTk] at he; exact he
      show List.lookup x s'.dataLog = none
      refine lookup_none_of fun y hy => ?_
      have := k1.log.1 y hy
      rw [← c1, c2] at this
      intro e
      rw [e] at this
      exact Nat.lt_irrefl _ (Nat.lt_of_lt_of_le this hx)
    | err s' =>
      obtain ⟨ts, h1, h2, hla⟩ := start_sat hs ⟨s'.dataLog, s'.argLog⟩
      have h3 := singleStatement_d (n := n) ⟨s'.dataLog, s'.argLog⟩ s h1
      rw [h4] at h h3
      simp only [Out.res, Res.ret.injEq] at h
      exact absurd (calm_end _ _ (h.2.trans h2.symm)) h3
    | panic m => rw [h4] at h; simp [Out.res] at h
    | oof => rw [h4] at h; simp [Out.res] at h
  | err s => rw [hs] at h; simp at h
  | panic m => rw [hs] at h; simp at h
  | oof => rw [hs] at h; simp at h

theorem es_app {X Y ts ts' : List Tk} (h : ES X Y ts ts') : ∃ pre, ts = pre ++ X ∧ ts' = pre ++ Y := by
  induction h with
  | base => exact ⟨[], rfl, rfl⟩
  | @cons p _ _ _ ih => obtain ⟨pre, h1, h2⟩ := ih; exact ⟨p :: pre, by rw [h1]; rfl, by rw [h2]; rfl⟩

theorem EndsWell.cons {data : Data} {x : Tk} {ts : List Tk} (h : EndsWell data ts) (hl : 2 ≤ ts.length) : EndsWell data (x :: ts) := by
  intro pre p q e
  cases pre with
  | nil => simp at e; rw [e.2] at hl; simp at hl
  | cons y pre => exact h pre p q (by simp at e; exact e.2)

theorem lv_ends {data : Data} {pg : Prop} {s : Span} {ts : List Tk} (h : Lv [(.eof, s)] data pg ts) : EndsWell data ts ∧ 1 ≤ ts.length := by
  have key : ∀ p r, 1 ≤ r.length → EndsWell data r → (r = [(.eof, s)] → p.1 ≠ .invalid ∧ data.after p = none) → (r.length = 1 → r = [(.eof, s)]) →
      EndsWell data (p :: r) := by
    intro p r h1 h2 h3 h4
    by_cases hl : r.length = 1
    · have h3 := h3 (h4 hl)
      rw [h4 hl]
      intro pre a b e
      match pre, e with
      | [], e => simp at e; rw [← e.1]; exact h3
      | [_], e => simp at e
      | _ :: _ :: pre, e => simp at e
    · exact h2.cons (by omega)
  have key2 : ∀ {r}, Lv [(.eof, s)] data pg r → r.length = 1 → r = [(.eof, s)] := by
    intro r hr hl
    cases hr with
    | base => rfl
    | cons h => cases h <;> simp at hl
    | body => simp at hl
  induction h with
  | base =>
    refine ⟨fun pre p q e => ?_, Nat.le_refl _⟩
    have := congrArg List.length e
    simp at this
  | @cons p r h hp ih =>
    refine ⟨key p r ih.2 ih.1 (fun hr => ?_) (key2 h), by simp⟩
    refine ⟨hp.1, ?_⟩
    rcases hp.2 with h1 | h1 | h1
    · simp [Data.after, h1.1, h1.2]
    · simp [Data.after, h1]
    · rw [hr] at h1; exact absurd rfl h1
  | @body hpg t s s1 s2 b r ht hb hd hr ih =>
    refine ⟨?_, by simp⟩
    have h1 : EndsWell data ((.doubleDollar, s2) :: r) := key _ r ih.2 ih.1 (fun _ => ⟨nofun, by simp [Data.after, hd]⟩) (key2 hr)
    have h2 : EndsWell data (b ++ (.doubleDollar, s2) :: r) ∧ 2 ≤ (b ++ (.doubleDollar, s2) :: r).length := by
      clear hb
      induction b with
      | nil => exact ⟨h1, by have := ih.2; simp; omega⟩
      | cons x b ihb => exact ⟨ihb.1.cons ihb.2, by have := ihb.2; simp only [List.cons_append, List.length_cons]; omega⟩
    exact (h2.1.cons h2.2).cons (by simp only [List.length_cons]; omega)

theorem markerNo_ends {o : Opts} {args : Span → Bool} {pre X Y : List Tk} (hX : ∀ p ∈ X, marker o p.1 = false) (hY : ∀ p ∈ Y, marker o p.1 = false) :
    markerNo o args (pre ++ X) = markerNo o args (pre ++ Y) := by
  have : ∀ Z : List Tk, (∀ p ∈ Z, marker o p.1 = false) → ∀ sp : Span, Z.filter (fun p => argTk o args p && decide (p.2.start < sp.start)) = [] := by
    intro Z hZ sp
    rw [List.filter_eq_nil_iff]
    intro p hp
    simp [argTk, hZ p hp]
  funext sp
  simp only [markerNo, List.filter_append, List.length_append]
  rw [this X hX, this Y hY]

/-- A statement becomes a script when `;` is written after it. -/
theorem script_of_stm {chk : Bool} {src : List Char} {opts : Opts} {data : Data} {args : Span → Bool} {ts : List Tk} {v : SAst}
    (hl : Laid chk data 0 src ts) (hv : Stm (Env.start opts data args ts) ts v [eofTk src]) (hd : ∀ sp, blen src ≤ sp.start → data sp = none)
    (hc : takesData v = false) : IsScript chk opts (src ++ c!"\n;") [v] := by
  obtain ⟨ts', he, hs⟩ := stm_es (X := [eofTk src])
    (Y := [(.semiColon, ⟨blen src + 1, blen src + 2⟩), (.eof, ⟨blen src + 2, blen src + 2⟩)]) rfl hv _ (.base (.mk .fwd))
  obtain ⟨pre, rfl, rfl⟩ := es_app he
  have hw := (lv_ends (stm_lv hv .base)).1
  have h2 : Laid chk data (0 + blen src + 1) [';'] [(.semiColon, ⟨blen src + 1, blen src + 2⟩), (.eof, ⟨blen src + 2, blen src + 2⟩)] := by
    have h1 : ';'.utf8Size = 1 := by decide
    have := Laid.tok (checked := chk) (data := data) (0 + blen src + 1) (0 + blen src + 2) [] [';'] [] [] .semiColon
      [(.eof, ⟨0 + blen src + 2, 0 + blen src + 2⟩)] (by decide) (.nil _) (.inl ⟨by decide, ⟨_, rfl, by simp⟩, by intro c hc; cases hc⟩)
      (.none _ _ (by simp [Data.after]; exact hd _ (by simp))) (.eof _ [] (.nil _))
    simpa [h1] using this
  have h3 := laid_app hl hw h2
  refine ⟨data, args, _, h3, ?_⟩
  simp only [List.dropLast_concat] at *
  have hn := markerNo_ends (o := opts) (args := args) (pre := pre) (X := [eofTk src])
    (Y := [(.semiColon, ⟨blen src + 1, blen src + 2⟩), (.eof, ⟨blen src + 2, blen src + 2⟩)]) (by simp [eofTk, marker, Token.isKw])
    (by simp [marker, Token.isKw])
  have he : Env.start opts data args (pre ++ [eofTk src]) = Env.start opts data args
      (pre ++ [(.semiColon, ⟨blen src + 1, blen src + 2⟩), (.eof, ⟨blen src + 2, blen src + 2⟩)]) := by
    simp only [Env.start, hn]
  rw [he] at hs
  exact .stmt (e := Env.start opts data args _) hs hc (hd _ (by simp)) .eof

theorem lv_app {X ts : List Tk} {d : Data} {pg : Prop} (h : Lv X d pg ts) : ∃ pre, ts = pre ++ X := by
  induction h with
  | base => exact ⟨[], rfl⟩
  | @cons p _ _ _ ih => obtain ⟨pre, rfl⟩ := ih; exact ⟨p :: pre, rfl⟩
  | @body _ t s s1 s2 b _ _ _ _ _ ih =>
    obtain ⟨pre, rfl⟩ := ih
    exact ⟨(t, s) :: (.doubleDollar, s1) :: (b ++ (.doubleDollar, s2) :: pre), by simp⟩

theorem stm_suffix {e : Env} {ts r : List Tk} {v : SAst} (h : Stm e ts v r) : ∃ pre, ts = pre ++ r := lv_app (stm_lv h .base)

/-- Before the end of a script there is no invalid token. -/
def EndOk (ts : List Tk) : Prop := ts ≠ [] ∧ ∀ pre s x, ts ≠ pre ++ [(.invalid, s), x]

theorem EndOk.app {r : List Tk} (h : EndOk r) (pre : List Tk) (t : Token) (s : Span) (ht : t ≠ .invalid) : EndOk (pre ++ (t, s) :: r) := by
  refine ⟨by simp, fun pre' s' x e => ?_⟩
  rcases List.append_eq_append_iff.1 e with ⟨a, h1, h2⟩ | ⟨a, h1, h2⟩
  · cases a with
    | nil => simp at h2; exact ht h2.1.1
    | cons y a => simp at h2; exact h.2 a s' x h2.2
  · match a, h2 with
    | [], h2 => simp at h2; exact ht h2.1.1.symm
    | [y], h2 => simp at h2; exact h.1 h2.2.2
    | [y, z], h2 => simp at h2
    | y :: z :: w :: a, h2 => simp at h2

theorem scr_endOk {e : Env} {ts : List Tk} {l : List SAst} (h : Scr e ts l) (he : e.delim ≠ .invalid) : EndOk ts := by
  induction h with
  | eof => exact ⟨by simp, fun pre s x e => by have := congrArg List.length e; simp at this⟩
  | skip hd h ih => exact (ih he).app [] _ _ he
  | @delimiter e t d s s' ts l h hd hn hs ih =>
    have hd : d ≠ .invalid := by rcases hd with rfl | rfl <;> simp
    exact (ih hd).app [(t, s)] _ _ hd
  | stmt h hc hd hs ih => obtain ⟨pre, rfl⟩ := stm_suffix h; exact (ih he).app pre _ _ he
  | copy h hc hd hs ih => obtain ⟨pre, rfl⟩ := stm_suffix h; exact (ih he).app pre _ _ he

theorem scr_eof_nil {e : Env} {s : Span} {l : List SAst} (h : Scr e [(.eof, s)] l) (he : e.delim ≠ .eof) : l = [] := by
  generalize hts : [((.eof : Token), s)] = ts at h
  cases h with
  | eof => rfl
  | skip => simp at hts; exact absurd hts.1.1.symm he
  | delimiter => simp at hts
  | stmt h => subst hts; exact absurd rfl h.firstNotEof
  | copy h => subst hts; exact absurd rfl h.firstNotEof

/-- The only statement of a script that has only one delimiter ends there. -/
theorem scr_one {e : Env} {pre : List Tk} {n : Nat} {v : SAst} (he : e.delim = .semiColon) (h : Scr e (pre ++ lastSemi n) [v])
    (hp : ∀ p ∈ pre, p.1 ≠ .semiColon ∧ p.1 ≠ .doubleDollar) :
    Stm e (pre ++ lastSemi n) v (lastSemi n) ∧ takesData v = false ∧ e.data ⟨n + 1, n + 2⟩ = none := by
  have key : ∀ {s r}, Stm e (pre ++ lastSemi n) v ((e.delim, s) :: r) → (e.delim, s) :: r = lastSemi n := by
    intro s r h
    obtain ⟨pre', h1⟩ := stm_suffix h
    rcases List.append_eq_append_iff.1 h1 with ⟨a, h2, h3⟩ | ⟨a, h2, h3⟩
    · match a, h3 with
      | [], h3 => exact h3.symm
      | [y], h3 => simp [lastSemi, he] at h3
      | y :: z :: a, h3 => simp [lastSemi] at h3
    · cases a with
      | nil => exact h3
      | cons y a =>
        simp at h3
        exact absurd (show y.1 = .semiColon by rw [← h3.1]; exact he) (hp y (by rw [h2]; simp)).1
  generalize hl : [v] = l at h
  generalize hts : pre ++ lastSemi n = ts at h key
  cases h with
  | eof => cases hl
  | skip hd h =>
    subst hl
    cases pre with
    | nil =>
      simp [lastSemi] at hts
      rw [← hts.2] at h
      exact absurd (scr_eof_nil h (by rw [he]; simp)) (by simp)
    | cons y pre => simp at hts; exact absurd (show y.1 = .semiColon by rw [hts.1]; exact he) (hp y (by simp)).1
  | @delimiter _ t d s s' _ _ h hd hn hs =>
    subst hl
    have hd' : d ≠ .eof := by rcases hd with rfl | rfl <;> simp
    match pre, hts with
    | [], hts => simp [lastSemi] at hts; rw [← hts.1.1] at h; cases h
    | [y], hts =>
      simp [lastSemi] at hts
      rw [← hts.2.2] at hs
      exact absurd (scr_eof_nil hs hd') (by simp)
    | y :: z :: pre, hts =>
      simp at hts
      have := hp z (by simp)
      rw [hts.2.1] at this
      rcases hd with rfl | rfl
      · exact absurd rfl this.1
      · exact absurd rfl this.2
  | stmt h hc hd hs =>
    cases hl
    have := key h
    rw [this] at h
    refine ⟨h, hc, ?_⟩
    simp [lastSemi] at this
    rw [← this.1.2]; exact hd
  | copy => simp at hl

/-- A script with one statement is one, without the delimiter. -/
theorem statement_of_script {chk : Bool} {src : List Char} {opts : Opts} {v : SAst} (hs : ';' ∉ src) (hd : ¬ ['$', '$'] <:+: src)
    (h : IsScript chk opts (src ++ c!"\n;") [v]) : IsStatement chk opts src v ∧ takesData v = false := by
  obtain ⟨data, args, ts, hl, h⟩ := h
  rcases laid_cut hl rfl hs hd with ⟨pre, rfl, h1, h2⟩ | ⟨pre, s, s', rfl⟩
  · simp only [Nat.zero_add] at h1 h
    obtain ⟨h3, h4, -⟩ := scr_one rfl h h2
    obtain ⟨ts', h5, h6⟩ := stm_es (X := lastSemi (blen src)) (Y := [eofTk src]) rfl h3 _ (.base (.mk .bwd))
    obtain ⟨pre', h7, rfl⟩ := es_app h5
    obtain rfl := List.append_cancel_right h7
    refine ⟨⟨data, args, _, h1, ?_⟩, h4⟩
    have hn := markerNo_ends (o := opts) (args := args) (pre := pre) (X := lastSemi (blen src)) (Y := [eofTk src])
      (by simp [lastSemi, marker, Token.isKw]) (by simp [eofTk, marker, Token.isKw])
    simp only [Env.start, hn] at h6
    exact h6
  · exact absurd rfl ((scr_endOk h (by simp [Env.start])).2 pre s _)

/-- A statement, and the script that has only this statement: the statement followed by `;` on its own line. -/
theorem script_of_statement {chk : Bool} {src : List Char} {iss : Issues} {opts : Opts} {v : SAst}
    (h : Api.one.Returns chk src iss opts (some v) iss.issues) (hv : takesData v = false) : IsScript chk opts (src ++ c!"\n;") [v] := by
  obtain ⟨v', h1, data, args, ts, h2, h3, h4⟩ := accepted h
  cases h1
  exact script_of_stm h2 h3 h4 hv

/-- **C50**, from `parse_statement` to `parse_statements`: if a source is accepted by `parse_statement` (without an issue), then the source followed by
`;` is accepted by `parse_statements`, and the same AST is returned, with the same spans; except for COPY FROM STDIN, which `parse_statements`
expects to be followed by data. -/
theorem C50_forward (chk : Bool) (src : List Char) (iss iss' : Issues) (opts : Opts) (v : SAst) (hu : opts.warnUnquoted = false)
    (hc : opts.warnCaps = false) (h : Api.one.Returns chk src iss opts (some v) iss.issues) (hv : takesData v = false) :
    Api.many.Returns chk (src ++ c!"\n;") iss' opts [v] iss'.issues :=
  C38_script chk _ iss' opts [v] hu hc (script_of_statement h hv)

/-- **C50**, back: if there is no `;` in the source, no `$$`, and the source followed by `;` is accepted by `parse_statements` as one statement, then the source is
accepted by `parse_statement`, with the same AST. -/
theorem C50_back (chk : Bool) (src : List Char) (iss iss' : Issues) (opts : Opts) (v : SAst) (hu : opts.warnUnquoted = false)
    (hc : opts.warnCaps = false) (hs : ';' ∉ src) (hd : ¬ c!"$$" <:+: src)
    (h : Api.many.Returns chk (src ++ c!"\n;") iss opts [v] iss.issues) : Api.one.Returns chk src iss' opts (some v) iss'.issues :=
  C38_statement chk src iss' opts v hu hc (statement_of_script hs hd (C39_script _ _ _ _ _ h)).1

/-- **C50**: for a source without `;` and `$$`, the two entry points accept the same statements, with the same AST. -/
theorem C50_agree (chk : Bool) (src : List Char) (iss iss' : Issues) (opts : Opts) (v : SAst) (hu : opts.warnUnquoted = false)
    (hc : opts.warnCaps = false) (hs : ';' ∉ src) (hd : ¬ c!"$$" <:+: src) :
    Api.many.Returns chk (src ++ c!"\n;") iss opts [v] iss.issues ↔ Api.one.Returns chk src iss' opts (some v) iss'.issues ∧ takesData v = false :=
  ⟨fun h => ⟨C50_back chk src iss iss' opts v hu hc hs hd h, (statement_of_script hs hd (C39_script _ _ _ _ _ h)).2⟩,
    fun h => C50_forward chk src iss' iss opts v hu hc h.1 h.2⟩

/-- **C50** with any values of the two flags about style: what is accepted by `parse_statement` is returned by `parse_statements`, and all issues are about style. -/
theorem C50_style (chk : Bool) (src : List Char) (iss : Issues) (old : List Issue) (opts : Opts) (v : SAst)
    (h : Api.one.Returns chk src iss opts (some v) iss.issues) (hv : takesData v = false) :
    ∃ y, Api.many.Returns chk (src ++ c!"\n;") ⟨src ++ c!"\n;", old⟩ opts [v] (old ++ y) ∧ ∀ i ∈ y, i.isStyle opts.warnUnquoted opts.warnCaps :=
  C38_script_style chk _ old opts [v] (script_of_statement h hv)

/-! ### C51 -/

/-- There is `$$` among the tokens only if it is in the text. -/
theorem laid_dollars {chk : Bool} {data : Data} {o : Nat} {l : List Char} {ts : List Tk} (h : Laid chk data o l ts) {s : Span}
    (hm : (Token.doubleDollar, s) ∈ ts) : c!"$$" <:+: l := by
  induction h with
  | eof => simp at hm
  | tok o o' u w rest rest' t ts ht hs hf hg h ih =>
    rcases List.mem_cons.1 hm with hm | hm
    · cases hm
      have : w = c!"$$" := by
        rcases hf with hf | hf
        · obtain ⟨-, ⟨l, h1, h2⟩, -⟩ := hf; cases h1; simpa using h2
        · exact absurd hf.1 (by simp)
      exact ⟨u, rest, by rw [this]; simp⟩
    · obtain ⟨x, y, hxy⟩ := ih hm
      have : ∃ z, rest = z ++ rest' := by
        cases hg with
        | none => exact ⟨[], rfl⟩
        | data past => exact ⟨_, rfl⟩
      obtain ⟨z, hz⟩ := this
      exact ⟨u ++ w ++ z ++ x, y, by rw [hz, ← hxy]; simp⟩

theorem lv_valid {X ts : List Tk} {d : Data} {pg : Prop} (h : Lv X d pg ts) (hX : ∀ p ∈ X, p.1 ≠ .invalid)
    (hpg : ¬ pg ∨ ∀ s, (Token.doubleDollar, s) ∉ ts) : ∀ p ∈ ts, p.1 ≠ .invalid := by
  induction h with
  | base => exact hX
  | cons h hp ih =>
    intro p hm
    rcases List.mem_cons.1 hm with rfl | hm
    · exact hp.1
    · exact ih (hpg.imp_right fun h s hs => h s (List.mem_cons_of_mem _ hs)) p hm
  | body h => rcases hpg with hpg | hpg
              · exact absurd h hpg
              · exact absurd (List.mem_cons_of_mem _ (List.mem_cons_self ..)) (hpg _)

theorem scr_valid {e : Env} {ts : List Tk} {l : List SAst} (h : Scr e ts l) (he : e.delim ≠ .invalid)
    (hpg : ¬ e.isPg ∨ ∀ s, (Token.doubleDollar, s) ∉ ts) : ∀ p ∈ ts, p.1 ≠ .invalid := by
  have key : ∀ {e : Env} {ts r : List Tk} {v : SAst} {s : Span}, e.delim ≠ .invalid → Stm e ts v ((e.delim, s) :: r) →
      ((¬ e.isPg ∨ ∀ s, (Token.doubleDollar, s) ∉ r) → ∀ p ∈ r, p.1 ≠ .invalid) → (¬ e.isPg ∨ ∀ s, (Token.doubleDollar, s) ∉ ts) →
      ∀ p ∈ ts, p.1 ≠ .invalid := by
    intro e ts r v s he h ih hpg
    obtain ⟨pre, hpre⟩ := stm_suffix h
    refine lv_valid (stm_lv h .base) ?_ hpg
    intro p hp
    rcases List.mem_cons.1 hp with rfl | hp
    · exact he
    · exact ih (hpg.imp_right fun h s hs => h s (by rw [hpre]; simp [hs])) p hp
  induction h with
  | eof => simp
  | skip hd h ih =>
    intro p hm
    rcases List.mem_cons.1 hm with rfl | hm
    · exact he
    · exact ih he (hpg.imp_right fun h s hs => h s (List.mem_cons_of_mem _ hs)) p hm
  | @delimiter e t d s s' ts l h hd hn hs ih =>
    have hd : d ≠ .invalid := by rcases hd with rfl | rfl <;> simp
    intro p hm
    rcases List.mem_cons.1 hm with rfl | hm
    · intro e; rw [show t = .invalid from e] at h; cases h
    · rcases List.mem_cons.1 hm with rfl | hm
      · exact hd
      · exact ih hd (hpg.imp_right fun h s hs => h s (by simp [hs])) p hm
  | stmt h hc hd hs ih => exact key he h (ih he) hpg
  | copy h hc hd hs ih => exact key he h (ih he) hpg

/-- The text is made of tokens, blanks, comments and data, and of nothing else. -/
def AllTokens (chk : Bool) (src : List Char) : Prop := ∃ data ts, Laid chk data 0 src ts ∧ ∀ p ∈ ts, p.1 ≠ .invalid

/-- **C51**: if a call adds no issue, then everything in the source is a token, a blank, a comment or COPY data: what is none of these is reported.  (Except
in PostgreSQL between `$$` and `$$`.) -/
theorem C51_statement (chk : Bool) (src : List Char) (iss : Issues) (opts : Opts) (r : Option SAst)
    (hd : opts.dialect ≠ .postgreSQL ∨ ¬ c!"$$" <:+: src) (h : Api.one.Returns chk src iss opts r iss.issues) : AllTokens chk src := by
  obtain ⟨v, -, data, args, ts, h1, h2, -⟩ := accepted h
  exact ⟨data, ts, h1, lv_valid (stm_lv h2 .base) (by simp [eofTk]) (hd.imp_right fun h s hs => h (laid_dollars h1 hs))⟩

/-- **C51** for `parse_statements`. -/
theorem C51_script (chk : Bool) (src : List Char) (iss : Issues) (opts : Opts) (l : List SAst)
    (hd : opts.dialect ≠ .postgreSQL ∨ ¬ c!"$$" <:+: src) (h : Api.many.Returns chk src iss opts l iss.issues) : AllTokens chk src := by
  obtain ⟨data, args, ts, h1, h2⟩ := C39_script _ _ _ _ _ h
  exact ⟨data, ts, h1, scr_valid h2 (by simp [Env.start]) (hd.imp_right fun h s hs => h (laid_dollars h1 hs))⟩

/-- There is `;` among the tokens only if it is in the text. -/
theorem laid_semi {chk : Bool} {data : Data} {o : Nat} {l : List Char} {ts : List Tk} (h : Laid chk data o l ts) {s : Span}
    (hm : (Token.semiColon, s) ∈ ts) : ';' ∈ l := by
  induction h with
  | eof => simp at hm
  | tok o o' u w rest rest' t ts ht hs hf hg h ih =>
    rcases List.mem_cons.1 hm with hm | hm
    · cases hm
      have : w = c!";" := by
        rcases hf with hf | hf
        · obtain ⟨-, ⟨l, h1, h2⟩, -⟩ := hf; cases h1; simpa using h2
        · exact absurd hf.1 (by simp)
      simp [this]
    · have := ih hm
      cases hg with
      | none => simp [this]
      | data past => simp [this]

/-- Without delimiters there is no data. -/
theorem laid_noDelim {chk : Bool} {data : Data} {o : Nat} {l : List Char} {ts : List Tk} (h : Laid chk data o l ts)
    (hs : ∀ p ∈ ts, p.1 ≠ .semiColon ∧ p.1 ≠ .doubleDollar) : ∃ toks s, ts = toks ++ [(.eof, s)] ∧ Written chk o l toks := by
  induction h with
  | eof o u h => exact ⟨[], _, rfl, .nil o u h⟩
  | tok o o' u w rest rest' t ts ht hsk hf hg h ih =>
    have h1 := hs _ (List.mem_cons_self ..)
    obtain ⟨rfl, rfl⟩ := gap_none hg (by simp only [Data.after]; exact if_neg (fun h => h.elim h1.1 h1.2))
    obtain ⟨toks, s, rfl, h2⟩ := ih fun p hp => hs p (List.mem_cons_of_mem _ hp)
    exact ⟨_ :: toks, s, rfl, .cons _ _ _ _ _ _ ht hsk hf h2⟩

theorem allTokens_written {chk : Bool} {src : List Char} (hs : ';' ∉ src) (hd : ¬ c!"$$" <:+: src) (h : AllTokens chk src) :
    ∀ toks, Written chk 0 src toks → ∀ p ∈ toks, p.1 ≠ .invalid := by
  obtain ⟨data, ts, h1, h2⟩ := h
  intro toks hw
  obtain ⟨toks', s, rfl, h3⟩ := laid_noDelim h1 fun p hp => ⟨fun h => hs (laid_semi h1 (s := p.2) (by rw [← h]; exact hp)),
    fun h => hd (laid_dollars h1 (s := p.2) (by rw [← h]; exact hp))⟩
  rw [written_unique hw [] rfl h3]
  exact fun p hp => h2 p (by simp [hp])

/-- **C51**, the other way round, for a source without `;` and `$$`: if there is something in it that is no token - a stray character, a string that is not
closed, .. - then no entry point returns without adding an issue. -/
theorem C51_reported {α : Type} (api : Api α) (chk : Bool) (src : List Char) (iss : Issues) (opts : Opts) (a : α) (is : List Issue)
    (toks : List (Token × Span)) (hs : ';' ∉ src) (hd : ¬ c!"$$" <:+: src) (hw : Written chk 0 src toks) (sp : Span) (hi : (Token.invalid, sp) ∈ toks)
    (h : api.Returns chk src iss opts a is) : is ≠ iss.issues := by
  rintro rfl
  cases api with
  | one => exact allTokens_written hs hd (C51_statement chk src iss opts a (.inr hd) h) toks hw _ hi rfl
  | many => exact allTokens_written hs hd (C51_script chk src iss opts a (.inr hd) h) toks hw _ hi rfl

end SqlParse
