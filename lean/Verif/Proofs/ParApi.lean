import Verif.Proofs.ParStatement
import Verif.Api
/-! Corresponding runs of the entry points. -/
namespace SqlParse
variable {E : Par}

theorem skipDelims_par : PR E (vr E) skipDelims skipDelims := by
  unfold skipDelims
  refine loop_par (fun x y _ => ?_) rfl
  refine bind_par curT_par (fun t t' ht => bind_par delim_par (fun d d' hd => ?_))
  refine ite_par (hd.1 t t' ht) (fun _ _ => bind_par consume_par (fun _ _ _ => pure_par rfl)) (fun _ _ => pure_par ?_)
  show decide _ = decide _
  simp only [tok_eq ht (c := .eof) rfl]

theorem skipToDelim_par : PR E (vr E) skipToDelim skipToDelim := by
  unfold skipToDelim
  refine loop_par (fun x y _ => ?_) rfl
  refine bind_par next_par (fun _ _ _ => bind_par curT_par (fun t t' ht => bind_par delim_par (fun d d' hd => ?_)))
  refine ite_par (hd.1 t t' ht) (fun _ _ => pure_par rfl) (fun _ _ => ?_)
  exact ite_par (by rw [tok_eq ht (c := .eof) rfl]) (fun _ _ => pure_par rfl) (fun _ _ => pure_par rfl)

theorem setDelimiter_par (hk : E.ok .DELIMITER) : PR E (vr E) setDelimiter setDelimiter := by
  unfold setDelimiter
  refine bind_par cur_par ?_
  rintro ⟨t, sp⟩ ⟨t', sp'⟩ ⟨ht, hsp⟩
  refine bind_par (when_par ?_ (fun _ _ => warn_par hsp frags_nil_par)) (fun _ _ _ => bind_par (setDelim_par ?_) (fun _ _ _ => next_par))
  · simp only [tok_eq ht (c := .doubleDollar) rfl, tok_eq ht (c := .semiColon) rfl]
  · exact ⟨fun u u' hu => E.delims hk hu ht, fun h => absurd hk h, tok_name ht⟩

theorem topStatement_par : PR E (vr E) topStatement topStatement := by unfold topStatement; pw

theorem ctk_dl {d d' : Token} (h : E.dl d d') : PR E (vr E) (ctk d) (ctk d') := by
  unfold ctk
  exact bind_par curT_par (fun t t' ht => ite_par (h.1 t t' ht) (fun _ _ => consume_par) (fun _ _ => expectedFailure_par' (m := .tok d) (m' := .tok d') h.2.2))

theorem afterDelim_par {acc acc' : List SAst} {b : Bool} (h : vr E acc acc') (hb : b = true → E.ok .COPY) :
    PR E (vr E) (afterDelim acc b) (afterDelim acc' b) := by
  unfold afterDelim
  refine ite_par Iff.rfl (fun hb' _ => ?_) (fun _ _ => ?_)
  · refine bind_par (stdin_par (hb hb')) ?_
    rintro ⟨d, sp⟩ ⟨d', sp'⟩ ⟨hd, hsp⟩
    have hd : vr E d d' := hd
    have hsp : vr E sp sp' := hsp
    pw
  · refine bind_par delim_par (fun d d' hd => bind_par (tryP_par (ctk_dl hd)) (fun r r' hr => ?_))
    pw

theorem finishRest_par {acc acc' : List SAst} {r r' : Option SAst} (h : vr E acc acc') (hr : vr E r r') {t t' d d' : Token}
    (ht : E.tok t t') (hd : E.dl d d') {b b' : Bool} (hbb : b = b') (hb : b = true → E.ok .COPY) :
    PR E (vr E) (do
      let eof ← (if t ≠ d then do
          Prog.when r.isSome (expectedError (.tok d))
          skipToDelim
        else return false)
      if eof then return .done (acc ++ r.toList)
      else do
        let acc' ← afterDelim (acc ++ r.toList) b
        return .cont acc' : Prog (Step (List SAst) (List SAst)))
     (do
      let eof ← (if t' ≠ d' then do
          Prog.when r'.isSome (expectedError (.tok d'))
          skipToDelim
        else return false)
      if eof then return .done (acc' ++ r'.toList)
      else do
        let acc'' ← afterDelim (acc' ++ r'.toList) b'
        return .cont acc'') := by
  subst hbb
  refine bindV_par (ite_par (by rw [ne_eq, ne_eq, hd.1 t t' ht]) (fun _ _ => ?_) (fun _ _ => pure_par rfl)) ?_
  · exact bind_par (when_par (by rw [vr_isSome hr]) (fun _ _ => expectedError_par' (m := .tok d) (m' := .tok d') hd.2.2)) (fun _ _ _ => skipToDelim_par)
  · rintro e _ rfl
    refine ite_par Iff.rfl (fun _ _ => pure_par (done_vr (app_vr h (toList_vr hr)))) (fun _ _ => ?_)
    exact bind_par (afterDelim_par (app_vr h (toList_vr hr)) hb) (fun _ _ h => pure_par (cont_vr h))

theorem finishStatement_par {acc acc' : List SAst} {r r' : Option SAst} (h : vr E acc acc') (hr : vr E r r') :
    PR E (vr E) (finishStatement acc r) (finishStatement acc' r') := by
  unfold finishStatement
  refine bind_par curT_par (fun t t' ht => bind_par delim_par (fun d d' hd => ?_))
  refine finishRest_par h hr ht hd ?_ ?_
  · cases r <;> cases r'
    · rfl
    · cases hr
    · cases hr
    · exact (readsStdin_par (unsome_vr hr)).symm
  · cases r <;> cases r'
    · simp
    · cases hr
    · cases hr
    · exact readsStdin_ok (unsome_vr hr)

theorem statementsStep_par {acc acc' : List SAst} (h : vr E acc acc') :
    PR E (vr E) (statementsStep acc) (statementsStep acc') := by
  unfold statementsStep
  refine bind_par skipDelims_par ?_
  rintro e _ rfl
  refine ite_par Iff.rfl (fun _ _ => pure_par (done_vr h)) (fun _ _ => ?_)
  refine bind_par skw_par' ?_
  rintro o o' ⟨ho, hk⟩
  cases o <;> cases o'
  · exact bind_par (tryP_par topStatement_par) (fun _ _ hr => finishStatement_par h hr)
  · cases ho
  · cases ho
  · exact bind_par (setDelimiter_par (hk rfl)) (fun _ _ _ => pure_par (cont_vr h))

theorem statements_par : PR E (vr E) statements statements := by
  unfold statements
  exact loop_par (fun _ _ h => statementsStep_par h) nil_vr

theorem singleStatement_par : PR E (vr E) singleStatement singleStatement := by
  unfold singleStatement
  refine bind_par (tryP_par callStatement_par) (fun r r' hr => ?_)
  cases r with
  | none => cases r' with
    | none => exact pure_par trivial
    | some => cases hr
  | some o => cases r' with
    | none => cases hr
    | some o' =>
      cases o with
      | none => cases o' with
        | none => exact bind_par expectedError_par (fun _ _ _ => pure_par trivial)
        | some => cases hr
      | some v => cases o' with
        | none => cases hr
        | some v' =>
          refine bind_par curT_par (fun t t' ht => ?_)
          exact bind_par (when_par (by simp only [ne_eq, tok_eq ht (c := .eof) rfl]) (fun _ _ => expectedError_par))
            (fun _ _ _ => pure_par hr)

/-! ### The entry points -/

/-- Corresponding results. -/
inductive ResR (E : Par) {α : Type} (Q : α → α → Prop) : Res α → Res α → Prop where
  | ret {a b i j} (h : Q a b) (hi : ∃ l m, i = E.pre ++ l ∧ j = E.pre' ++ m ∧ listR (issueR E) l m) : ResR E Q (.ret a i) (.ret b j)
  | panic (m) : ResR E Q (.panic m) (.panic m)
  | running : ResR E Q .running .running
  | left (o) : ResR E Q (.panic "slice") o
  | right (o) : ResR E Q o (.panic "slice")

theorem runApi_par {α : Type} {Q : α → α → Prop} {p : Prog α} {dflt : α} (h : PR E Q p p) (hd : Q dflt dflt) (n : Nat)
    {src src' : List Char} {iss iss' : Issues} (hB : E.B (Lexer.new src) (Lexer.new src'))
    (hi : iss.issues = E.pre) (hi' : iss'.issues = E.pre') (hk : E.k = 0) :
    ResR E Q (runApi dflt p n E.chk src iss E.opts) (runApi dflt p n E.chk src' iss' E.opts) := by
  unfold runApi St.new
  rcases E.next hB with ⟨m, e1, e2⟩ | ⟨t1, t2, sp, sp', m, m', e1, e2, e3, e4, e5⟩
  · rw [e1, e2]; exact .panic m
  · rw [e1, e2]
    dsimp only
    have hs := run_par h n (s := { token := t1, span := sp, peeked := none, lx := m, issueSrc := iss.src, issues := iss.issues, arg := 0, delim := .semiColon, opts := E.opts, permit := false, checked := E.chk, argLog := [], dataLog := [] })
      (t := { token := t2, span := sp', peeked := none, lx := m', issueSrc := iss'.src, issues := iss'.issues, arg := 0, delim := .semiColon, opts := E.opts, permit := false, checked := E.chk, argLog := [], dataLog := [] })
      { token := e3, span := e4, peeked := trivial, lx := e5, issues := ⟨[], [], by simp [hi], by simp [hi'], trivial⟩,
        arg := by simp [hk], delim := dl_semi, opts := rfl, opts' := rfl, permit := rfl, chk := rfl, chk' := rfl, data := fun _ => rfl }
    revert hs
    generalize p.run n _ = o1
    generalize p.run n _ = o2
    intro hs
    cases hs with
    | ok h hs => exact .ret h hs.issues
    | err hs => exact .ret hd hs.issues
    | panic m => exact .panic m
    | oof => exact .running
    | left o => exact .left _
    | right o => exact .right _

end SqlParse
