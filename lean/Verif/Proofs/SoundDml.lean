import Verif.Proofs.SoundQuery
/-! The converse direction of the grammar: DELETE, UPDATE, INSERT, RENAME, TRUNCATE, DROP. -/
namespace SqlParse
set_option linter.unusedSectionVars false

section
variable {α β σ : Type} {n : Nat} [CallsS n] {c : Env} {ts r tl : List Tk} {Q : β → List Tk → Prop} {t : Token} {sp : Span}

theorem returningClause_d : D n c returningClause ts (Returning c ts) := by
  refine optKw_d fun sp ts => ?_
  dw
  all_goals leaf

/-- The two forms of DELETE. -/
inductive DelT (e : Env) : List Tk → Span × List Ast × List Ast → List Tk → Prop where
  | «from» {t : Token} {f : Span} {r1 r : List Tk} {tb : List Ast} (h : t.isKw .FROM = true) (ht : CommaL (QName e) r1 tb r) :
      DelT e ((t, f) :: r1) (f, tb, []) r
  | multi {t : Token} {f : Span} {ts r1 r : List Tk} {tb u : List Ast} (ht : CommaL (QName e) ts tb ((t, f) :: r1)) (h : t.isKw .FROM = true)
      (hu : CommaL (TR e) r1 u r) (hn : u.isEmpty = false) : DelT e ts (f, tb, u) r

theorem commaL_ne {R : List Tk → α → List Tk → Prop} {l : List α} (h : CommaL R ts l r) : l.isEmpty = false := by
  cases h <;> rfl

theorem deleteTables_d : D n c deleteTables ts (DelT c ts) := by
  unfold deleteTables
  dw
  all_goals leaf [commaL_ne]

theorem deleteUsing_d {u : List Ast} : D n c (deleteUsing u) ts
    (fun x r => (x = u ∧ NotKw .USING ts ∧ r = ts) ∨ (u.isEmpty = true ∧ ∃ l, x = u ++ l ∧ OptKw .USING (fun _ => CommaL (TR c)) ts (some l) r)) := by
  unfold deleteUsing
  dw
  · exact .inl ⟨rfl, by assumption, rfl⟩
  · exact .inr ⟨by simp_all, _, rfl, .some (by assumption) (by assumption)⟩

theorem del_flags {l : List Ast} (h : Many (KwN deleteFlagTable) ts l r) : Flags deleteFlagWords ts l r := many_flags h
theorem upd_flags {l : List Ast} (h : Many (KwN updateFlagTable) ts l r) : Flags updateFlagWords ts l r := many_flags h
theorem ins_flags {l : List Ast} (h : Many (KwN insertFlagTable) ts l r) : Flags insertFlagWords ts l r := many_flags h

theorem parseDelete_d : D n c parseDelete ts (Del c ts) := by
  unfold parseDelete
  dw
  next ht _ _ hu _ _ _ _ _ _ =>
  rcases hu with ⟨rfl, hn, rfl⟩ | ⟨he, l, rfl, hu⟩
  · cases ht with
    | «from» h' ht => exact .from (u := none) (by assumption) (del_flags (by assumption)) h' ht (.none hn) (by assumption) (by assumption)
    | multi ht h' hu' => exact .multi (by assumption) (del_flags (by assumption)) ht h' hu' hn (by assumption) (by assumption)
  · cases ht with
    | «from» h' ht => exact .from (u := some l) (by assumption) (del_flags (by assumption)) h' ht hu (by assumption) (by assumption)
    | multi ht h' hu' hn => rw [hn] at he; cases he

theorem dottedLoop_d : D n c (sepLoop (skips .period) ident) ts (fun l r => ∃ p i, Dotted c ts p i r ∧ l = p.map Prod.fst ++ [i]) := by
  refine d_loop (I := fun acc r => ∃ q, acc = q.map Prod.fst ∧ ∀ p i r', Dotted c r p i r' → Dotted c ts (q ++ p) i r') ⟨[], rfl, fun _ _ _ h => h⟩ ?_
  rintro acc ts' ⟨q, rfl, hI⟩
  refine d_bind ident_d fun i r hi => d_bind (skips_d rfl) fun b r' hb => d_pure ?_
  cases hb with
  | no hr => exact ⟨q, _, by simpa using hI _ _ _ (.last hi hr), rfl⟩
  | yes => exact ⟨q ++ [(i, _)], by simp, fun p i r' h => by simpa using hI _ _ _ (.dot hi h)⟩

theorem updateSet_d : D n c updateSet ts (USet c ts) := by
  unfold updateSet
  refine d_bind dottedLoop_d ?_
  rintro _ r ⟨p, i, h, rfl⟩
  dw
  leaf

theorem kws2 {t t' : Token} {k k' : Keyword} {s s' : Span} (h : t.isKw k = true) (h' : t'.isKw k' = true) :
    Kws [k, k'] ((t, s) :: (t', s') :: r) (joinSpan s' s) r := by
  rw [joinSpan_comm]
  exact .cons h (.one h')

theorem updateReturning_d : D n c updateReturning ts (fun x r => Returning c ts x r ∧ (x ≠ none → c.opts.dialect = .postgreSQL)) := by
  unfold updateReturning
  dw
  all_goals leaf

theorem parseUpdate_d : D n c parseUpdate ts (Upd c ts) := by
  unfold parseUpdate
  dw
  all_goals leaf [upd_flags]

theorem insertColumns_d : D n c insertColumns ts (InsCols c ts) := by
  unfold insertColumns
  dw
  all_goals leaf

theorem valuesRow_d : D n c valuesRow ts (Paren (Ex c false) ts) := by
  unfold valuesRow
  dw
  all_goals leaf

theorem setPair_d : D n c setPair ts (SetPair c ts) := by
  unfold setPair
  dw
  all_goals leaf

theorem assignment_d : D n c assignment ts (Assign c ts) := by
  unfold assignment
  dw
  all_goals leaf

theorem insertBody_d {cols : List Ast} : D n c (insertBody cols) ts (InsBody c cols ts) := by
  unfold insertBody
  dw
  all_goals leaf

theorem conflictTarget_d : D n c conflictTarget ts (ConflictTarget c ts) := by
  unfold conflictTarget
  dw
  all_goals leaf

theorem conflictAction_d : D n c conflictAction ts (ConflictAction c ts) := by
  unfold conflictAction
  dw
  all_goals leaf

theorem insertOn_d : D n c insertOn ts (InsOn c ts) := by
  unfold insertOn
  dw
  all_goals leaf

theorem insertFlags_db {b : Bool} {f : Unit → Prog β} : ∀ {l : List Ast},
    ((b = false → ∀ a ∈ l, a.kind? ≠ some .InsertReplaceFlag_HighPriority ∧ a.kind? ≠ some .InsertReplaceFlag_Ignore) → D n c (f ()) ts Q) →
    D n c (checkInsertFlags b l >>= f) ts Q
  | [], h => d_seq (d_ret (h fun _ _ h => nomatch h))
  | a :: l, h => by
    unfold checkInsertFlags
    refine d_assoc (d_whenNo (fun g => ?_) fun hb => ?_)
    · dw
    · refine insertFlags_db fun hl => h fun hf x hx => ?_
      rcases List.mem_cons.1 hx with rfl | hx
      · simpa [hf] using hb
      · exact hl hf x hx

theorem parseInsertReplace_d : D n c parseInsertReplace ts (Ins c ts) := by
  unfold parseInsertReplace
  refine d_bind (consNode_d rfl) fun o r ho => ?_
  cases ho with
  | none => exact d_expectedFailure_bind
  | @some t sp r K h =>
    dw
    next fl r1 hf =>
    refine insertFlags_db fun hk => ?_
    dw
    refine .mk h (ins_flags hf) (fun hr f hf' s => ?_) (by assumption) (by assumption) (by assumption) (by assumption) (by assumption) (by assumption)
    obtain ⟨v, rfl⟩ := isKw_iff hr
    have h' : insertTypeTable.lookup .REPLACE = some .InsertReplaceType_Replace := by decide
    rw [show (Token.ident v .REPLACE).kw = .REPLACE from rfl, h'] at h
    cases h
    have := hk rfl f hf'
    constructor
    · rintro rfl; exact this.1 rfl
    · rintro rfl; exact this.2 rfl

theorem tableToTable_d : D n c tableToTable ts (ToTable c ts) := by
  unfold tableToTable
  dw
  all_goals leaf

theorem parseRename_d : D n c parseRename ts (Ren c ts) := by
  unfold parseRename
  dw
  all_goals leaf

theorem parseTruncate_d : D n c parseTruncate ts (Trunc c ts) := by
  unfold parseTruncate
  dw
  all_goals leaf

theorem ifExists_d : D n c ifExists ts (OptKws .IF [.EXISTS] ts) := by
  unfold ifExists
  dw
  all_goals leaf [kws2]

theorem dropTable_d {d : Span} {tmp : Option Span} : D n c (dropTable d tmp) ts (DropWhat c d tmp ts) := by
  unfold dropTable
  dw
  all_goals dcase [OptK]
  all_goals leaf

theorem dropNamed_d {k : Keyword} {p : Prog Ast} {R : List Tk → Ast → List Tk → Prop} (hp : ∀ ts, D n c p ts (R ts)) :
   D n c (dropNamed k p) ts (DropName R k ts) := by
  unfold dropNamed
  dw
  refine d_bind (hp _) fun _ _ h => d_pure ?_
  leaf

theorem dropIndex_d {d : Span} {tmp : Option Span} : D n c (dropIndex d) ts (DropWhat c d tmp ts) := by
  unfold dropIndex
  dw
  · exact .index (x := (_, _, _)) (on := none) (.mk (by assumption) (by assumption) (by assumption)) (.none (by assumption)) (by simp_all) (by simp)
  · exact .index (x := (_, _, _)) (on := some (_, _)) (.mk (by assumption) (by assumption) (by assumption)) (.some (by assumption) ⟨_, rfl, by assumption⟩)
      (by simp) (by simp_all)

theorem dropView_d {d : Span} {tmp : Option Span} : D n c (dropView d tmp) ts (DropWhat c d tmp ts) := by
  unfold dropView
  dw
  all_goals leaf

theorem parseDrop_d : D n c parseDrop ts (Drop c ts) := by
  unfold parseDrop
  dw
  all_goals first | leaf | skip
  next _ _ _ hk _ _ hd =>
  refine .mk (by assumption) (by assumption) ?_
  rcases (by simpa using hk : _ ∨ _) with h | h
  · rw [kw_of_isKw h] at hd; exact .database hd
  · rw [kw_of_isKw h] at hd; exact .schema hd

end
end SqlParse
