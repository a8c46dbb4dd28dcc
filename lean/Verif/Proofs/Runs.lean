import Verif.Proofs.SafeDataType
import Verif.Proofs.Ends
/-! Exact descriptions of successful runs of small programs. -/
namespace SqlParse
variable {α β σ : Type} {R : ∀ α, Fn α → St → Out α} {n : Nat}

theorem consume_ok {s s' : St} {a : Span} (h : runWith R n consume s = .ok a s') : a = s.span ∧ s.next = .ok () s' := by
  change runWith R n (next >>= fun _ => pure s.span) s = .ok a s' at h
  obtain ⟨u, s1, h1, h2⟩ := bind_run h
  cases h2
  exact ⟨rfl, h1⟩

/-- Only the issue list differs. -/
def SameIss (s s' : St) : Prop := ∃ l, s' = { s with issues := l }

theorem capsWarn_ok {v : List Char} {sp : Span} {s s' : St}
    (h : runWith R n (capsWarn v sp) s = .ok () s') : SameIss s s' := by
  unfold capsWarn Prog.when at h
  split at h
  · unfold issueIf at h
    rw [runWith_op] at h
    simp only [Op.run] at h
    split at h
    · unfold St.issue at h
      split at h
      · cases h; exact ⟨_, rfl⟩
      · cases h
    · cases h; exact ⟨_, rfl⟩
  · unfold runWith at h; cases h; exact ⟨_, rfl⟩

theorem ckw_ok {k : Keyword} {s s' : St} {a : Span} (h : runWith R n (ckw k) s = .ok a s') :
    s.token.isKw k = true ∧ a = s.span ∧ ∃ s1, SameIss s s1 ∧ s1.next = .ok () s' := by
  change runWith R n (match s.token with
    | .ident v k' => if k' = k then (capsWarn v s.span >>= fun _ => consume) else expectedFailure (.kw k)
    | _ => expectedFailure (.kw k)) s = .ok a s' at h
  split at h
  · split at h
    · next v k' ht hk =>
      obtain ⟨u, s1, h1, h2⟩ := bind_run h
      obtain ⟨l, h1⟩ := capsWarn_ok h1
      obtain ⟨h3, h4⟩ := consume_ok h2
      refine ⟨by simp [ht, Token.isKw, hk], by rw [h3, h1], s1, ⟨l, h1⟩, h4⟩
    · exact absurd h expectedFailure_run
  · exact absurd h expectedFailure_run

theorem next_peeked {s s' : St} (h : s.next = .ok () s') : s'.peeked = none := by
  unfold St.next at h
  split at h
  · cases h; rfl
  · next hp =>
    split at h
    · cases h; exact hp
    · cases h

theorem ckw_peeked {k : Keyword} {s s' : St} {a : Span} (h : runWith R n (ckw k) s = .ok a s') : s'.peeked = none := by
  obtain ⟨-, -, s1, -, h⟩ := ckw_ok h
  exact next_peeked h

theorem parseCopy_peeked {s s' : St} {a : Ast} (h : runWith R n parseCopy s = .ok a s') : s'.peeked = none := by
  unfold parseCopy at h
  obtain ⟨_, _, -, h⟩ := bind_run h
  obtain ⟨_, _, -, h⟩ := bind_run h
  obtain ⟨_, _, -, h⟩ := bind_run h
  obtain ⟨_, _, -, h⟩ := bind_run h
  obtain ⟨_, _, -, h⟩ := bind_run h
  obtain ⟨_, _, -, h⟩ := bind_run h
  obtain ⟨_, s1, h1, h⟩ := bind_run h
  cases h
  exact ckw_peeked h1

theorem copy_kinds {t : Token} (h : Kind.Copy ∈ stmtKinds t) : t.isKw .COPY = true := by
  unfold stmtKinds at h
  split at h
  · simp at h
  · split at h
    · next l hl =>
      have h1 : ∀ p ∈ kwKinds, Kind.Copy ∈ p.2 → p.1 = .COPY := by decide
      obtain ⟨l1, l2, h2, h3⟩ := List.lookup_eq_some_iff.1 hl
      have := h1 (t.kw, l) (by rw [h2]; simp) h
      clear h hl h1 h2 h3
      have this : t.kw = .COPY := this
      cases t with
      | ident s k => simp only [Token.kw] at this; subst this; rfl
      | _ => exact absurd (show Keyword.NOT_A_KEYWORD = Keyword.COPY from this) (by decide)
    · simp at h

/-- After COPY nothing is peeked. -/
theorem copy_peeked (hR : CallsQuery R) {s s' : St} {v : SAst} (h : runWith R n statementBody s = .ok (some v) s')
    (hv : v.readsStdin = true) : s.token.isKw .COPY = true ∧ s'.peeked = none := by
  obtain ⟨k, h1, h2⟩ := statementBody_kind hR h
  unfold SAst.readsStdin at hv
  rw [h2] at hv
  simp at hv
  subst hv
  have hc := copy_kinds h1
  refine ⟨hc, ?_⟩
  obtain ⟨w, hw⟩ := isKw_iff hc
  change runWith R n (stmtDispatch s.token s.permit) s = _ at h
  rw [hw] at h
  change runWith R n (.bind parseCopy _) s = _ at h
  obtain ⟨_, s1, h1, h⟩ := bind_run h
  cases h
  exact parseCopy_peeked h1

end SqlParse
