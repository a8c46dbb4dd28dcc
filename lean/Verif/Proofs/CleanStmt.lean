import Verif.Proofs.Clean
import Verif.Proofs.EndSwapStmt
/-! The same for statements. -/
namespace SqlParse
set_option linter.unusedVariables false
variable {X : List Tk} {e : Env}

theorem optKws_lv {k : Keyword} {ks : List Keyword} {ts r : List Tk} {a : Option Span} : OptKws k ks ts a r → Lw X e ts r
  | .none h => fun hs => hs
  | .some h => fun hs => let q := kws_lv h hs; q

theorem returning_lv {ts r : List Tk} {a : Option (Span × List Ast)} (h : Returning e ts a r) : Lw X e ts r := optKwx_lv h selEs_lv

theorem del_lv {ts r : List Tk} {a : Ast} : Del e ts a r → Lw X e ts r
  | .from h hf h' ht hu hw hr => fun hs =>
    let q4 := returning_lv hr hs
    let q3 := where_lv hw q4
    let q2 := optKw_lv (R := fun _ => CommaL (TR e)) trs_lv hu q3
    let q1 := commaL_lv qname_lv ht q2
    let q := flags_lv hf rfl (.cons q1)
    .cons q
  | .multi h hf ht h' hu hn hw hr => fun hs =>
    let q4 := returning_lv hr hs
    let q3 := where_lv hw q4
    let q2 := trs_lv hu q3
    let q1 := commaL_lv qname_lv ht (.cons q2)
    let q := flags_lv hf rfl q1
    .cons q

theorem uset_lv {ts r : List Tk} {a : List Ast × Ast} : USet e ts a r → Lw X e ts r
  | .mk h ha => fun hs => let q1 := ex_lv ha hs; let q := dotted_lv h (.cons q1); q

theorem upd_lv {ts r : List Tk} {a : Ast} : Upd e ts a r → Lw X e ts r
  | .mk h hf ht h' hset hw hr hd => fun hs =>
    let q4 := returning_lv hr hs
    let q3 := where_lv hw q4
    let q2 := commaL_lv uset_lv hset q3
    let q1 := trs_lv ht (.cons q2)
    let q := flags_lv hf rfl q1
    .cons q

theorem paren_lv {α : Type} {R : List Tk → α → List Tk → Prop} (hR : ∀ {ts a r}, R ts a r → Lw X e ts r) {ts r : List Tk} {l : List α} :
    Paren R ts l r → Lw X e ts r
  | .mk h => fun hs => let q := commaL_lv hR h (.cons hs); .cons q

theorem setPair_lv {ts r : List Tk} {a : Ast} : SetPair e ts a r → Lw X e ts r
  | .mk h ha => fun hs => let q1 := ex_lv ha hs; let q := idn_lv h (.cons q1); q

theorem assign_lv {ts r : List Tk} {a : Ast × Ast} : Assign e ts a r → Lw X e ts r
  | .mk h ha => fun hs => let q1 := ex_lv ha hs; let q := idn_lv h (.cons q1); q

theorem insCols_lv {ts r : List Tk} {l : List Ast} : InsCols e ts l r → Lw X e ts r
  | .none h => fun hs => hs
  | .some h => fun hs => let q := paren_lv idn_lv h hs; q

theorem insBody_lv {cols : List Ast} {ts r : List Tk} {a} : InsBody e cols ts a r → Lw X e ts r
  | .select h => fun hs => let q := sel_lv h hs; q
  | .values h hr => fun hs => let q := commaL_lv (paren_lv ex_lv) hr hs; .cons q (by rcases h with h | h <;> exact kw_okt h)
  | .set hc h hl => fun hs => let q := commaL_lv setPair_lv hl hs; .cons q

theorem conflictTarget_lv {ts r : List Tk} {a : OAst} : ConflictTarget e ts a r → Lw X e ts r
  | .cols h => fun hs => let q := paren_lv idn_lv h hs; q
  | .constraint h hi => fun hs => let q1 := idn_lv hi hs; let q := kws_lv h q1; q
  | .none h => fun hs => hs

theorem conflictAction_lv {ts r : List Tk} {a : Ast} : ConflictAction e ts a r → Lw X e ts r
  | .nothing h => fun hs => let q := kws_lv h hs; q
  | .update h hl hw => fun hs =>
    let q2 := where_lv hw hs; let q1 := commaL_lv assign_lv hl q2; let q := kws_lv h q1; q

theorem insOn_lv {ts r : List Tk} {a : Option Ast × Option Ast} : InsOn e ts a r → Lw X e ts r
  | .none h => fun hs => hs
  | .dup hd h hl => fun hs => let q1 := commaL_lv setPair_lv hl hs; let q := kws_lv h q1; q
  | .conflict hd h hg ha => fun hs =>
    let q2 := conflictAction_lv ha hs; let q1 := conflictTarget_lv hg q2; let q := kws_lv h q1; q

theorem ins_lv {ts r : List Tk} {a : Ast} : Ins e ts a r → Lw X e ts r
  | .mk h hf hr hi ht hc hb ho hret => fun hs =>
    let q6 := returning_lv hret hs
    let q5 := insOn_lv ho q6
    let q4 := insBody_lv hb q5
    let q3 := insCols_lv hc q4
    let q2 := qname_lv ht q3
    let q1 := optK_lv hi q2
    let q := flags_lv hf rfl q1
    .cons q

theorem toTable_lv {ts r : List Tk} {a : Ast} : ToTable e ts a r → Lw X e ts r
  | .mk ha h hb => fun hs => let q1 := qname_lv hb hs; let q := qname_lv ha (.cons q1); q

theorem ren_lv {ts r : List Tk} {a : Ast} : Ren e ts a r → Lw X e ts r
  | .mk h hk hl => fun hs => let q1 := commaL_lv toTable_lv hl hs; let q := optK_lv hk q1; .cons q

theorem trunc_lv {ts r : List Tk} {a : Ast} : Trunc e ts a r → Lw X e ts r
  | .mk h hk hl => fun hs => let q1 := qname_lv hl hs; let q := optK_lv hk q1; .cons q

theorem dropName_lv {R : List Tk → Ast → List Tk → Prop} (hR : ∀ {ts a r}, R ts a r → Lw X e ts r) {k : Keyword} {ts r : List Tk}
    {a : Span × Option Span × Ast} : DropName R k ts a r → Lw X e ts r
  | .mk h he hn => fun hs => let q1 := hR hn hs; let q := optKws_lv he q1; .cons q

theorem dropWhat_lv {d : Span} {tmp : Option Span} {ts r : List Tk} {a : Ast} : DropWhat e d tmp ts a r → Lw X e ts r
  | .table h he hl hd => fun hs =>
    let q1 := commaL_lv qname_lv hl hs; let q := optKws_lv he q1; .cons q
  | .tableCascade h he hl hd h' => fun hs =>
    let q1 := commaL_lv qname_lv hl (.cons hs); let q := optKws_lv he q1; .cons q
  | .view h he hl => fun hs => let q1 := commaL_lv qname_lv hl hs; let q := optKws_lv he q1; .cons q
  | .database h => fun hs => let q := dropName_lv idn_lv h hs; q
  | .schema h => fun hs => let q := dropName_lv idn_lv h hs; q
  | .event h => fun hs => let q := dropName_lv qname_lv h hs; q
  | .function h => fun hs => let q := dropName_lv qname_lv h hs; q
  | .procedure h => fun hs => let q := dropName_lv qname_lv h hs; q
  | .server h => fun hs => let q := dropName_lv idn_lv h hs; q
  | .trigger h => fun hs => let q := dropName_lv qname_lv h hs; q
  | .index h ho h1 h2 => fun hs =>
    let q1 := optKwx_lv ho qname_lv hs; let q := dropName_lv idn_lv h q1; q

theorem drop_lv {ts r : List Tk} {a : Ast} : Drop e ts a r → Lw X e ts r
  | .mk h ht hw => fun hs => let q1 := dropWhat_lv hw hs; let q := optK_lv ht q1; .cons q

theorem setS_lv {ts r : List Tk} {a : Ast} : SetS e ts a r → Lw X e ts r
  | .mk h hl => fun hs => let q := commaL_lv assign_lv hl hs; .cons q

theorem signalItem_lv {ts r : List Tk} {a : Ast × Span × Ast} : SignalItem e ts a r → Lw X e ts r
  | .mk h ha => fun hs => let q := ex_lv ha hs; .cons (.cons q)

theorem signal_lv {ts r : List Tk} {a : Ast} : Signal e ts a r → Lw X e ts r
  | .mk (s := s) (s' := s') (l := l) h h' hv ha hl => fun hs => by
    have q2 := optKwx_lv hl (commaL_lv signalItem_lv) hs
    have q1 := ex_lv ha q2
    have q := optK_lv hv q1
    refine .cons (.cons q)

theorem ret_lv {ts r : List Tk} {a : Ast} : Ret e ts a r → Lw X e ts r
  | .mk h ha => fun hs => let q := ex_lv ha hs; .cons q

theorem copyCols_lv {ts r : List Tk} {l : List Ast} : CopyCols e ts l r → Lw X e ts r
  | .nil => fun hs => .cons (.cons hs)
  | .some h => fun hs => let q := paren_lv idn_lv h hs; q

theorem copyS_lv {ts r : List Tk} {a : Ast} : CopyS e ts a r → Lw X e ts r
  | .mk h hn hl hf hst => fun hs =>
    let q1 := copyCols_lv hl (.cons (.cons hs)); let q := idn_lv hn q1; .cons q

theorem idxCol_lv {ts r : List Tk} {a : Ast} : IdxCol e ts a r → Lw X e ts r
  | .plain h hr => fun hs => let q := idn_lv h hs; q
  | .size h hn => fun hs => let q1 := num_lv hn (.cons hs); let q := idn_lv h (.cons q1); q

theorem idxType_lv {ts r : List Tk} {a : Ast} : IdxType ts a r → Lw X e ts r
  | .mk h h' => fun hs => .cons (.cons hs)

theorem idxOpts_lv {ts r : List Tk} {l : List Ast} : IdxOpts ts l r → Lw X e ts r
  | .nil h => fun hs => hs
  | .using h hr => fun hs => let q1 := idxOpts_lv hr hs; let q := idxType_lv h q1; q
  | .comment h ha hr => fun hs => let q1 := idxOpts_lv hr hs; let q := str_lv ha q1; .cons q

theorem optName_lv {ts r : List Tk} {a : Option Ast} : OptName e ts a r → Lw X e ts r
  | .none h => fun hs => hs
  | .some h => fun hs => by
    have q := idn_lv h hs
    exact q

theorem fkType_lv {on : Span} {ts r : List Tk} {a : Ast} : FkType on ts a r → Lw X e ts r
  | .update h => fun hs => .cons hs
  | .delete h => fun hs => .cons hs

theorem fkAction_lv {ts r : List Tk} {a : Ast} : FkAction ts a r → Lw X e ts r
  | .restrict h => fun hs => let q := kws_lv h hs; q
  | .cascade h => fun hs => let q := kws_lv h hs; q
  | .setNull h => fun hs => let q := kws_lv h hs; q
  | .noAction h => fun hs => let q := kws_lv h hs; q

theorem fkOns_lv {ts r : List Tk} {l : List Ast} : FkOns ts l r → Lw X e ts r
  | .nil h => fun hs => hs
  | .cons h hy ha hr => fun hs =>
    let q2 := fkOns_lv hr hs; let q1 := fkAction_lv ha q2; let q := fkType_lv hy q1; .cons q

theorem addIdxType_lv {ts r : List Tk} {a : Ast} : AddIdxType ts a r → Lw X e ts r
  | .primary h => fun hs => let q := kws_lv h hs; q
  | .index h => fun hs => let q := kws_lv h hs; q
  | .key h => fun hs => let q := kws_lv h hs; q
  | .special hk hk' h => fun hs => let q := kws_lv h hs; q

theorem constr_lv {ts r : List Tk} {a : Option (Span × Option Ast)} (h : Constr e ts a r) : Lw X e ts r := optKwx_lv h optName_lv

theorem optAt_lv {α : Type} {k : Keyword} {R : List Tk → α → List Tk → Prop} (hR : ∀ {ts a r}, R ts a r → Lw X e ts r) {ts r : List Tk} {a : Option α} :
    OptAt k R ts a r → Lw X e ts r
  | .none h => fun hs => hs
  | .some hn h => fun hs => let q := hR h hs; q

theorem colAction_lv {ts r : List Tk} {a : Ast} : ColAction e ts a r → Lw X e ts r
  | .setDefault h ha => fun hs => let q1 := ex_lv ha hs; let q := kws_lv h q1; q
  | .setNotNull h => fun hs => let q := kws_lv h hs; q
  | .dropDefault h => fun hs => let q := kws_lv h hs; q
  | .dropNotNull h => fun hs => let q := kws_lv h hs; q
  | .type h hd => fun hs => let q := dt_lv hd hs; .cons q

theorem altSpec_lv {ts r : List Tk} {a : Ast} : AltSpec e ts a r → Lw X e ts r
  | .addForeignKey h hc hk hi hn hl h' ht hrc ho => fun hs =>
    let q7 := fkOns_lv ho hs
    let q6 := paren_lv idn_lv hrc q7
    let q5 := idn_lv ht q6
    let q4 := paren_lv idxCol_lv hl (.cons q5)
    let q3 := optName_lv hn q4
    let q2 := optKws_lv hi q3
    let q1 := kws_lv hk q2
    let q := constr_lv hc q1
    .cons q
  | .addIndex h hc hy hi hn h1 hl h2 => fun hs =>
    let q6 := idxOpts_lv h2 hs
    let q5 := paren_lv idxCol_lv hl q6
    let q4 := optAt_lv idxType_lv h1 q5
    let q3 := optName_lv hn q4
    let q2 := optKws_lv hi q3
    let q1 := addIdxType_lv hy q2
    let q := constr_lv hc q1
    .cons q
  | .addColumn h hc h' hi hm hn hd => fun hs =>
    let q3 := dt_lv hd hs
    let q2 := idn_lv hn q3
    let q1 := optKws_lv hi q2
    let q := constr_lv hc (.cons q1)
    .cons q
  | .modify h he hi hd => fun hs => by
    have q3 := dt_lv hd hs
    have q2 := idn_lv hi q3
    have q1 := optKws_lv he q2
    rcases h with ⟨h, hn⟩ | h
    · have q := kws_lv h q1
      exact q
    · have q := kws_lv h q1
      exact q
  | .ownerTo h hi => fun hs => let q1 := idn_lv hi hs; let q := kws_lv h q1; q
  | .dropColumn h hi hc => fun hs =>
    let q2 := optK_lv hc hs; let q1 := idn_lv hi q2; let q := kws_lv h q1; q
  | .alterColumn h hi ha => fun hs =>
    let q2 := colAction_lv ha hs; let q1 := idn_lv hi q2; let q := kws_lv h q1; q

/-- The end of a statement stays one. -/

theorem alt_lv {ts r : List Tk} {a : Ast} : Alt e ts a r → Lw X e ts r
  | .mk h ho hi h' he hq hl hr => fun hs =>
    let q4 := commaL_lv altSpec_lv hl hs
    let q3 := qname_lv hq q4
    let q2 := optKws_lv he q3
    let q1 := optK_lv hi (.cons q2)
    let q := optK_lv ho q1
    .cons q

theorem onDelete_lv {ts r : List Tk} : OnDelete ts r → Lv X e.data e.isPg r → Lv X e.data e.isPg ts
  | .none h, hs => hs
  | .plain hk h, hs => let q := kws_lv h hs; q
  | .setNull h, hs => let q := kws_lv h hs; q

theorem defn_lv {ts r : List Tk} {a : Ast} : Defn e ts a r → Lw X e ts r
  | .column h hd => fun hs => by
    have q1 := dt_lv hd hs
    have q := idn_lv h q1
    exact q
  | .constraint h hi hk hl h' ht hc ho => fun hs =>
    let q5 := onDelete_lv ho hs
    let q4 := paren_lv idn_lv hc q5
    let q3 := idn_lv ht q4
    let q2 := paren_lv idn_lv hl (.cons q3)
    let q1 := kws_lv hk q2
    let q := idn_lv hi q1
    .cons q

theorem defns_lv {ts r : List Tk} {l : List Ast} : Defns e ts l r → Lw X e ts r
  | .nil => fun hs => .cons (.cons hs)
  | .some h => fun hs => let q := paren_lv defn_lv h hs; q

theorem optVal_lv {R : List Tk → Ast → List Tk → Prop} (hR : ∀ {ts a r}, R ts a r → Lw X e ts r) {k : Keyword} {ts r : List Tk}
    {a : Span × Ast} : OptVal R k ts a r → Lw X e ts r
  | .eq h ha => fun hs => let q := hR ha hs; .cons (.cons q)
  | .plain h hn ha => fun hs => let q := hR ha hs; .cons q

theorem tblOpt_lv {ts r : List Tk} {a : Ast} : TblOpt e ts a r → Lw X e ts r
  | .engine h => fun hs => let q := optVal_lv idn_lv h hs; q
  | .charset h => fun hs => let q := optVal_lv idn_lv h hs; q
  | .collate h => fun hs => let q := optVal_lv idn_lv h hs; q
  | .rowFormat h => fun hs => let q := optVal_lv idn_lv h hs; q
  | .comment h => fun hs => let q := optVal_lv str_lv h hs; q
  | .strict h => fun hs => .cons hs
  | .defaultCharset h hx => fun hs => let q := optVal_lv idn_lv hx hs; .cons q
  | .defaultCollate h hx => fun hs => let q := optVal_lv idn_lv hx hs; .cons q

theorem tblOpts_lv {ts r : List Tk} {l : List Ast} : TblOpts e ts l r → Lw X e ts r
  | .nil h hn => fun hs => hs
  | .cons h hr => fun hs => let q1 := tblOpts_lv hr hs; let q := tblOpt_lv h q1; q

theorem crOpts_lv {ts r : List Tk} {l : List Ast} : CrOpts e ts l r → Lw X e ts r
  | .nil h => fun hs => hs
  | .orReplace h hr => fun hs => let q1 := crOpts_lv hr hs; let q := kws_lv h q1; q
  | .temporary h hr => fun hs => let q1 := crOpts_lv hr hs; let q := kws_lv h q1; q
  | .unique h hr => fun hs => let q1 := crOpts_lv hr hs; let q := kws_lv h q1; q
  | .algorithm h h' hr => fun hs => let q1 := crOpts_lv hr hs; .cons (.cons (.cons q1))
  | .definer h hu ho hr => fun hs =>
    let q2 := crOpts_lv hr hs; let q1 := idn_lv ho q2; let q := idn_lv hu (.cons q1)
    .cons (.cons q)
  | .securityDefiner h ht hr => fun hs => let q1 := crOpts_lv hr hs; let q := kws_lv h (.cons q1); q
  | .securityUser h ht hr => fun hs => let q1 := crOpts_lv hr hs; let q := kws_lv h (.cons q1); q

theorem crIdxCol_lv {ts r : List Tk} {a : Ast} : CrIdxCol e ts a r → Lw X e ts r
  | .plain h hr => fun hs => let q := idn_lv h hs; q
  | .op h hk ht hd => fun hs => let q := idn_lv h (.cons hs); q

theorem direction_lv {ts r : List Tk} {a : Option Ast} : Direction ts a r → Lw X e ts r
  | .none h => fun hs => hs
  | .inOut h => fun hs => let q := kws_lv h hs; q
  | .in_ h hr => fun hs => let q := kws_lv h hs; q
  | .out h => fun hs => let q := kws_lv h hs; q
  | .inout h => fun hs => let q := kws_lv h hs; q

theorem param_lv {ts r : List Tk} {a : Option Ast × Ast × Ast} : Param e ts a r → Lw X e ts r
  | .mk hd hi ht => fun hs => let q2 := dt_lv ht hs; let q1 := idn_lv hi q2; let q := direction_lv hd q1; q

theorem toDollars_lv {ts r : List Tk} : ToDollars e ts r → ∃ b s, ts = b ++ (.doubleDollar, s) :: r ∧ (∀ p ∈ b, p.1 ≠ .doubleDollar ∧ p.1 ≠ .eof) ∧ e.data s = none
  | .here hd => ⟨[], _, rfl, nofun, hd⟩
  | .next (t := t) (s := s) h1 h2 hm hd h => by
    obtain ⟨b, s', q1, q2, q3⟩ := toDollars_lv h
    refine ⟨(t, s) :: b, s', by rw [q1]; rfl, ?_, q3⟩
    intro p hp
    rcases List.mem_cons.1 hp with rfl | hp
    · exact ⟨h1, h2⟩
    · exact q2 p hp

theorem fnBody_lv {ts r : List Tk} : FnBody e ts r → Lv X e.data e.isPg r → Lv X e.data e.isPg ts
  | .none h, hs => hs
  | .text hd h hn hr, hs => by
    obtain ⟨b, s', rfl, q2, q3⟩ := toDollars_lv hr
    exact .body hd h q2 q3 hs

theorem chars_lv {ts r : List Tk} {l : List Ast} : Chars ts l r → Lw X e ts r
  | .nil h => fun hs => hs
  | .plain hk h hr => fun hs => let q1 := chars_lv hr hs; let q := kws_lv h q1; q
  | .comment h ha hr => fun hs => let q1 := chars_lv hr hs; let q := str_lv ha q1; .cons q

theorem optKwIf_lv {ts r : List Tk} {a : Option Span}
    (h : OptKw .IF (fun i ts a r => ∃ s, Kws [.NOT, .EXISTS] ts s r ∧ a = (⟨i.start, s.stop⟩ : Span)) ts a r) :
    Lw X e ts r := by
  refine optKw_lv (fun {sp ts a r} h => ?_) h
  obtain ⟨b, h1, h2⟩ := h
  intro hs
  have q := kws_lv h1 hs
  exact q

theorem crWhat_lv {c : Span} {os : List Ast} {ts r : List Tk} {a : Ast} : CrWhat e c os ts a r → Lw X e ts r
  | .table h hi hq hd ho => fun hs =>
    let q3 := tblOpts_lv ho hs
    let q2 := defns_lv hd q3
    let q1 := qname_lv hq q2
    let q := optKwIf_lv hi q1
    .cons q
  | .view h hi hq h' hx => fun hs =>
    let q2 := comp_lv hx hs
    let q1 := qname_lv hq (.cons q2)
    let q := optKws_lv hi q1
    .cons q
  | .index h hi hn h' hq hg hc hw hm => fun hs =>
    let q5 := optKwx_lv hw ex_lv hs
    let q4 := commaL_lv crIdxCol_lv hc (.cons q5)
    let q3 := optKws_lv hg (.cons q4)
    let q2 := qname_lv hq q3
    let q1 := idn_lv hn (.cons q2)
    let q := optKws_lv hi q1
    .cons q
  | .type hd h hn ha hl => fun hs =>
    let q2 := paren_lv str_lv hl hs
    let q1 := kws_lv ha q2
    let q := idn_lv hn q1
    .cons q

theorem handlers_lv {ts r : List Tk} : Handlers e ts r → Lv X e.data e.isPg r → Lv X e.data e.isPg ts
  | .nil h, hs => hs
  | .cons h hi h' ha hd hr, hs =>
    let q2 := handlers_lv hr hs; let q1 := ex_lv ha (.cons q2); let q := idn_lv hi (.cons q1)
    .cons q

theorem exception_lv {ts r : List Tk} : Exception e ts r → Lv X e.data e.isPg r → Lv X e.data e.isPg ts
  | .none h, hs => hs
  | .some h hr, hs => let q := handlers_lv hr hs; .cons q

/-! ### Lists of statements are inside of statements: they do not end at the end of the source -/

theorem Starts.notEof {k : Keyword} (h : Starts k ts) : Next (· ≠ .eof) ts := by
  obtain ⟨v, s, tl, rfl⟩ := h
  show Token.ident v k ≠ .eof
  simp

theorem Stm.firstNotEof {v : SAst} (h : Stm e ts v r) : Next (· ≠ .eof) ts := by
  cases h with
  | query h =>
    obtain ⟨t, s, tl, rfl, hx⟩ := Next.elim h.first
    show t ≠ .eof
    rintro rfl
    rcases hx with hx | hx <;> cases hx
  | delete h => exact h.first.notEof
  | update h => exact h.first.notEof
  | insert h => rcases h.first with h | h <;> exact h.notEof
  | rename h => exact h.first.notEof
  | truncate h => exact h.first.notEof
  | drop h => exact h.first.notEof
  | set h => exact h.first.notEof
  | signal h => exact h.first.notEof
  | ret h => exact h.first.notEof
  | copy h => exact h.first.notEof
  | alter h => exact h.first.notEof
  | start h => exact h.first.notEof
  | commit h => exact h.first.notEof
  | begin hp h => exact h.first.notEof
  | «end» hp h => exact h.first.notEof
  | block hp h => exact h.first.notEof
  | create h => exact (starts_of h).notEof
  | doBlock h => exact (starts_of h).notEof
  | ifThen h => exact (starts_of h).notEof
  | caseWhen h => exact (starts_of h).notEof
  | caseOf h => exact (starts_of h).notEof
  | withQuery hd h => exact (starts_of h).notEof
  | trigger h => exact (starts_of h).notEof
  | function h => exact (starts_of h).notEof

theorem stms_ne_eof {ts r : List Tk} {l : List SAst} (hr : Next (· ≠ .eof) r) : Stms e ts l r → Next (· ≠ .eof) ts
  | .semi _ _ => fun h => by cases h
  | .nil _ => hr
  | .last h _ => h.firstNotEof
  | .cons h _ _ _ => h.firstNotEof
  | .copy h _ _ _ => h.firstNotEof

/-- The same as `Lw`, for phrases after which the source does not end. -/
def Lwi (X : List Tk) (e : Env) (ts r : List Tk) : Prop := Next (· ≠ .eof) r → Lw X e ts r

mutual
theorem stm_lv {e : Env} {ts r : List Tk} {v : SAst} : Stm e ts v r → Lw X e ts r
  | .query h => fun hs => let q := comp_lv h hs; q
  | .delete h => fun hs => let q := del_lv h hs; q
  | .update h => fun hs => let q := upd_lv h hs; q
  | .insert h => fun hs => let q := ins_lv h hs; q
  | .rename h => fun hs => let q := ren_lv h hs; q
  | .truncate h => fun hs => let q := trunc_lv h hs; q
  | .drop h => fun hs => let q := drop_lv h hs; q
  | .set h => fun hs => let q := setS_lv h hs; q
  | .signal h => fun hs => let q := signal_lv h hs; q
  | .ret h => fun hs => let q := ret_lv h hs; q
  | .copy h => fun hs => let q := copyS_lv h hs; q
  | .alter h => fun hs => let q := alt_lv h hs; q
  | .create h ho hw => fun hs => let q1 := crWhat_lv hw hs; let q := crOpts_lv ho q1; .cons q
  | .start h => fun hs => let q := kws_lv h hs; q
  | .commit h => fun hs => let q := kws_lv h hs; q
  | .begin hp h => fun hs => let q := kws_lv h hs; q
  | .end hp h => fun hs => let q := kws_lv h hs; q
  | .block hp h => fun hs => let q := block_lv h hs; q
  | .doBlock h hn hb hn' => fun hs => let q := block_lv hb (.cons hs); .cons (.cons q)
  | .ifThen h hc he hf => fun hs =>
    let n2 := kws_ne_eof hf
    let q2 := kws_lv hf hs
    let q1 := else_lv he n2 q2
    let q := branches_lv hc (elseS_ne_eof n2 he) q1
    .cons q
  | .caseWhen h hw he h' => fun hs =>
    let q1 := else_lv he (kw_ne_eof h') (.cons hs)
    let q := cases_lv hw (elseS_ne_eof (r := _ :: _) (kw_ne_eof h') he) q1
    .cons q
  | .caseOf h hn hv hw he h' => fun hs =>
    let q1 := else_lv he (kw_ne_eof h') (.cons hs)
    let q2 := cases_lv hw (elseS_ne_eof (r := _ :: _) (kw_ne_eof h') he) q1
    let q := ex_lv hv q2
    .cons q
  | .withQuery hp h hb hv hk => fun hs =>
    let q1 := stm_lv hv hs; let q := withs_lv hb q1; .cons q
  | .trigger h ho h1 hi hn h2 h3 h4 ht hf hv => fun hs =>
    let q5 := stm_lv (e := { e with permit := true }) hv hs
    let q4 := kws_lv hf q5
    let q3 := idn_lv ht q4
    let q2 := idn_lv hn (.cons (.cons (.cons q3)))
    let q1 := optKws_lv hi q2
    let q := crOpts_lv ho (.cons q1)
    .cons q
  | .function h ho h1 hi hn hp h2 hr hb hc hf => fun hs =>
    let q7 := fn_lv hf hs
    let q6 := chars_lv hc q7
    let q5 := fnBody_lv hb q6
    let q4 := dt_lv hr q5
    let q3 := commaL_lv param_lv hp (.cons (.cons q4))
    let q2 := idn_lv hn (.cons q3)
    let q1 := optKws_lv hi q2
    let q := crOpts_lv ho (.cons q1)
    .cons q

theorem fn_lv {e : Env} {ts r : List Tk} {b : Option SAst} : FnStmt e ts b r → Lw X e ts r
  | .none hm => fun hs => hs
  | .some hm h => fun hs => let q := stm_lv h hs; q

theorem stms_lv {e : Env} {ts r : List Tk} {l : List SAst} : Stms e ts l r → Lwi X e ts r
  | .semi hd h => fun hn hs => let q := stms_lv h hn hs; .cons q
  | .nil h => fun hn hs => hs
  | .last h hr => fun hn hs => let q := stm_lv h hs; q
  | .cons h hc hd hl => fun hn hs => let q1 := stms_lv hl hn hs; let q := stm_lv h (.cons q1); q
  | .copy h hc hd hl => fun hn hs => let q1 := stms_lv hl hn hs; let q := stm_lv h (.cons q1 ⟨(fun h => by cases h), .inr (.inr (stms_ne_eof hn hl))⟩); q

theorem block_lv {e : Env} {ts r : List Tk} {l : List SAst} : Block e ts l r → Lw X e ts r
  | .mk h hl hx h' => fun hs =>
    let q1 := exception_lv hx (.cons hs); let q := stms_lv hl (exception_ne_eof (kw_ne_eof h') hx) q1; .cons q

theorem branches_lv {e : Env} {o : Option Span} {ts r : List Tk} {l : List SAst} : Branches e o ts l r → Lwi X e ts r
  | .one hc h hl hr => fun hn hs => let q1 := stms_lv hl hn hs; let q := ex_lv hc (.cons q1); q
  | .cons hc h hl h' hr => fun hn hs =>
    let q2 := branches_lv hr hn hs
    let q1 := stms_lv hl (kw_ne_eof h') (.cons q2)
    let q := ex_lv hc (.cons q1)
    q

theorem cases_lv {e : Env} {ts r : List Tk} {l : List SAst} : CaseBranches e ts l r → Lwi X e ts r
  | .one h hc h' hl hr => fun hn hs =>
    let q1 := stms_lv hl hn hs; let q := ex_lv hc (.cons q1); .cons q
  | .cons h hc h' hl hr => fun hn hs =>
    let q2 := cases_lv hr hn hs
    let q1 := stms_lv hl (cases_ne_eof hr) q2
    let q := ex_lv hc (.cons q1)
    .cons q

theorem else_lv {e : Env} {ts r : List Tk} {o : Option (Span × List SAst)} : ElseS e ts o r → Lwi X e ts r
  | .none h => fun _ hs => hs
  | .some h hl => fun hn hs => let q := stms_lv hl hn hs; .cons q

theorem withs_lv {e : Env} {ts r : List Tk} {l : List SAst} : WithBlocks e ts l r → Lw X e ts r
  | .one hi h hv hk hr => fun hs =>
    let q1 := stm_lv hv (.cons hs); let q := idn_lv hi (.cons (.cons q1)); q
  | .cons hi h hv hk hl => fun hs =>
    let q2 := withs_lv hl hs; let q1 := stm_lv hv (.cons (.cons q2)); let q := idn_lv hi (.cons (.cons q1))
    q
end

end SqlParse
