import Verif.Proofs.EndSwap
/-! The same for statements. -/
namespace SqlParse
variable {X Y : List Tk} {e : Env}

theorem optKws_es {k : Keyword} {ks : List Keyword} {ts r : List Tk} {a : Option Span} : OptKws k ks ts a r → Mv X Y (OptKws k ks) ts a r
  | .none h => fun _ hs => ⟨_, hs, .none (nx h hs)⟩
  | .some h => fun _ hs => let ⟨_, q, g⟩ := kws_es h _ hs; ⟨_, q, .some g⟩

theorem returning_es {ts r : List Tk} {a : Option (Span × List Ast)} (h : Returning e ts a r) : Mv X Y (Returning e) ts a r := optKwx_es h selEs_es

theorem del_es {ts r : List Tk} {a : Ast} : Del e ts a r → Mv X Y (Del e) ts a r
  | .from h hf h' ht hu hw hr => fun _ hs =>
    let ⟨_, q4, g4⟩ := returning_es hr _ hs
    let ⟨_, q3, g3⟩ := where_es hw _ q4
    let ⟨_, q2, g2⟩ := optKw_es (R := fun _ => CommaL (TR e)) trs_es hu _ q3
    let ⟨_, q1, g1⟩ := commaL_es qname_es ht _ q2
    let ⟨_, q, g⟩ := flags_es hf _ (.cons q1)
    ⟨_, .cons q, .from h g h' g1 g2 g3 g4⟩
  | .multi h hf ht h' hu hn hw hr => fun _ hs =>
    let ⟨_, q4, g4⟩ := returning_es hr _ hs
    let ⟨_, q3, g3⟩ := where_es hw _ q4
    let ⟨_, q2, g2⟩ := trs_es hu _ q3
    let ⟨_, q1, g1⟩ := commaL_es qname_es ht _ (.cons q2)
    let ⟨_, q, g⟩ := flags_es hf _ q1
    ⟨_, .cons q, .multi h g g1 h' g2 (nx hn q3) g3 g4⟩

theorem uset_es {ts r : List Tk} {a : List Ast × Ast} : USet e ts a r → Mv X Y (USet e) ts a r
  | .mk h ha => fun _ hs => let ⟨_, q1, g1⟩ := ex_es ha _ hs; let ⟨_, q, g⟩ := dotted_es h (.cons q1); ⟨_, q, .mk g g1⟩

theorem upd_es {ts r : List Tk} {a : Ast} : Upd e ts a r → Mv X Y (Upd e) ts a r
  | .mk h hf ht h' hset hw hr hd => fun _ hs =>
    let ⟨_, q4, g4⟩ := returning_es hr _ hs
    let ⟨_, q3, g3⟩ := where_es hw _ q4
    let ⟨_, q2, g2⟩ := commaL_es uset_es hset _ q3
    let ⟨_, q1, g1⟩ := trs_es ht _ (.cons q2)
    let ⟨_, q, g⟩ := flags_es hf _ q1
    ⟨_, .cons q, .mk h g g1 h' g2 g3 g4 hd⟩

theorem paren_es {α : Type} {R : List Tk → α → List Tk → Prop} (hR : ∀ {ts a r}, R ts a r → Mv X Y R ts a r) {ts r : List Tk} {l : List α} :
    Paren R ts l r → Mv X Y (Paren R) ts l r
  | .mk h => fun _ hs => let ⟨_, q, g⟩ := commaL_es hR h _ (.cons hs); ⟨_, .cons q, .mk g⟩

theorem setPair_es {ts r : List Tk} {a : Ast} : SetPair e ts a r → Mv X Y (SetPair e) ts a r
  | .mk h ha => fun _ hs => let ⟨_, q1, g1⟩ := ex_es ha _ hs; let ⟨_, q, g⟩ := idn_es h _ (.cons q1); ⟨_, q, .mk g g1⟩

theorem assign_es {ts r : List Tk} {a : Ast × Ast} : Assign e ts a r → Mv X Y (Assign e) ts a r
  | .mk h ha => fun _ hs => let ⟨_, q1, g1⟩ := ex_es ha _ hs; let ⟨_, q, g⟩ := idn_es h _ (.cons q1); ⟨_, q, .mk g g1⟩

theorem insCols_es {ts r : List Tk} {l : List Ast} : InsCols e ts l r → Mv X Y (InsCols e) ts l r
  | .none h => fun _ hs => ⟨_, hs, .none (nx h hs)⟩
  | .some h => fun _ hs => let ⟨_, q, g⟩ := paren_es idn_es h _ hs; ⟨_, q, .some g⟩

theorem insBody_es {cols : List Ast} {ts r : List Tk} {a} : InsBody e cols ts a r → Mv X Y (InsBody e cols) ts a r
  | .select h => fun _ hs => let ⟨_, q, g⟩ := sel_es h _ hs; ⟨_, q, .select g⟩
  | .values h hr => fun _ hs => let ⟨_, q, g⟩ := commaL_es (paren_es ex_es) hr _ hs; ⟨_, .cons q, .values h g⟩
  | .set hc h hl => fun _ hs => let ⟨_, q, g⟩ := commaL_es setPair_es hl _ hs; ⟨_, .cons q, .set hc h g⟩

theorem conflictTarget_es {ts r : List Tk} {a : OAst} : ConflictTarget e ts a r → Mv X Y (ConflictTarget e) ts a r
  | .cols h => fun _ hs => let ⟨_, q, g⟩ := paren_es idn_es h _ hs; ⟨_, q, .cols g⟩
  | .constraint h hi => fun _ hs => let ⟨_, q1, g1⟩ := idn_es hi _ hs; let ⟨_, q, g⟩ := kws_es h _ q1; ⟨_, q, .constraint g g1⟩
  | .none h => fun _ hs => ⟨_, hs, .none (nx h hs)⟩

theorem conflictAction_es {ts r : List Tk} {a : Ast} : ConflictAction e ts a r → Mv X Y (ConflictAction e) ts a r
  | .nothing h => fun _ hs => let ⟨_, q, g⟩ := kws_es h _ hs; ⟨_, q, .nothing g⟩
  | .update h hl hw => fun _ hs =>
    let ⟨_, q2, g2⟩ := where_es hw _ hs; let ⟨_, q1, g1⟩ := commaL_es assign_es hl _ q2; let ⟨_, q, g⟩ := kws_es h _ q1; ⟨_, q, .update g g1 g2⟩

theorem insOn_es {ts r : List Tk} {a : Option Ast × Option Ast} : InsOn e ts a r → Mv X Y (InsOn e) ts a r
  | .none h => fun _ hs => ⟨_, hs, .none (nx h hs)⟩
  | .dup hd h hl => fun _ hs => let ⟨_, q1, g1⟩ := commaL_es setPair_es hl _ hs; let ⟨_, q, g⟩ := kws_es h _ q1; ⟨_, q, .dup hd g g1⟩
  | .conflict hd h hg ha => fun _ hs =>
    let ⟨_, q2, g2⟩ := conflictAction_es ha _ hs; let ⟨_, q1, g1⟩ := conflictTarget_es hg _ q2; let ⟨_, q, g⟩ := kws_es h _ q1; ⟨_, q, .conflict hd g g1 g2⟩

theorem ins_es {ts r : List Tk} {a : Ast} : Ins e ts a r → Mv X Y (Ins e) ts a r
  | .mk h hf hr hi ht hc hb ho hret => fun _ hs =>
    let ⟨_, q6, g6⟩ := returning_es hret _ hs
    let ⟨_, q5, g5⟩ := insOn_es ho _ q6
    let ⟨_, q4, g4⟩ := insBody_es hb _ q5
    let ⟨_, q3, g3⟩ := insCols_es hc _ q4
    let ⟨_, q2, g2⟩ := qname_es ht _ q3
    let ⟨_, q1, g1⟩ := optK_es hi _ q2
    let ⟨_, q, g⟩ := flags_es hf _ q1
    ⟨_, .cons q, .mk h g hr g1 g2 g3 g4 g5 g6⟩

theorem toTable_es {ts r : List Tk} {a : Ast} : ToTable e ts a r → Mv X Y (ToTable e) ts a r
  | .mk ha h hb => fun _ hs => let ⟨_, q1, g1⟩ := qname_es hb _ hs; let ⟨_, q, g⟩ := qname_es ha _ (.cons q1); ⟨_, q, .mk g h g1⟩

theorem ren_es {ts r : List Tk} {a : Ast} : Ren e ts a r → Mv X Y (Ren e) ts a r
  | .mk h hk hl => fun _ hs => let ⟨_, q1, g1⟩ := commaL_es toTable_es hl _ hs; let ⟨_, q, g⟩ := optK_es hk _ q1; ⟨_, .cons q, .mk h g g1⟩

theorem trunc_es {ts r : List Tk} {a : Ast} : Trunc e ts a r → Mv X Y (Trunc e) ts a r
  | .mk h hk hl => fun _ hs => let ⟨_, q1, g1⟩ := qname_es hl _ hs; let ⟨_, q, g⟩ := optK_es hk _ q1; ⟨_, .cons q, .mk h g g1⟩

theorem dropName_es {R : List Tk → Ast → List Tk → Prop} (hR : ∀ {ts a r}, R ts a r → Mv X Y R ts a r) {k : Keyword} {ts r : List Tk}
    {a : Span × Option Span × Ast} : DropName R k ts a r → Mv X Y (DropName R k) ts a r
  | .mk h he hn => fun _ hs => let ⟨_, q1, g1⟩ := hR hn _ hs; let ⟨_, q, g⟩ := optKws_es he _ q1; ⟨_, .cons q, .mk h g g1⟩

theorem dropWhat_es {d : Span} {tmp : Option Span} {ts r : List Tk} {a : Ast} : DropWhat e d tmp ts a r → Mv X Y (DropWhat e d tmp) ts a r
  | .table h he hl hd => fun _ hs =>
    let ⟨_, q1, g1⟩ := commaL_es qname_es hl _ hs; let ⟨_, q, g⟩ := optKws_es he _ q1; ⟨_, .cons q, .table h g g1 fun h => nx (hd h) hs⟩
  | .tableCascade h he hl hd h' => fun _ hs =>
    let ⟨_, q1, g1⟩ := commaL_es qname_es hl _ (.cons hs); let ⟨_, q, g⟩ := optKws_es he _ q1; ⟨_, .cons q, .tableCascade h g g1 hd h'⟩
  | .view h he hl => fun _ hs => let ⟨_, q1, g1⟩ := commaL_es qname_es hl _ hs; let ⟨_, q, g⟩ := optKws_es he _ q1; ⟨_, .cons q, .view h g g1⟩
  | .database h => fun _ hs => let ⟨_, q, g⟩ := dropName_es idn_es h _ hs; ⟨_, q, .database g⟩
  | .schema h => fun _ hs => let ⟨_, q, g⟩ := dropName_es idn_es h _ hs; ⟨_, q, .schema g⟩
  | .event h => fun _ hs => let ⟨_, q, g⟩ := dropName_es qname_es h _ hs; ⟨_, q, .event g⟩
  | .function h => fun _ hs => let ⟨_, q, g⟩ := dropName_es qname_es h _ hs; ⟨_, q, .function g⟩
  | .procedure h => fun _ hs => let ⟨_, q, g⟩ := dropName_es qname_es h _ hs; ⟨_, q, .procedure g⟩
  | .server h => fun _ hs => let ⟨_, q, g⟩ := dropName_es idn_es h _ hs; ⟨_, q, .server g⟩
  | .trigger h => fun _ hs => let ⟨_, q, g⟩ := dropName_es qname_es h _ hs; ⟨_, q, .trigger g⟩
  | .index h ho h1 h2 => fun _ hs =>
    let ⟨_, q1, g1⟩ := optKwx_es ho qname_es _ hs; let ⟨_, q, g⟩ := dropName_es idn_es h _ q1; ⟨_, q, .index g g1 h1 h2⟩

theorem drop_es {ts r : List Tk} {a : Ast} : Drop e ts a r → Mv X Y (Drop e) ts a r
  | .mk h ht hw => fun _ hs => let ⟨_, q1, g1⟩ := dropWhat_es hw _ hs; let ⟨_, q, g⟩ := optK_es ht _ q1; ⟨_, .cons q, .mk h g g1⟩

theorem setS_es {ts r : List Tk} {a : Ast} : SetS e ts a r → Mv X Y (SetS e) ts a r
  | .mk h hl => fun _ hs => let ⟨_, q, g⟩ := commaL_es assign_es hl _ hs; ⟨_, .cons q, .mk h g⟩

theorem signalItem_es {ts r : List Tk} {a : Ast × Span × Ast} : SignalItem e ts a r → Mv X Y (SignalItem e) ts a r
  | .mk h ha => fun _ hs => let ⟨_, q, g⟩ := ex_es ha _ hs; ⟨_, .cons (.cons q), .mk h g⟩

theorem signal_es {ts r : List Tk} {a : Ast} : Signal e ts a r → Mv X Y (Signal e) ts a r
  | .mk (s := s) (s' := s') (l := l) h h' hv ha hl => fun _ hs => by
    obtain ⟨_, q2, g2⟩ := optKwx_es hl (commaL_es signalItem_es) _ hs
    obtain ⟨_, q1, g1⟩ := ex_es ha _ q2
    obtain ⟨_, q, g⟩ := optK_es hv _ q1
    refine ⟨_, .cons (.cons q), ?_⟩
    have := Signal.mk (s := s) (s' := s') h h' g g1 g2
    rcases l with _ | ⟨_, _⟩ <;> exact this

theorem ret_es {ts r : List Tk} {a : Ast} : Ret e ts a r → Mv X Y (Ret e) ts a r
  | .mk h ha => fun _ hs => let ⟨_, q, g⟩ := ex_es ha _ hs; ⟨_, .cons q, .mk h g⟩

theorem copyCols_es {ts r : List Tk} {l : List Ast} : CopyCols e ts l r → Mv X Y (CopyCols e) ts l r
  | .nil => fun _ hs => ⟨_, .cons (.cons hs), .nil⟩
  | .some h => fun _ hs => let ⟨_, q, g⟩ := paren_es idn_es h _ hs; ⟨_, q, .some g⟩

theorem copyS_es {ts r : List Tk} {a : Ast} : CopyS e ts a r → Mv X Y (CopyS e) ts a r
  | .mk h hn hl hf hst => fun _ hs =>
    let ⟨_, q1, g1⟩ := copyCols_es hl _ (.cons (.cons hs)); let ⟨_, q, g⟩ := idn_es hn _ q1; ⟨_, .cons q, .mk h g g1 hf hst⟩

theorem idxCol_es {ts r : List Tk} {a : Ast} : IdxCol e ts a r → Mv X Y (IdxCol e) ts a r
  | .plain h hr => fun _ hs => let ⟨_, q, g⟩ := idn_es h _ hs; ⟨_, q, .plain g (nx hr hs)⟩
  | .size h hn => fun _ hs => let ⟨_, q1, g1⟩ := num_es hn _ (.cons hs); let ⟨_, q, g⟩ := idn_es h _ (.cons q1); ⟨_, q, .size g g1⟩

theorem idxType_es {ts r : List Tk} {a : Ast} : IdxType ts a r → Mv X Y IdxType ts a r
  | .mk h h' => fun _ hs => ⟨_, .cons (.cons hs), .mk h h'⟩

theorem idxOpts_es {ts r : List Tk} {l : List Ast} : IdxOpts ts l r → Mv X Y IdxOpts ts l r
  | .nil h => fun _ hs => ⟨_, hs, .nil (nx h hs)⟩
  | .using h hr => fun _ hs => let ⟨_, q1, g1⟩ := idxOpts_es hr _ hs; let ⟨_, q, g⟩ := idxType_es h _ q1; ⟨_, q, .using g g1⟩
  | .comment h ha hr => fun _ hs => let ⟨_, q1, g1⟩ := idxOpts_es hr _ hs; let ⟨_, q, g⟩ := str_es ha _ q1; ⟨_, .cons q, .comment h g g1⟩

theorem optName_es {ts r : List Tk} {a : Option Ast} : OptName e ts a r → Mv X Y (OptName e) ts a r
  | .none h => fun _ hs => ⟨_, hs, .none (nx h hs)⟩
  | .some h => fun _ hs => by
    obtain ⟨_, q, g⟩ := idn_es h _ hs
    obtain ⟨_, rfl, _⟩ := es_ident q
    exact ⟨_, q, .some g⟩

theorem fkType_es {on : Span} {ts r : List Tk} {a : Ast} : FkType on ts a r → Mv X Y (FkType on) ts a r
  | .update h => fun _ hs => ⟨_, .cons hs, .update h⟩
  | .delete h => fun _ hs => ⟨_, .cons hs, .delete h⟩

theorem fkAction_es {ts r : List Tk} {a : Ast} : FkAction ts a r → Mv X Y FkAction ts a r
  | .restrict h => fun _ hs => let ⟨_, q, g⟩ := kws_es h _ hs; ⟨_, q, .restrict g⟩
  | .cascade h => fun _ hs => let ⟨_, q, g⟩ := kws_es h _ hs; ⟨_, q, .cascade g⟩
  | .setNull h => fun _ hs => let ⟨_, q, g⟩ := kws_es h _ hs; ⟨_, q, .setNull g⟩
  | .noAction h => fun _ hs => let ⟨_, q, g⟩ := kws_es h _ hs; ⟨_, q, .noAction g⟩

theorem fkOns_es {ts r : List Tk} {l : List Ast} : FkOns ts l r → Mv X Y FkOns ts l r
  | .nil h => fun _ hs => ⟨_, hs, .nil (nx h hs)⟩
  | .cons h hy ha hr => fun _ hs =>
    let ⟨_, q2, g2⟩ := fkOns_es hr _ hs; let ⟨_, q1, g1⟩ := fkAction_es ha _ q2; let ⟨_, q, g⟩ := fkType_es hy _ q1; ⟨_, .cons q, .cons h g g1 g2⟩

theorem addIdxType_es {ts r : List Tk} {a : Ast} : AddIdxType ts a r → Mv X Y AddIdxType ts a r
  | .primary h => fun _ hs => let ⟨_, q, g⟩ := kws_es h _ hs; ⟨_, q, .primary g⟩
  | .index h => fun _ hs => let ⟨_, q, g⟩ := kws_es h _ hs; ⟨_, q, .index g⟩
  | .key h => fun _ hs => let ⟨_, q, g⟩ := kws_es h _ hs; ⟨_, q, .key g⟩
  | .special hk hk' h => fun _ hs => let ⟨_, q, g⟩ := kws_es h _ hs; ⟨_, q, .special hk hk' g⟩

theorem constr_es {ts r : List Tk} {a : Option (Span × Option Ast)} (h : Constr e ts a r) : Mv X Y (Constr e) ts a r := optKwx_es h optName_es

theorem optAt_es {α : Type} {k : Keyword} {R : List Tk → α → List Tk → Prop} (hR : ∀ {ts a r}, R ts a r → Mv X Y R ts a r) {ts r : List Tk} {a : Option α} :
    OptAt k R ts a r → Mv X Y (OptAt k R) ts a r
  | .none h => fun _ hs => ⟨_, hs, .none (nx h hs)⟩
  | .some hn h => fun _ hs => let ⟨_, q, g⟩ := hR h _ hs; ⟨_, q, .some (nx hn q) g⟩

theorem colAction_es {ts r : List Tk} {a : Ast} : ColAction e ts a r → Mv X Y (ColAction e) ts a r
  | .setDefault h ha => fun _ hs => let ⟨_, q1, g1⟩ := ex_es ha _ hs; let ⟨_, q, g⟩ := kws_es h _ q1; ⟨_, q, .setDefault g g1⟩
  | .setNotNull h => fun _ hs => let ⟨_, q, g⟩ := kws_es h _ hs; ⟨_, q, .setNotNull g⟩
  | .dropDefault h => fun _ hs => let ⟨_, q, g⟩ := kws_es h _ hs; ⟨_, q, .dropDefault g⟩
  | .dropNotNull h => fun _ hs => let ⟨_, q, g⟩ := kws_es h _ hs; ⟨_, q, .dropNotNull g⟩
  | .type h hd => fun _ hs => let ⟨_, q, g⟩ := dt_es hd _ hs; ⟨_, .cons q, .type h g⟩

theorem altSpec_es {ts r : List Tk} {a : Ast} : AltSpec e ts a r → Mv X Y (AltSpec e) ts a r
  | .addForeignKey h hc hk hi hn hl h' ht hrc ho => fun _ hs =>
    let ⟨_, q7, g7⟩ := fkOns_es ho _ hs
    let ⟨_, q6, g6⟩ := paren_es idn_es hrc _ q7
    let ⟨_, q5, g5⟩ := idn_es ht _ q6
    let ⟨_, q4, g4⟩ := paren_es idxCol_es hl _ (.cons q5)
    let ⟨_, q3, g3⟩ := optName_es hn _ q4
    let ⟨_, q2, g2⟩ := optKws_es hi _ q3
    let ⟨_, q1, g1⟩ := kws_es hk _ q2
    let ⟨_, q, g⟩ := constr_es hc _ q1
    ⟨_, .cons q, .addForeignKey h g g1 g2 g3 g4 h' g5 g6 g7⟩
  | .addIndex h hc hy hi hn h1 hl h2 => fun _ hs =>
    let ⟨_, q6, g6⟩ := idxOpts_es h2 _ hs
    let ⟨_, q5, g5⟩ := paren_es idxCol_es hl _ q6
    let ⟨_, q4, g4⟩ := optAt_es idxType_es h1 _ q5
    let ⟨_, q3, g3⟩ := optName_es hn _ q4
    let ⟨_, q2, g2⟩ := optKws_es hi _ q3
    let ⟨_, q1, g1⟩ := addIdxType_es hy _ q2
    let ⟨_, q, g⟩ := constr_es hc _ q1
    ⟨_, .cons q, .addIndex h g g1 g2 g3 g4 g5 g6⟩
  | .addColumn h hc h' hi hm hn hd => fun _ hs =>
    let ⟨_, q3, g3⟩ := dt_es hd _ hs
    let ⟨_, q2, g2⟩ := idn_es hn _ q3
    let ⟨_, q1, g1⟩ := optKws_es hi _ q2
    let ⟨_, q, g⟩ := constr_es hc _ (.cons q1)
    ⟨_, .cons q, .addColumn h g h' g1 hm g2 g3⟩
  | .modify h he hi hd => fun _ hs => by
    obtain ⟨_, q3, g3⟩ := dt_es hd _ hs
    obtain ⟨_, q2, g2⟩ := idn_es hi _ q3
    obtain ⟨_, q1, g1⟩ := optKws_es he _ q2
    rcases h with ⟨h, hn⟩ | h
    · obtain ⟨_, q, g⟩ := kws_es h _ q1
      exact ⟨_, q, .modify (.inl ⟨g, nx hn q1⟩) g1 g2 g3⟩
    · obtain ⟨_, q, g⟩ := kws_es h _ q1
      exact ⟨_, q, .modify (.inr g) g1 g2 g3⟩
  | .ownerTo h hi => fun _ hs => let ⟨_, q1, g1⟩ := idn_es hi _ hs; let ⟨_, q, g⟩ := kws_es h _ q1; ⟨_, q, .ownerTo g g1⟩
  | .dropColumn h hi hc => fun _ hs =>
    let ⟨_, q2, g2⟩ := optK_es hc _ hs; let ⟨_, q1, g1⟩ := idn_es hi _ q2; let ⟨_, q, g⟩ := kws_es h _ q1; ⟨_, q, .dropColumn g g1 g2⟩
  | .alterColumn h hi ha => fun _ hs =>
    let ⟨_, q2, g2⟩ := colAction_es ha _ hs; let ⟨_, q1, g1⟩ := idn_es hi _ q2; let ⟨_, q, g⟩ := kws_es h _ q1; ⟨_, q, .alterColumn g g1 g2⟩

/-- The end of a statement stays one. -/
theorem nx_delim (he : e.delim = .semiColon) {r r' : List Tk} (h : Next (fun t => t = e.delim ∨ t = .eof) r) (hs : ES X Y r r') :
    Next (fun t => t = e.delim ∨ t = .eof) r' := by
  refine nx h hs ?_
  intro x y h _
  rw [he]
  cases h
  · exact .inl rfl
  · exact .inr rfl

theorem alt_es (hd : e.delim = .semiColon) {ts r : List Tk} {a : Ast} : Alt e ts a r → Mv X Y (Alt e) ts a r
  | .mk h ho hi h' he hq hl hr => fun _ hs =>
    let ⟨_, q4, g4⟩ := commaL_es altSpec_es hl _ hs
    let ⟨_, q3, g3⟩ := qname_es hq _ q4
    let ⟨_, q2, g2⟩ := optKws_es he _ q3
    let ⟨_, q1, g1⟩ := optK_es hi _ (.cons q2)
    let ⟨_, q, g⟩ := optK_es ho _ q1
    ⟨_, .cons q, .mk h g g1 h' g2 g3 g4 (nx_delim hd hr hs)⟩

theorem onDelete_es {ts r r' : List Tk} : OnDelete ts r → ES X Y r r' → ∃ ts', ES X Y ts ts' ∧ OnDelete ts' r'
  | .none h, hs => ⟨_, hs, .none (nx h hs)⟩
  | .plain hk h, hs => let ⟨_, q, g⟩ := kws_es h _ hs; ⟨_, q, .plain hk g⟩
  | .setNull h, hs => let ⟨_, q, g⟩ := kws_es h _ hs; ⟨_, q, .setNull g⟩

theorem defn_es {ts r : List Tk} {a : Ast} : Defn e ts a r → Mv X Y (Defn e) ts a r
  | .column h hd => fun _ hs => by
    obtain ⟨_, q1, g1⟩ := dt_es hd _ hs
    obtain ⟨_, q, g⟩ := idn_es h _ q1
    obtain ⟨_, rfl, _⟩ := es_ident q
    exact ⟨_, q, .column g g1⟩
  | .constraint h hi hk hl h' ht hc ho => fun _ hs =>
    let ⟨_, q5, g5⟩ := onDelete_es ho hs
    let ⟨_, q4, g4⟩ := paren_es idn_es hc _ q5
    let ⟨_, q3, g3⟩ := idn_es ht _ q4
    let ⟨_, q2, g2⟩ := paren_es idn_es hl _ (.cons q3)
    let ⟨_, q1, g1⟩ := kws_es hk _ q2
    let ⟨_, q, g⟩ := idn_es hi _ q1
    ⟨_, .cons q, .constraint h g g1 g2 h' g3 g4 g5⟩

theorem defns_es {ts r : List Tk} {l : List Ast} : Defns e ts l r → Mv X Y (Defns e) ts l r
  | .nil => fun _ hs => ⟨_, .cons (.cons hs), .nil⟩
  | .some h => fun _ hs => let ⟨_, q, g⟩ := paren_es defn_es h _ hs; ⟨_, q, .some g⟩

theorem optVal_es {R : List Tk → Ast → List Tk → Prop} (hR : ∀ {ts a r}, R ts a r → Mv X Y R ts a r) {k : Keyword} {ts r : List Tk}
    {a : Span × Ast} : OptVal R k ts a r → Mv X Y (OptVal R k) ts a r
  | .eq h ha => fun _ hs => let ⟨_, q, g⟩ := hR ha _ hs; ⟨_, .cons (.cons q), .eq h g⟩
  | .plain h hn ha => fun _ hs => let ⟨_, q, g⟩ := hR ha _ hs; ⟨_, .cons q, .plain h (nx hn q) g⟩

theorem tblOpt_es {ts r : List Tk} {a : Ast} : TblOpt e ts a r → Mv X Y (TblOpt e) ts a r
  | .engine h => fun _ hs => let ⟨_, q, g⟩ := optVal_es idn_es h _ hs; ⟨_, q, .engine g⟩
  | .charset h => fun _ hs => let ⟨_, q, g⟩ := optVal_es idn_es h _ hs; ⟨_, q, .charset g⟩
  | .collate h => fun _ hs => let ⟨_, q, g⟩ := optVal_es idn_es h _ hs; ⟨_, q, .collate g⟩
  | .rowFormat h => fun _ hs => let ⟨_, q, g⟩ := optVal_es idn_es h _ hs; ⟨_, q, .rowFormat g⟩
  | .comment h => fun _ hs => let ⟨_, q, g⟩ := optVal_es str_es h _ hs; ⟨_, q, .comment g⟩
  | .strict h => fun _ hs => ⟨_, .cons hs, .strict h⟩
  | .defaultCharset h hx => fun _ hs => let ⟨_, q, g⟩ := optVal_es idn_es hx _ hs; ⟨_, .cons q, .defaultCharset h g⟩
  | .defaultCollate h hx => fun _ hs => let ⟨_, q, g⟩ := optVal_es idn_es hx _ hs; ⟨_, .cons q, .defaultCollate h g⟩

theorem tblOpts_es (hd : e.delim = .semiColon) {ts r : List Tk} {l : List Ast} : TblOpts e ts l r → Mv X Y (TblOpts e) ts l r
  | .nil h hn => fun _ hs => ⟨_, hs, .nil (nx_delim hd h hs) (nx hn hs)⟩
  | .cons h hr => fun _ hs => let ⟨_, q1, g1⟩ := tblOpts_es hd hr _ hs; let ⟨_, q, g⟩ := tblOpt_es h _ q1; ⟨_, q, .cons g g1⟩

theorem crOpts_es {ts r : List Tk} {l : List Ast} : CrOpts e ts l r → Mv X Y (CrOpts e) ts l r
  | .nil h => fun _ hs => ⟨_, hs, .nil (nx h hs)⟩
  | .orReplace h hr => fun _ hs => let ⟨_, q1, g1⟩ := crOpts_es hr _ hs; let ⟨_, q, g⟩ := kws_es h _ q1; ⟨_, q, .orReplace g g1⟩
  | .temporary h hr => fun _ hs => let ⟨_, q1, g1⟩ := crOpts_es hr _ hs; let ⟨_, q, g⟩ := kws_es h _ q1; ⟨_, q, .temporary g g1⟩
  | .unique h hr => fun _ hs => let ⟨_, q1, g1⟩ := crOpts_es hr _ hs; let ⟨_, q, g⟩ := kws_es h _ q1; ⟨_, q, .unique g g1⟩
  | .algorithm h h' hr => fun _ hs => let ⟨_, q1, g1⟩ := crOpts_es hr _ hs; ⟨_, .cons (.cons (.cons q1)), .algorithm h h' g1⟩
  | .definer h hu ho hr => fun _ hs =>
    let ⟨_, q2, g2⟩ := crOpts_es hr _ hs; let ⟨_, q1, g1⟩ := idn_es ho _ q2; let ⟨_, q, g⟩ := idn_es hu _ (.cons q1)
    ⟨_, .cons (.cons q), .definer h g g1 g2⟩
  | .securityDefiner h ht hr => fun _ hs => let ⟨_, q1, g1⟩ := crOpts_es hr _ hs; let ⟨_, q, g⟩ := kws_es h _ (.cons q1); ⟨_, q, .securityDefiner g ht g1⟩
  | .securityUser h ht hr => fun _ hs => let ⟨_, q1, g1⟩ := crOpts_es hr _ hs; let ⟨_, q, g⟩ := kws_es h _ (.cons q1); ⟨_, q, .securityUser g ht g1⟩

theorem crIdxCol_es {ts r : List Tk} {a : Ast} : CrIdxCol e ts a r → Mv X Y (CrIdxCol e) ts a r
  | .plain h hr => fun _ hs => let ⟨_, q, g⟩ := idn_es h _ hs; ⟨_, q, .plain g (nx hr hs)⟩
  | .op h hk ht hd => fun _ hs => let ⟨_, q, g⟩ := idn_es h _ (.cons hs); ⟨_, q, .op g hk ht hd⟩

theorem direction_es {ts r : List Tk} {a : Option Ast} : Direction ts a r → Mv X Y Direction ts a r
  | .none h => fun _ hs => ⟨_, hs, .none (nx h hs)⟩
  | .inOut h => fun _ hs => let ⟨_, q, g⟩ := kws_es h _ hs; ⟨_, q, .inOut g⟩
  | .in_ h hr => fun _ hs => let ⟨_, q, g⟩ := kws_es h _ hs; ⟨_, q, .in_ g (nx hr hs)⟩
  | .out h => fun _ hs => let ⟨_, q, g⟩ := kws_es h _ hs; ⟨_, q, .out g⟩
  | .inout h => fun _ hs => let ⟨_, q, g⟩ := kws_es h _ hs; ⟨_, q, .inout g⟩

theorem param_es {ts r : List Tk} {a : Option Ast × Ast × Ast} : Param e ts a r → Mv X Y (Param e) ts a r
  | .mk hd hi ht => fun _ hs => let ⟨_, q2, g2⟩ := dt_es ht _ hs; let ⟨_, q1, g1⟩ := idn_es hi _ q2; let ⟨_, q, g⟩ := direction_es hd _ q1; ⟨_, q, .mk g g1 g2⟩

theorem toDollars_es {ts r r' : List Tk} : ToDollars e ts r → ES X Y r r' → ∃ ts', ES X Y ts ts' ∧ ToDollars e ts' r'
  | .here hd, hs => ⟨_, .cons hs, .here hd⟩
  | .next h1 h2 hm hd h, hs => let ⟨_, q, g⟩ := toDollars_es h hs; ⟨_, .cons q, .next h1 h2 hm hd g⟩

theorem fnBody_es {ts r r' : List Tk} : FnBody e ts r → ES X Y r r' → ∃ ts', ES X Y ts ts' ∧ FnBody e ts' r'
  | .none h, hs => ⟨_, hs, .none fun hd => nx (h hd) hs⟩
  | .text hd h hn hr, hs => let ⟨_, q, g⟩ := toDollars_es hr hs; ⟨_, .cons (.cons q), .text hd h hn g⟩

theorem chars_es {ts r : List Tk} {l : List Ast} : Chars ts l r → Mv X Y Chars ts l r
  | .nil h => fun _ hs => ⟨_, hs, .nil (nx h hs)⟩
  | .plain hk h hr => fun _ hs => let ⟨_, q1, g1⟩ := chars_es hr _ hs; let ⟨_, q, g⟩ := kws_es h _ q1; ⟨_, q, .plain hk g g1⟩
  | .comment h ha hr => fun _ hs => let ⟨_, q1, g1⟩ := chars_es hr _ hs; let ⟨_, q, g⟩ := str_es ha _ q1; ⟨_, .cons q, .comment h g g1⟩

theorem optKwIf_es {ts r : List Tk} {a : Option Span}
    (h : OptKw .IF (fun i ts a r => ∃ s, Kws [.NOT, .EXISTS] ts s r ∧ a = (⟨i.start, s.stop⟩ : Span)) ts a r) :
    Mv X Y (OptKw .IF (fun i ts a r => ∃ s, Kws [.NOT, .EXISTS] ts s r ∧ a = (⟨i.start, s.stop⟩ : Span))) ts a r := by
  refine optKw_es (fun {sp ts a r} h => ?_) h
  obtain ⟨b, h1, h2⟩ := h
  intro _ hs
  obtain ⟨_, q, g⟩ := kws_es h1 _ hs
  exact ⟨_, q, b, g, h2⟩

theorem crWhat_es (hdl : e.delim = .semiColon) {c : Span} {os : List Ast} {ts r : List Tk} {a : Ast} : CrWhat e c os ts a r → Mv X Y (CrWhat e c os) ts a r
  | .table h hi hq hd ho => fun _ hs =>
    let ⟨_, q3, g3⟩ := tblOpts_es hdl ho _ hs
    let ⟨_, q2, g2⟩ := defns_es hd _ q3
    let ⟨_, q1, g1⟩ := qname_es hq _ q2
    let ⟨_, q, g⟩ := optKwIf_es hi _ q1
    ⟨_, .cons q, .table h g g1 g2 g3⟩
  | .view h hi hq h' hx => fun _ hs =>
    let ⟨_, q2, g2⟩ := comp_es hx _ hs
    let ⟨_, q1, g1⟩ := qname_es hq _ (.cons q2)
    let ⟨_, q, g⟩ := optKws_es hi _ q1
    ⟨_, .cons q, .view h g g1 h' g2⟩
  | .index h hi hn h' hq hg hc hw hm => fun _ hs =>
    let ⟨_, q5, g5⟩ := optKwx_es hw ex_es _ hs
    let ⟨_, q4, g4⟩ := commaL_es crIdxCol_es hc _ (.cons q5)
    let ⟨_, q3, g3⟩ := optKws_es hg _ (.cons q4)
    let ⟨_, q2, g2⟩ := qname_es hq _ q3
    let ⟨_, q1, g1⟩ := idn_es hn _ (.cons q2)
    let ⟨_, q, g⟩ := optKws_es hi _ q1
    ⟨_, .cons q, .index h g g1 h' g2 g3 g4 g5 hm⟩
  | .type hd h hn ha hl => fun _ hs =>
    let ⟨_, q2, g2⟩ := paren_es str_es hl _ hs
    let ⟨_, q1, g1⟩ := kws_es ha _ q2
    let ⟨_, q, g⟩ := idn_es hn _ q1
    ⟨_, .cons q, .type hd h g g1 g2⟩

theorem handlers_es {ts r r' : List Tk} : Handlers e ts r → ES X Y r r' → ∃ ts', ES X Y ts ts' ∧ Handlers e ts' r'
  | .nil h, hs => ⟨_, hs, .nil (nx h hs)⟩
  | .cons h hi h' ha hd hr, hs =>
    let ⟨_, q2, g2⟩ := handlers_es hr hs; let ⟨_, q1, g1⟩ := ex_es ha _ (.cons q2); let ⟨_, q, g⟩ := idn_es hi _ (.cons q1)
    ⟨_, .cons q, .cons h g h' g1 hd g2⟩

theorem exception_es {ts r r' : List Tk} : Exception e ts r → ES X Y r r' → ∃ ts', ES X Y ts ts' ∧ Exception e ts' r'
  | .none h, hs => ⟨_, hs, .none (nx h hs)⟩
  | .some h hr, hs => let ⟨_, q, g⟩ := handlers_es hr hs; ⟨_, .cons q, .some h g⟩

/-! ### Lists of statements are inside of statements: they do not end at the end of the source -/

theorem kw_ne_eof {t : Token} {k : Keyword} (h : t.isKw k = true) : t ≠ .eof := by rintro rfl; cases h

theorem kws_ne_eof {ks : List Keyword} {ts r : List Tk} {a : Span} : Kws ks ts a r → Next (· ≠ .eof) ts
  | .one h => kw_ne_eof h
  | .cons h _ => kw_ne_eof h

theorem exception_ne_eof {t : Token} {s : Span} {ts r : List Tk} (ht : Next (· ≠ .eof) ((t, s) :: r)) (h : Exception e ts ((t, s) :: r)) : Next (· ≠ .eof) ts := by
  cases h with
  | none _ => exact ht
  | some h _ => exact kw_ne_eof h

theorem elseS_ne_eof {ts r : List Tk} {o : Option (Span × List SAst)} (hr : Next (· ≠ .eof) r) : ElseS e ts o r → Next (· ≠ .eof) ts
  | .none _ => hr
  | .some h _ => kw_ne_eof h

theorem cases_ne_eof {ts r : List Tk} {l : List SAst} : CaseBranches e ts l r → Next (· ≠ .eof) ts
  | .one h _ _ _ _ => kw_ne_eof h
  | .cons h _ _ _ _ => kw_ne_eof h

/-- The same as `Mv`, for phrases after which the source does not end. -/
def Mvi (X Y : List Tk) {α : Type} (R : List Tk → α → List Tk → Prop) (ts : List Tk) (a : α) (r : List Tk) : Prop :=
  Next (· ≠ .eof) r → Mv X Y R ts a r

mutual
theorem stm_es {e : Env} (hd : e.delim = .semiColon) {ts r : List Tk} {v : SAst} : Stm e ts v r → Mv X Y (Stm e) ts v r
  | .query h => fun _ hs => let ⟨_, q, g⟩ := comp_es h _ hs; ⟨_, q, .query g⟩
  | .delete h => fun _ hs => let ⟨_, q, g⟩ := del_es h _ hs; ⟨_, q, .delete g⟩
  | .update h => fun _ hs => let ⟨_, q, g⟩ := upd_es h _ hs; ⟨_, q, .update g⟩
  | .insert h => fun _ hs => let ⟨_, q, g⟩ := ins_es h _ hs; ⟨_, q, .insert g⟩
  | .rename h => fun _ hs => let ⟨_, q, g⟩ := ren_es h _ hs; ⟨_, q, .rename g⟩
  | .truncate h => fun _ hs => let ⟨_, q, g⟩ := trunc_es h _ hs; ⟨_, q, .truncate g⟩
  | .drop h => fun _ hs => let ⟨_, q, g⟩ := drop_es h _ hs; ⟨_, q, .drop g⟩
  | .set h => fun _ hs => let ⟨_, q, g⟩ := setS_es h _ hs; ⟨_, q, .set g⟩
  | .signal h => fun _ hs => let ⟨_, q, g⟩ := signal_es h _ hs; ⟨_, q, .signal g⟩
  | .ret h => fun _ hs => let ⟨_, q, g⟩ := ret_es h _ hs; ⟨_, q, .ret g⟩
  | .copy h => fun _ hs => let ⟨_, q, g⟩ := copyS_es h _ hs; ⟨_, q, .copy g⟩
  | .alter h => fun _ hs => let ⟨_, q, g⟩ := alt_es hd h _ hs; ⟨_, q, .alter g⟩
  | .create h ho hw => fun _ hs => let ⟨_, q1, g1⟩ := crWhat_es hd hw _ hs; let ⟨_, q, g⟩ := crOpts_es ho _ q1; ⟨_, .cons q, .create h g g1⟩
  | .start h => fun _ hs => let ⟨_, q, g⟩ := kws_es h _ hs; ⟨_, q, .start g⟩
  | .commit h => fun _ hs => let ⟨_, q, g⟩ := kws_es h _ hs; ⟨_, q, .commit g⟩
  | .begin hp h => fun _ hs => let ⟨_, q, g⟩ := kws_es h _ hs; ⟨_, q, .begin hp g⟩
  | .end hp h => fun _ hs => let ⟨_, q, g⟩ := kws_es h _ hs; ⟨_, q, .end hp g⟩
  | .block hp h => fun _ hs => let ⟨_, q, g⟩ := block_es hd h _ hs; ⟨_, q, .block hp g⟩
  | .doBlock h hn hb hn' => fun _ hs => let ⟨_, q, g⟩ := block_es hd hb _ (.cons hs); ⟨_, .cons (.cons q), .doBlock h hn g hn'⟩
  | .ifThen h hc he hf => fun _ hs =>
    let n2 := kws_ne_eof hf
    let ⟨_, q2, g2⟩ := kws_es hf _ hs
    let ⟨_, q1, g1⟩ := else_es hd he n2 _ q2
    let ⟨_, q, g⟩ := branches_es hd hc (elseS_ne_eof n2 he) _ q1
    ⟨_, .cons q, .ifThen h g g1 g2⟩
  | .caseWhen h hw he h' => fun _ hs =>
    let ⟨_, q1, g1⟩ := else_es hd he (kw_ne_eof h') _ (.cons hs)
    let ⟨_, q, g⟩ := cases_es hd hw (elseS_ne_eof (r := _ :: _) (kw_ne_eof h') he) _ q1
    ⟨_, .cons q, .caseWhen h g g1 h'⟩
  | .caseOf h hn hv hw he h' => fun _ hs =>
    let ⟨_, q1, g1⟩ := else_es hd he (kw_ne_eof h') _ (.cons hs)
    let ⟨_, q2, g2⟩ := cases_es hd hw (elseS_ne_eof (r := _ :: _) (kw_ne_eof h') he) _ q1
    let ⟨_, q, g⟩ := ex_es hv _ q2
    ⟨_, .cons q, .caseOf h (nx hn q) g g2 g1 h'⟩
  | .withQuery hp h hb hv hk => fun _ hs =>
    let ⟨_, q1, g1⟩ := stm_es hd hv _ hs; let ⟨_, q, g⟩ := withs_es hd hb _ q1; ⟨_, .cons q, .withQuery hp h g g1 hk⟩
  | .trigger h ho h1 hi hn h2 h3 h4 ht hf hv => fun _ hs =>
    let ⟨_, q5, g5⟩ := stm_es (e := { e with permit := true }) hd hv _ hs
    let ⟨_, q4, g4⟩ := kws_es hf _ q5
    let ⟨_, q3, g3⟩ := idn_es ht _ q4
    let ⟨_, q2, g2⟩ := idn_es hn _ (.cons (.cons (.cons q3)))
    let ⟨_, q1, g1⟩ := optKws_es hi _ q2
    let ⟨_, q, g⟩ := crOpts_es ho _ (.cons q1)
    ⟨_, .cons q, .trigger h g h1 g1 g2 h2 h3 h4 g3 g4 g5⟩
  | .function h ho h1 hi hn hp h2 hr hb hc hf => fun _ hs =>
    let ⟨_, q7, g7⟩ := fn_es hd hf _ hs
    let ⟨_, q6, g6⟩ := chars_es hc _ q7
    let ⟨_, q5, g5⟩ := fnBody_es hb q6
    let ⟨_, q4, g4⟩ := dt_es hr _ q5
    let ⟨_, q3, g3⟩ := commaL_es param_es hp _ (.cons (.cons q4))
    let ⟨_, q2, g2⟩ := idn_es hn _ (.cons q3)
    let ⟨_, q1, g1⟩ := optKws_es hi _ q2
    let ⟨_, q, g⟩ := crOpts_es ho _ (.cons q1)
    ⟨_, .cons q, .function h g h1 g1 g2 g3 h2 g4 g5 g6 g7⟩

theorem fn_es {e : Env} (hd : e.delim = .semiColon) {ts r : List Tk} {b : Option SAst} : FnStmt e ts b r → Mv X Y (FnStmt e) ts b r
  | .none hm => fun _ hs => ⟨_, hs, .none hm⟩
  | .some hm h => fun _ hs => let ⟨_, q, g⟩ := stm_es hd h _ hs; ⟨_, q, .some hm g⟩

theorem stms_es {e : Env} {ts r : List Tk} {l : List SAst} : Stms e ts l r → Mvi X Y (Stms e) ts l r
  | .semi hd h => fun hn _ hs => let ⟨_, q, g⟩ := stms_es h hn _ hs; ⟨_, .cons q, .semi hd g⟩
  | .nil h => fun hn _ hs => ⟨_, hs, .nil (nx0 h hs hn (fun h => h.2 rfl))⟩
  | .last h hr => fun hn _ hs => let ⟨_, q, g⟩ := stm_es rfl h _ hs; ⟨_, q, .last g (nx0 hr hs hn (fun h => h rfl))⟩
  | .cons h hc hd hl => fun hn _ hs => let ⟨_, q1, g1⟩ := stms_es hl hn _ hs; let ⟨_, q, g⟩ := stm_es rfl h _ (.cons q1); ⟨_, q, .cons g hc hd g1⟩
  | .copy h hc hd hl => fun hn _ hs => let ⟨_, q1, g1⟩ := stms_es hl hn _ hs; let ⟨_, q, g⟩ := stm_es rfl h _ (.cons q1); ⟨_, q, .copy g hc hd g1⟩

theorem block_es {e : Env} (_ : e.delim = .semiColon) {ts r : List Tk} {l : List SAst} : Block e ts l r → Mv X Y (Block e) ts l r
  | .mk h hl hx h' => fun _ hs =>
    let ⟨_, q1, g1⟩ := exception_es hx (.cons hs); let ⟨_, q, g⟩ := stms_es hl (exception_ne_eof (kw_ne_eof h') hx) _ q1; ⟨_, .cons q, .mk h g g1 h'⟩

theorem branches_es {e : Env} (hd : e.delim = .semiColon) {o : Option Span} {ts r : List Tk} {l : List SAst} : Branches e o ts l r → Mvi X Y (Branches e o) ts l r
  | .one hc h hl hr => fun hn _ hs => let ⟨_, q1, g1⟩ := stms_es hl hn _ hs; let ⟨_, q, g⟩ := ex_es hc _ (.cons q1); ⟨_, q, .one g h g1 (nx hr hs)⟩
  | .cons hc h hl h' hr => fun hn _ hs =>
    let ⟨_, q2, g2⟩ := branches_es hd hr hn _ hs
    let ⟨_, q1, g1⟩ := stms_es hl (kw_ne_eof h') _ (.cons q2)
    let ⟨_, q, g⟩ := ex_es hc _ (.cons q1)
    ⟨_, q, .cons g h g1 h' g2⟩

theorem cases_es {e : Env} (hd : e.delim = .semiColon) {ts r : List Tk} {l : List SAst} : CaseBranches e ts l r → Mvi X Y (CaseBranches e) ts l r
  | .one h hc h' hl hr => fun hn _ hs =>
    let ⟨_, q1, g1⟩ := stms_es hl hn _ hs; let ⟨_, q, g⟩ := ex_es hc _ (.cons q1); ⟨_, .cons q, .one h g h' g1 (nx hr hs)⟩
  | .cons h hc h' hl hr => fun hn _ hs =>
    let ⟨_, q2, g2⟩ := cases_es hd hr hn _ hs
    let ⟨_, q1, g1⟩ := stms_es hl (cases_ne_eof hr) _ q2
    let ⟨_, q, g⟩ := ex_es hc _ (.cons q1)
    ⟨_, .cons q, .cons h g h' g1 g2⟩

theorem else_es {e : Env} (_ : e.delim = .semiColon) {ts r : List Tk} {o : Option (Span × List SAst)} : ElseS e ts o r → Mvi X Y (ElseS e) ts o r
  | .none h => fun _ _ hs => ⟨_, hs, .none (nx h hs)⟩
  | .some h hl => fun hn _ hs => let ⟨_, q, g⟩ := stms_es hl hn _ hs; ⟨_, .cons q, .some h g⟩

theorem withs_es {e : Env} (hd : e.delim = .semiColon) {ts r : List Tk} {l : List SAst} : WithBlocks e ts l r → Mv X Y (WithBlocks e) ts l r
  | .one hi h hv hk hr => fun _ hs =>
    let ⟨_, q1, g1⟩ := stm_es hd hv _ (.cons hs); let ⟨_, q, g⟩ := idn_es hi _ (.cons (.cons q1)); ⟨_, q, .one g h g1 hk (nx hr hs)⟩
  | .cons hi h hv hk hl => fun _ hs =>
    let ⟨_, q2, g2⟩ := withs_es hd hl _ hs; let ⟨_, q1, g1⟩ := stm_es hd hv _ (.cons (.cons q2)); let ⟨_, q, g⟩ := idn_es hi _ (.cons (.cons q1))
    ⟨_, q, .cons g h g1 hk g2⟩
end

end SqlParse
