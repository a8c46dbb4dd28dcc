#!/usr/bin/env python3
"""Generate lean/Verif/Proofs/OptAll.lean: one instance of `DA` per parser function of the model."""
import re
fs=['Verif/Parser.lean']+['Verif/Model/%s.lean'%x for x in 'Expression DataType Select Dml Alter Create Statement'.split()]+['Verif/Api.lean']
SPECIAL={'dialect','isPg','isMaria','isSqlite','runApi','Prog.run'}
REC={'withCheck':'instance withCheck_da (m : String) (v : SAst) : DA E (withCheck m v) := by unfold withCheck; da',
 'body':'''instance body_da {α : Type} (f : Fn α) : DA E (body f) := by cases f <;> (unfold body; da)''',
 'ident':"""instance ident_da : DA E (ident) := by
  constructor
  unfold ident
  refine .bind (DA.h (p := cur)) fun x => ?_
  obtain ⟨t, sp⟩ := x
  dsimp only
  split
  · refine D2.isPg (fun b => DA.h) fun hd => ⟨.bind ?_ fun _ => DA.h, .bind ?_ fun _ => DA.h⟩
    all_goals split
    all_goals first | exact DA.h | skip
    all_goals split
    all_goals first | exact DA.h | exact .when hd (says_err (by decide)) inferInstance
  · refine D2.isPg (fun b => DA.h) fun hd => ⟨?_, ?_⟩
    · exact errs_expectedFailure.right hd
    · exact errs_expectedFailure.left hd
  · exact DA.h""",
 'parseExpression':"""instance exprStep_da (sel dataType : Prog Ast) (inner : Bool) (st : List RM) [DA E sel] [DA E dataType] : DA E (exprStep sel dataType inner st) := by
  constructor
  unfold exprStep
  refine D2.curT fun t ht => ?_
  iterate 40 try (refine D2.ite ?_ ?_; · exact DA.h)
  refine D2.listHack fun b b' hb => ?_
  have h1 : (t.isKw .«_LIST_» && b) = (t.isKw .«_LIST_» && b') := by
    rcases ht.list with h | h
    · rw [hb h]
    · rw [h]; rfl
  rw [h1]
  refine D2.ite DA.h (D2.ite DA.h ?_)
  split
  all_goals first
    | exact DA.h
    | skip
  all_goals
    refine D2.arguments ?_ fun _ => DA.h
    rcases ht.args with h | ⟨h, h', h''⟩
    · exact h
    · first | exact absurd rfl (h _) | exact absurd rfl h' | exact absurd rfl h''
instance parseExpression_da (sel dataType : Prog Ast) (inner : Bool) [DA E sel] [DA E dataType] : DA E (parseExpression sel dataType inner) := by unfold parseExpression; da""",
 'typeOf':"""instance typeOf_da : DA E (typeOf) := by
  constructor
  unfold typeOf
  refine D2.curT fun t ht => ?_
  repeat' first
    | exact DA.h
    | refine D2.ite' (fun _ => ?_) (fun _ => ?_)
  · next h =>
    refine .bind DA.h fun i => D2.isSqlite (fun _ => DA.h) fun hd => ?_
    rw [ht.words hd .REAL (by decide)] at h
    cases h
  · refine D2.isPg (fun _ => DA.h) fun hd => ⟨?_, ?_⟩
    · exact .bind (D2.bindR DA.h fun _ => ((errs_ckw fun t ht => ht.words hd .PRECISION (by decide)).bindRet).left hd) fun _ => DA.h
    · exact .bind (D2.bindL DA.h fun _ => ((errs_ckw fun t ht => ht.words hd .PRECISION (by decide)).bindRet).right hd) fun _ => DA.h
  · split
    · refine D2.isPg (fun _ => DA.h) fun hd => ⟨?_, ?_⟩
      · exact errs_expectedFailure.right hd
      · exact errs_expectedFailure.left hd
    · exact DA.h""",
 'typeProperty':"""theorem generated_both (hd : Differ E.o E.o') :
    D2 E (ckws .GENERATED [.ALWAYS, .AS, .IDENTITY]) (ckws .GENERATED [.ALWAYS]) ∧ D2 E (ckws .GENERATED [.ALWAYS]) (ckws .GENERATED [.ALWAYS, .AS, .IDENTITY]) := by
  have h : ∀ sp, Errs E (ckwsTail sp [.IDENTITY]) := fun sp => (errs_ckw fun t ht => ht.words hd .IDENTITY (by decide)).bindRet
  constructor
  · refine .bind DA.h fun _ => .bind DA.h fun _ => (Errs.after (fun _ _ _ => ckw_tk) fun _ => h _).left hd
  · refine .bind DA.h fun _ => .bind DA.h fun _ => (Errs.after (fun _ _ _ => ckw_tk) fun _ => h _).right hd
instance typeProperty_da (noAs : Bool) : DA E (typeProperty noAs) := by
  constructor
  unfold typeProperty
  refine D2.curT fun t ht => ?_
  repeat' first
    | exact DA.h
    | refine D2.ite' (fun _ => ?_) (fun _ => ?_)
  refine D2.isPg (fun _ => DA.h) fun hd => ⟨.bind (generated_both hd).1 fun _ => DA.h, .bind (generated_both hd).2 fun _ => DA.h⟩""",
 'lockStrength':"""instance lockStrength_da : DA E (lockStrength) := by
  constructor
  unfold lockStrength
  refine D2.curT fun t ht => ?_
  refine D2.isPg (fun _ => DA.h) fun hd => ⟨?_, ?_⟩
  all_goals
    refine D2.ite DA.h (D2.ite DA.h (D2.ite ?_ (D2.ite ?_ DA.h)))
    all_goals exact .bind DA.h fun _ => .whenBind hd (says_err (by decide)) inferInstance fun _ => inferInstance""",
 'dropTable':"""instance dropTable_da (d : Span) (tmp : Option Span) : DA E (dropTable d tmp) := by
  constructor
  unfold dropTable
  refine .bind DA.h fun _ => .bind DA.h fun _ => .bind DA.h fun _ => D2.isPg (fun _ => DA.h) fun hd => ?_
  have h := skw_no fun t (ht : AlikeOpt E.o E.o' t) => ht.words hd .CASCADE (by decide)
  exact ⟨.bind h.1 fun _ => DA.h, .bind h.2 fun _ => DA.h⟩""",
 'dropIndex':"""instance dropIndex_da (d : Span) : DA E (dropIndex d) := by
  constructor
  unfold dropIndex
  refine .bind DA.h fun _ => .bind DA.h fun _ => .bind DA.h fun _ => .bind DA.h fun _ => .bind (DA.h (p := optMap _ _)) fun on => ?_
  refine D2.isMaria2 fun b b' h => D2.isPg2 fun c c' h' => ?_
  exact .bind (.when2 (h.imp id fun h => by rw [h]) (says_spanErr (by decide)) inferInstance) fun _ => .bind (.when2 (h'.imp id fun h => by rw [h]) (says_spanErr (by decide)) inferInstance) fun _ => DA.h""",
 'functionBody':"",
 'createFunction':"""instance parenItems_da {α : Type} (item : Prog α) (m : String) [DA E item] : DA E (parenItems item m) := by unfold parenItems; da
theorem functionBody_same (h : ¬ Differ E.o E.o') : DA E (functionBody) := by
  constructor
  unfold functionBody
  exact D2.isPg (fun _ => (by da : DA E _).h) fun hd => absurd hd h
instance createFunction_da (c : Span) (opts : List Ast) : DA E (createFunction c opts) := by
  by_cases h : Differ E.o E.o'
  · exact ⟨Errs.leftBind h (errs_ckw fun t ht => ht.words h .FUNCTION (by decide))⟩
  · have := functionBody_same h
    constructor
    unfold createFunction
    refine .bind DA.h fun _ => .bind DA.h fun _ => .bind DA.h fun _ => .bind DA.h fun _ => .bind DA.h fun _ => .bind DA.h fun _ => .bind DA.h fun _ => .bind DA.h fun _ =>
      .bind DA.h fun _ => .bind DA.h fun _ => D2.isMaria (fun _ => DA.h) fun hd => absurd hd h""",
 'indexWhere':"""instance indexWhere_da : DA E (indexWhere) := by
  unfold indexWhere
  refine .bind inferInstance fun w => ?_
  unfold optMap
  da""",
 'ckwsTail':'''theorem ckwsTail_da' (ks : List Keyword) : ∀ sp, DA E (ckwsTail sp ks) := by
  induction ks with
  | nil => intro sp; unfold ckwsTail; da
  | cons k ks ih => intro sp; unfold ckwsTail; have := ih; da
instance ckwsTail_da (sp : Span) (ks : List Keyword) : DA E (ckwsTail sp ks) := ckwsTail_da' ks sp''',
 'intervalParts':'''theorem intervalParts_da' (sp : Span) (ws : List (List Char)) : ∀ acc, DA E (intervalParts sp acc ws) := by
  induction ws with
  | nil => intro acc; unfold intervalParts; da
  | cons k ks ih => intro acc; unfold intervalParts; have := ih; da
instance intervalParts_da (sp : Span) (acc : List Nat) (ws : List (List Char)) : DA E (intervalParts sp acc ws) := intervalParts_da' sp ws acc''',
 'checkInsertFlags':'''instance checkInsertFlags_da (b : Bool) (l : List Ast) : DA E (checkInsertFlags b l) := by
  induction l with
  | nil => unfold checkInsertFlags; da
  | cons k ks ih => unfold checkInsertFlags; da'''}
def binder(s,i):
    d=0;j=i
    while True:
        if s[j] in '({[': d+=1
        if s[j] in ')}]': d-=1
        j+=1
        if d==0: return j
res=[]
for f in fs:
    s=open('/verif/lean/'+f).read()
    for m in re.finditer(r'^def ([\w.\']+)',s,re.M):
        name=m.group(1); i=m.end(); binders=[]
        while True:
            while s[i] in ' \n': i+=1
            if s[i] in '({[': j=binder(s,i); binders.append(' '.join(s[i:j].split())); i=j
            else: break
        ty=re.match(r': (.*?)( :=|\n)',s[i:])
        if not ty or 'Prog' not in ty.group(1) or name in SPECIAL: continue
        if name in REC: res.append(REC[name]); continue
        args=[];insts=[];bs=[]
        for b in binders:
            if b[0]=='[': bs.append(b); continue
            body=b[1:-1].split(':=')[0].strip()
            bs.append(b[0]+body+b[-1])
            names,t=body.split(' : ',1)
            if b[0]=='(':
                args+=names.split()
                for n in names.split():
                    if t.startswith('Prog'): insts.append('[DA E %s]'%n)
                    elif '→ Prog' in t: insts.append('[∀ x, DA E (%s x)]'%n)
        b=' '.join(bs+insts)
        imp=' (%s)'%' '.join([name]+args) 
        res.append('instance %s_da %s: DA E%s := by unfold %s; da'%(name.replace('.','_'),b+(' ' if b else ''),imp if ty.group(1)!='Prog α' or 'Prog' in b else ' (%s (α := α))'%' '.join([name]+args),name))
open('/verif/lean/Verif/Proofs/OptAll.lean','w').write('''import Verif.Proofs.Opt
import Verif.Api
/-! Generated by tools/gen_opt.py: every parser function goes in step with itself under other options. -/
namespace SqlParse

variable {E : Dsrc}

'''+'\n'.join(res)+'\n\nend SqlParse\n')
print(len(res))
