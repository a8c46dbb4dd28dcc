#!/usr/bin/env python3
"""Generate lean/Verif/Proofs/HereAll.lean: one instance of `EH` per parser function of the model."""
import re
fs=['Verif/Parser.lean']+['Verif/Model/%s.lean'%x for x in 'Expression DataType Select Dml Alter Create Statement'.split()]+['Verif/Api.lean']
SPECIAL={'expectedError','errHere','err','warn','runApi','Prog.run'}
REC={'withCheck':'instance withCheck_eh (m : String) (v : SAst) [QuietStr m] : EH (withCheck m v) := by unfold withCheck; eh',
 'body':'''instance body_eh {α : Type} (f : Fn α) : EH (body f) := by cases f <;> (unfold body; eh)''',
 'ckwsTail':'''theorem ckwsTail_eh' (ks : List Keyword) : ∀ sp, EH (ckwsTail sp ks) := by
  induction ks with
  | nil => intro sp; unfold ckwsTail; eh
  | cons k ks ih => intro sp; unfold ckwsTail; have := ih; eh
instance ckwsTail_eh (sp : Span) (ks : List Keyword) : EH (ckwsTail sp ks) := ckwsTail_eh' ks sp''',
 'intervalParts':'''theorem intervalParts_eh' (sp : Span) (ws : List (List Char)) : ∀ acc, EH (intervalParts sp acc ws) := by
  induction ws with
  | nil => intro acc; unfold intervalParts; eh
  | cons k ks ih => intro acc; unfold intervalParts; have := ih; eh
instance intervalParts_eh (sp : Span) (acc : List Nat) (ws : List (List Char)) : EH (intervalParts sp acc ws) := intervalParts_eh' sp ws acc''',
 'checkInsertFlags':'''instance checkInsertFlags_eh (b : Bool) (l : List Ast) : EH (checkInsertFlags b l) := by
  induction l with
  | nil => unfold checkInsertFlags; eh
  | cons k ks ih => unfold checkInsertFlags; eh'''}
def binder(s,i):
    d=0;j=i
    while True:
        if s[j] in '({[': d+=1
        if s[j] in ')}]': d-=1
        j+=1
        if d==0: return j
res=[]
lits=set()
for f in fs: lits|=set(re.findall(r'(?:err|warn|withCheck) ("[^"]*")',open('/verif/lean/'+f).read()))
for l in sorted(lits): res.append('instance : QuietStr %s := ⟨by simp [Msg.isSyntax, syntaxMessages]⟩'%l)
for f in fs:
    s=open('/verif/lean/'+f).read()
    for m in re.finditer(r'^def ([\w.\']+)',s,re.M):
        name=m.group(1); i=m.end(); binders=[]
        while True:
            while s[i] in ' \n': i+=1
            if s[i] in '({[': j=binder(s,i); binders.append(' '.join(s[i:j].split())); i=j
            else: break
        ty=re.match(r': (.*?)( :=|\n)',s[i:])
        if not ty or 'Prog' not in ty.group(1) or name in SPECIAL: continue
        if name in REC: res.append(REC[name]); continue
        args=[];insts=[];bs=[]
        for b in binders:
            if b[0]=='[': bs.append(b); continue
            body=b[1:-1].split(':=')[0].strip()
            bs.append(b[0]+body+b[-1])
            names,t=body.split(' : ',1)
            if b[0]=='(':
                args+=names.split()
                for n in names.split():
                    if t.startswith('Prog'): insts.append('[EH %s]'%n)
                    elif '→ Prog' in t: insts.append('[∀ x, EH (%s x)]'%n)
        b=' '.join(bs+insts)
        imp=' (%s)'%' '.join([name]+args) 
        res.append('instance %s_eh %s: EH%s := by unfold %s; eh'%(name.replace('.','_'),b+(' ' if b else ''),imp if ty.group(1)!='Prog α' or 'Prog' in b else ' (%s (α := α))'%' '.join([name]+args),name))
open('/verif/lean/Verif/Proofs/HereAll.lean','w').write('''import Verif.Proofs.Here
/-! Generated by tools/gen_here.py: every parser function reports what was expected only at the current token. -/
namespace SqlParse

'''+'\n'.join(res)+'\n\nend SqlParse\n')
print(len(res))
