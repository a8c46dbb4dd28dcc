#!/usr/bin/env python3
"""Generates lean/Verif/Gen/Keywords.lean from /repo/src/keywords.rs (read as text)."""
import re
src=open('/repo/src/keywords.rs').read().split('\n')
def block(name):
    start=[i for i,l in enumerate(src) if l.startswith(name+'![')][0]
    end=next(i for i in range(start,len(src)) if src[i].startswith('];'))
    ws=[]
    for l in src[start+1:end]:
        l=re.sub(r'//.*','',l)
        ws+=l.split()
    return ws,start+1,end+1
kws,a0,a1=block('keywords'); res,b0,b1=block('reserved'); ei,c0,c1=block('expr_ident')
assert len(set(kws))==len(kws)
allk=['NOT_A_KEYWORD','QUOTED_IDENTIFIER']+kws
idx={k:i for i,k in enumerate(allk)}
def ident(k): return '«_LIST_»' if k=='_LIST_' else k
o=[]
o.append('import Verif.Text\n')
o.append('/-! Generated by tools/gen_keywords.py from /repo/src/keywords.rs; do not edit. -/\n')
o.append('namespace SqlParse\n')
o.append('/-- keywords.rs:20-25 `enum Keyword`: the variant is represented by its position in the enum\n(0 = NOT_A_KEYWORD, 1 = QUOTED_IDENTIFIER, then the words of keywords.rs:%d-%d in order). -/'%(a0,a1))
o.append('structure Keyword where\n  idx : Nat\n  deriving DecidableEq, Repr\n')
o.append('namespace Keyword')
for k in allk:
    line = [i for i,l in enumerate(src[a0:a1]) if l.strip()==k]
    cite = 'keywords.rs:%d'%(a0+1+line[0]) if line else 'keywords.rs:%d'%(22+idx[k])
    o.append('/-- %s -/ def %s : Keyword := ⟨%d⟩'%(cite,ident(k),idx[k]))
o.append('end Keyword\n')
def chunks(l,n): return [l[i:i+n] for i in range(0,len(l),n)]
N=60
ch=chunks(kws,N)
for i,c in enumerate(ch):
    o.append('/-- part %d of the keyword list keywords.rs:%d-%d -/'%(i,a0,a1))
    o.append('def kwNames%d : List (List Char) := ['%i)
    o.append(',\n'.join('  c!"%s"'%k for k in c)+']\n')
o.append('/-- keywords.rs:%d-%d: the words listed in `keywords!`, in order. -/'%(a0,a1))
o.append('def kwNames : List (List Char) :=\n  '+' ++ ('.join('kwNames%d'%i for i in range(len(ch)))+')'*(len(ch)-1)+'\n')
o.append('/-- keywords.rs:%d-%d: the words listed in `reserved!`. -/'%(b0,b1))
o.append('def reservedKws : List Keyword := [\n  '+',\n  '.join(', '.join('.'+ident(k) for k in c) for c in chunks(res,8))+']\n')
o.append('/-- keywords.rs:%d-%d: the words listed in `expr_ident!`. -/'%(c0,c1))
o.append('def exprIdentKws : List Keyword := [\n  '+',\n  '.join(', '.join('.'+ident(k) for k in c) for c in chunks(ei,8))+']\n')
o.append('end SqlParse')
open('/verif/lean/Verif/Gen/Keywords.lean','w').write('\n'.join(o)+'\n')
print(len(allk),len(res),len(ei))
