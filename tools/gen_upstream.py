#!/usr/bin/env python3
"""Generates lean/Verif/Theorems/Upstream.lean from the unit tests and documentation tests of /repo."""
import re,glob,os
R='/repo/src/'
def rust_str(s):
    s=re.sub(r'\\\n\s*','',s)
    return s.replace('\\"','"').replace('\\n','\n').replace('\\\\','\\')
def lean_str(s):
    return '"'+s.replace('\\','\\\\').replace('"','\\"').replace('\n','\\n')+'"'
def opts(txt):
    d=re.findall(r'dialect\(SQLDialect::(\w+)\)',txt)[-1]
    a=re.findall(r'arguments\(SQLArguments::(\w+)\)',txt)
    w='warn_unquoted_identifiers(true)' in txt
    f=['dialect := .'+{'MariaDB':'mariaDB','PostgreSQL':'postgreSQL'}[d]]
    if a: f.append('arguments := .'+{'QuestionMark':'questionMark','Dollar':'dollar','Percent':'percent'}[a[-1]])
    if w: f.append('warnUnquoted := true')
    return '{ '+', '.join(f)+' }'
def blocks(path):
    ls=open(path).read().split('\n'); out=[]; cur=None; start=0
    for n,l in enumerate(ls,1):
        m=re.match(r'\s*//[/!] ?(.*)',l)
        if m:
            t=m.group(1)
            if t.startswith('```'):
                if cur is None: cur=[]; start=n; ign='ignore' in t
                else:
                    if not ign: out.append((start,'\n'.join(cur)))
                    cur=None
            elif cur is not None: cur.append(t)
        elif cur is not None:
            if not ign: out.append((start,'\n'.join(cur)))
            cur=None
    txt='\n'.join(ls)
    for m in re.finditer(r'^#\[test\]\n(.*?)^}',txt,re.S|re.M): out.append((txt[:m.start()].count('\n')+1,m.group(1)))
    return out
L=[]
for p in sorted(glob.glob(R+'*.rs')):
    for start,b in blocks(p):
        ms=list(re.finditer(r'let (sql\d?) =\s*"((?:[^"\\]|\\.)*)";',b,re.S))
        for i,m in enumerate(ms):
            seg=b[m.end():ms[i+1].start() if i+1<len(ms) else len(b)]
            api='many' if 'parse_statements(' in seg else 'one'
            if not re.search(r'assert.*issues',seg): continue
            kind=re.search(r'Some\(Statement::(\w+)',seg)
            if m.group(1)=='sql1': kind=re.search(r'Some\(Statement::(\w+)',b)
            if m.group(1) in('sql2','sql3'): kind=None
            pre=b[:m.start()]
            o=opts(pre if 'SQLDialect::' in pre.replace('{SQLDialect','') and 'dialect(' in pre else b)
            L.append((os.path.basename(p),start,api,o,rust_str(m.group(2)),kind.group(1) if kind else None))
F=[]; X=[]
t=open(R+'expression.rs').read()
for m in re.finditer(r'^\s*test_func\(\s*"((?:[^"\\]|\\.)*)",\s*Function::(\w+),\s*(\d+),?\s*\);',t,re.M):
    F.append((t[:m.start()+1].count('\n')+1,rust_str(m.group(1)),m.group(2),m.group(3)))
for m in re.finditer(r'^\s*test_expr\("((?:[^"\\]|\\.)*)", \|e\| \{\n\s*let Expression::(\w+)',t,re.M):
    X.append((t[:m.start()+1].count('\n')+1,rust_str(m.group(1)),m.group(2)))
if __name__=='__main__':
    o=['import Verif.Theorems.Issues',
'/-!',
'The unit tests and the documentation tests of the crate, run on the model by the kernel.  Generated by tools/gen_upstream.py.',
'These are tests of the model (it behaves as the authors of the crate say the code behaves), not proofs of properties.',
'Each says what the test of the crate asserts: no issue, and the kind of the (last) statement, or the function and the',
'number of its arguments.',
'-/','namespace SqlParse','',
'/-- `Issues::is_ok` of the list (issue.rs:135-137), and the kind of the last statement. -/',
'def upstreamOk (k : Option Kind) (l : List SAst) (is : List Issue) : Bool :=',
'  is.isEmpty && !l.isEmpty &&',
'    (k.isNone || (match l.getLast?.map SAst.ast with | some (.node g _) => some g | _ => none) == k)','',
'/-- Run `parse_expression(parser, false)` on a text (MariaDB, as in the tests). -/',
'def upstreamExpr (s : List Char) (f : Ast → Bool) : Bool :=',
'  match St.new true s ⟨s, []⟩ {} with',
'  | .ok _ st => (match (Prog.call (.expression false)).run 60 st with | .ok a _ => f a | _ => false)',
'  | _ => false','',
'/-- A call of the function with this number of arguments. -/',
'def upstreamCall (f : Kind) (n : Nat) : Ast → Bool',
'  | .node .Function (.node g _ :: .list l :: _) => g == f && l.length == n',
'  | _ => false','',
'/-- An expression of this kind. -/',
'def upstreamKind (f : Kind) : Ast → Bool',
'  | .node g _ => g == f',
'  | _ => false','',
'/-- An identifier with one part. -/',
'def upstreamIdent (v : List Char) : Ast → Bool',
'  | .node .Identifier [.list [.ident w _]] => v == w',
'  | _ => false','']
    for f,s,api,op,sql,kd in L:
        c='c!'+lean_str(sql)
        o.append(f'/-- {f}:{s} -/')
        o.append(f'example : (Api.{api}.run 100 true {c} ⟨{c}, []⟩ {op}).test (fun a is => upstreamOk {"(some .%s)"%kd if kd else "none"} {"a.toList" if api=="one" else "a"} is) = true := by decide +kernel')
    for n,s,f,c in F:
        o.append(f'/-- expression.rs:{n} -/')
        o.append(f'example : upstreamExpr c!{lean_str(s)} (upstreamCall .Function_{f} {c}) = true := by decide +kernel')
    for n,s,f in X:
        o.append(f'/-- expression.rs:{n} -/')
        o.append(f'example : upstreamExpr c!{lean_str(s)} (upstreamKind .{f}) = true := by decide +kernel')
    o.append('/-- expression.rs:1693 -/')
    o.append('example : upstreamExpr c!"`a` + `b` * `c` + `d`" (fun e => match e with\n  | .node .Binary [.binop .add, _, .node .Binary [.binop .add, _, a, .node .Binary [.binop .mult, _, b, c]], d] =>\n    upstreamIdent c!"a" a && upstreamIdent c!"b" b && upstreamIdent c!"c" c && upstreamIdent c!"d" d\n  | _ => false) = true := by decide +kernel')
    o.append('\nend SqlParse\n')
    open('/verif/lean/Verif/Theorems/Upstream.lean','w').write('\n'.join(o))
