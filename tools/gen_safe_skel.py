import re,sys
src=open(sys.argv[1]).read()
manual=set(sys.argv[2].split(',')) if len(sys.argv)>2 else set()
# find defs
out=[]
for m in re.finditer(r'^def (\S+)((?: [^\n]*?)?) :\n?\s*(Prog [^\n]*?|List \(Keyword × Kind\)) :=',src,re.M):
    name,params,ty=m.group(1),m.group(2),m.group(3)
    if ty.startswith('List'):
        out.append(f"theorem {name}_plain : plainTable {name} = true := by decide +kernel")
        continue
    if name in manual:
        out.append(f"-- MANUAL {name} {params} : {ty}"); continue
    ps=re.findall(r'\(([^:()]*) : ((?:[^()]|\([^()]*\))*)\)',params)
    binders=''; hyps=''; args=''
    for names,t in ps:
        for n in names.split():
            binders+=f' {{{n} : {t}}}'; args+=' '+n
            if t in('Span','Option Span','List Ast','Ast','List SAst','SAst','Option SAst') or t.startswith('Option ('): hyps+=f' (h{n} : good C {n})'
            if t.startswith('Prog '): hyps+=f' (h{n} : Safe C {n} (good C))'
    e=f"({name}{args})" if args else name
    post='AccPost C' if ty.startswith('Prog (Bool ×') else 'good C'
    out.append(f"theorem {name}_safe{binders}{hyps} : SafeT P C {e} ({post}) := by unfold {name}; walk")
print('\n'.join(out))
