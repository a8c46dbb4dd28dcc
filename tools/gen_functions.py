#!/usr/bin/env python3
"""Generate lean/Verif/Gen/Functions.lean: keyword -> Function / TimeUnit tables of expression.rs."""
import re, os
src = open('/repo/src/expression.rs').read().split('\n')
a = next(i for i, l in enumerate(src) if l.startswith('fn parse_function'))
b = next(i for i, l in enumerate(src) if i > a and 'if !k.reserved() => Function::Other' in l)
text = '\n'.join(src[a:b])
tab = []
for m in re.finditer(r'Token::Ident\(_, ((?:Keyword::\w+(?: \| )?)+)\) => \{?\s*Function::(\w+)', text):
    for k in re.findall(r'Keyword::(\w+)', m.group(1)): tab.append((k, m.group(2)))
n = len(re.findall(r'Keyword::\w+', text))
assert n == len(tab), (n, len(tab))
tu = []
a2 = next(i for i, l in enumerate(src) if l.startswith('fn parse_time_unit'))
for l in src[a2:a2 + 26]:
    m = re.search(r'Keyword::(\w+)\) => Some\(TimeUnit::(\w+)\)', l)
    if m: tu.append(m.groups())
assert len(tu) == 20
out = ["import Verif.Ast", "/-! Generated by tools/gen_functions.py from /repo/src/expression.rs; do not edit. -/", "namespace SqlParse",
 f"/-- expression.rs:{a+7}-{b} the named arms of `match &t` in `parse_function` -/",
 "def functionTable : List (Keyword × Kind) := ["]
out.append(',\n'.join(f'  (Keyword.{k}, Kind.Function_{f})' for k, f in tab) + ']')
out += [f"/-- expression.rs:{a2+1}-{a2+26} `parse_time_unit` -/", "def timeUnitTable : List (Keyword × Kind) := ["]
out.append(',\n'.join(f'  (Keyword.{k}, Kind.TimeUnit_{f})' for k, f in tu) + ']')
out += ["end SqlParse", ""]
p = os.path.join(os.path.dirname(__file__), '..', 'lean', 'Verif', 'Gen', 'Functions.lean')
open(p, 'w').write('\n'.join(out))
print(len(tab), len(tu))
