#!/usr/bin/env python3
"""Collect the node kinds used in lean/Verif/Model/*.lean into lean/Verif/Gen/Kinds.lean."""
import re, glob, os
root = os.path.join(os.path.dirname(__file__), '..', 'lean', 'Verif')
kinds = {'Tuple'}
for f in sorted(glob.glob(root + '/Model/*.lean')) + [root + '/Ast.lean', root + '/Parser.lean', root + '/Gen/Functions.lean']:
    if not os.path.exists(f): continue
    s = open(f).read()
    s = re.sub(r'/-.*?-/', '', s, flags=re.S)
    for m in re.finditer(r'\b[os]?nd% ([A-Za-z_0-9]+)', s): kinds.add(m.group(1))
    for m in re.finditer(r'\bKind\.([A-Z][A-Za-z_0-9]*)', s): kinds.add(m.group(1))
ks = sorted(kinds)
out = ["/-! Generated by tools/gen_kinds.py: the structs and enum variants of the AST. -/", "namespace SqlParse",
 "/-- One kind per struct or enum variant of the Rust AST. -/", "inductive Kind where"]
line = ' '
for k in ks:
    if len(line) + len(k) > 96:
        out.append(line); line = ' '
    line += ' | ' + k
out.append(line)
out += ["  deriving DecidableEq, Repr", "end SqlParse", ""]
open(root + '/Gen/Kinds.lean', 'w').write('\n'.join(out))
print(len(ks), 'kinds')
