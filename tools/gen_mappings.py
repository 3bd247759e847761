#!/usr/bin/env python3
"""Generate lean/Verif/Gen/Mappings.lean from REFERENCE_TYPE_MAPPINGS (unified_references_validator.py:48-126)."""
import ast
t=ast.parse(open('/repo/asyncapi3/validators/unified_references_validator.py').read())
def tys(n):
    if isinstance(n,ast.BinOp): return tys(n.left)+tys(n.right)
    return [n.id]
print("import Verif.Gen.Classes\n/-!\nGenerated by tools/gen_mappings.py. Do not edit.\n-/\nnamespace Verif.Gen\n")
print("/-- `REFERENCE_TYPE_MAPPINGS`, unified_references_validator.py:48-126, in order.\nA union type is the list of its members. -/\ndef mappings : List (Str × List Cls) := [")
rows=[]
for s in t.body:
    if isinstance(s,ast.Assign) and getattr(s.targets[0],'id','')=='REFERENCE_TYPE_MAPPINGS':
        ks=[k.value for k in s.value.keys]; assert len(set(ks))==len(ks)
        for k,v in zip(s.value.keys,s.value.values):
            rows.append(f'  (p!"{k.value}", [{", ".join("."+x for x in tys(v))}])')
print(",\n".join(rows)+"]\n\nend Verif.Gen")
