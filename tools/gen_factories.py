#!/usr/bin/env python3
"""Generate lean/Verif/Gen/Factories.lean: the Reference.to_* factory methods of models/base.py."""
import ast
t=ast.parse(open("/repo/asyncapi3/models/base.py").read())
c=[s for s in t.body if isinstance(s,ast.ClassDef) and s.name=="Reference"][0]
fs=[]
for m in c.body:
    if isinstance(m,ast.FunctionDef) and m.name.startswith("to_"):
        r=m.body[-1]; assert isinstance(r,ast.Return)
        kw=r.value.keywords; assert len(kw)==1 and kw[0].arg=="ref" and r.value.func.id=="cls"
        v=kw[0].value.values; assert len(v)==2 and isinstance(v[1],ast.FormattedValue)
        assert v[1].value.id==m.args.args[1].arg
        fs.append((m.name,v[0].value,m.lineno,m.end_lineno))
print("import Verif.Py.Str\n/-!\nGenerated by tools/gen_factories.py from models/base.py. Do not edit.\n-/\nnamespace Verif.Gen\n")
print("/-- The `Reference.to_*` class methods, models/base.py:45-145. -/\ninductive Factory where")
for n,*_ in fs: print(f"  | {n}")
print("  deriving DecidableEq, Repr\n")
print("/-- All factories. -/\ndef Factory.all : List Factory := ["+", ".join("."+n for n,*_ in fs)+"]\n")
print("/-- The literal part of each factory's f-string; the name is appended to it. -/\ndef Factory.pre : Factory → Str")
for n,p,a,b in fs: print(f'  | .{n} => p!"{p}"   -- base.py:{a}-{b}')
print("\n/-- `Reference.to_*(name).ref`. -/\ndef Factory.ref (f : Factory) (name : Str) : Str := f.pre ++ name\n\nend Verif.Gen")
