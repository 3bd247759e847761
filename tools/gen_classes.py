#!/usr/bin/env python3
"""Generate lean/Verif/Gen/Classes.lean from the source text of asyncapi3/models.

Only Python's ast module is used; nothing from /repo is imported or executed."""
import ast, os, sys
ROOT = "/repo/asyncapi3/models"
files = ["base.py","base_models.py","schema.py","security.py","info.py","server.py","channel.py","message.py","operation.py","components.py","asyncapi.py"]
files = files[:4] + sorted("bindings/"+f for f in os.listdir(ROOT+"/bindings") if f.endswith(".py") and f!="__init__.py") + files[4:]
mods = {}
for f in files:
    mods["asyncapi3.models."+f[:-3].replace("/",".")] = (f, ast.parse(open(os.path.join(ROOT,f)).read()))
def leanname(mod, name):
    return "ComponentsTags" if (mod.endswith(".components") and name=="Tags") else name
classes = []   # (mod, node)
symtab = {}
for m,(f,t) in mods.items():
    for s in t.body:
        if isinstance(s, ast.ClassDef):
            symtab[(m,s.name)] = ("class", s)
            classes.append((m,f,s))
        elif isinstance(s, ast.Assign) and isinstance(s.targets[0], ast.Name):
            symtab[(m,s.targets[0].id)] = ("alias", s.value)
def imports(m):
    env = {}
    f,t = mods[m]
    for s in ast.walk(t):
        if isinstance(s, ast.ImportFrom):
            for a in s.names:
                src = s.module
                if src == "asyncapi3.models.bindings":   # re-exports
                    src = next((mm for mm in mods if mm.startswith("asyncapi3.models.bindings.") and (mm,a.name) in symtab), src)
                env[a.asname or a.name] = (src, a.name)
    return env
BASES = {"ExtendableBaseModel":"extendable","NonExtendableBaseModel":"nonExtendable"}
SKIP = {"ExtendableBaseModel","NonExtendableBaseModel","PatternedRootModel"}
def lstr(s): 
    return 'p!"' + s.replace("\\","\\\\").replace('"','\\"') + '"'
def ty(m, n):
    if isinstance(n, ast.BinOp) and isinstance(n.op, ast.BitOr):
        parts=[]
        def flat(x):
            if isinstance(x, ast.BinOp) and isinstance(x.op, ast.BitOr): flat(x.left); flat(x.right)
            else: parts.append(x)
        flat(n)
        out=[]
        for p in parts:
            out.append(ty(m,p))
        return ".union ["+", ".join(out)+"]"
    if isinstance(n, ast.Constant) and n.value is None: return ".none"
    if isinstance(n, ast.Constant) and isinstance(n.value,str): return ty(m, ast.parse(n.value,mode="eval").body)
    if isinstance(n, ast.Name):
        prim={"str":".str","int":".int","bool":".bool","Any":".any","AnyUrl":".anyUrl","HttpUrl":".httpUrl","EmailStr":".email"}
        if n.id in prim: return prim[n.id]
        mm,nm = (m,n.id) if (m,n.id) in symtab else imports(m)[n.id]
        kind,node = symtab[(mm,nm)]
        if kind=="class": return f".model .{leanname(mm,nm)}"
        return ty(mm,node)
    if isinstance(n, ast.Subscript):
        h=n.value.id
        if h=="list": return ".list ("+ty(m,n.slice)+")"
        if h=="dict":
            k,v=n.slice.elts; assert k.id=="str"
            return ".dict ("+ty(m,v)+")"
        if h=="Literal":
            es = n.slice.elts if isinstance(n.slice,ast.Tuple) else [n.slice]
            return ".lit ["+", ".join((f".s {lstr(e.value)}" if isinstance(e.value,str) else f".i {e.value}") for e in es)+"]"
        if h=="SkipJsonSchema": return ty(m,n.slice)
        if h=="type": return ".processors"
    raise Exception(ast.dump(n))
def dflt(n):
    if n is None: return ".required"
    v=ast.literal_eval(n)
    if v is None: return ".null"
    if v is Ellipsis: return ".required"
    if isinstance(v,bool): return f".bool {str(v).lower()}"
    if isinstance(v,int): return f".int {v}"
    if isinstance(v,str): return f".str {lstr(v)}"
    raise Exception(v)
out=[]; names=[]
for m,f,c in classes:
    if c.name in SKIP: continue
    ln=leanname(m,c.name)
    b=c.bases[0]
    fields=[]
    if isinstance(b, ast.Subscript) and b.value.id=="PatternedRootModel":
        kind="patterned"
        fields.append((c.lineno,'⟨p!"root", none, .dict ('+ty(m,b.slice)+'), .required, false, false, none⟩'))
    elif isinstance(b, ast.Name) and b.id in BASES: kind=BASES[b.id]
    elif isinstance(b, ast.Name) and b.id=="BaseModel":
        cfg=[s for s in c.body if isinstance(s,ast.Assign) and s.targets[0].id=="model_config"][0]
        assert any(k.arg=="extra" and k.value.value=="allow" for k in cfg.value.keywords)
        kind="openExtra"
    else: raise Exception(c.name)
    for s in c.body:
        if not isinstance(s, ast.AnnAssign): continue
        call=s.value; assert isinstance(call,ast.Call) and call.func.id=="Field",(c.name,s.target.id)
        kw={k.arg:k.value for k in call.keywords}
        unknown=set(kw)-{"default","alias","description","exclude","exclude_if","max_length"}
        assert not unknown,unknown
        d=kw.get("default", call.args[0] if call.args else None)
        if "exclude_if" in kw: assert kw["exclude_if"].id=="is_null"
        al=f'(some {lstr(kw["alias"].value)})' if "alias" in kw else "none"
        fields.append((s.lineno,f'⟨{lstr(s.target.id)}, {al}, {ty(m,s.annotation)}, {dflt(d)}, {"true" if "exclude" in kw else "false"}, {"true" if "exclude_if" in kw else "false"}, {"some "+str(kw["max_length"].value) if "max_length" in kw else "none"}⟩'))
    names.append(ln)
    out.append((ln,f,c.lineno,c.end_lineno,kind,fields))
print("import Verif.Py.Types")
print("import Verif.Py.Heap")
print("/-!\nGenerated by tools/gen_classes.py from the text of asyncapi3/models. Do not edit.\n-/")
print("namespace Verif.Gen\nopen Verif\n")
print("/-- The model classes of asyncapi3/models (the abstract bases excepted).\n`ComponentsTags` is `components.Tags` (models/components.py:108). -/")
print("inductive Cls where")
for n in names: print(f"  | {n}")
print("  deriving DecidableEq, Repr\n")
print("/-- All classes. -/\ndef Cls.all : List Cls := ["+", ".join("."+n for n in names)+"]\n")
for ln,f,a,b,kind,fields in out:
    print(f"/-- models/{f}:{a}-{b} -/")
    print(f"def def{ln} : ClassDef Cls := ⟨.{kind}, [")
    print(",\n".join("  "+x for _,x in fields)+"]⟩\n")
print("/-- The declaration of each class. -/\ndef classDef : Cls → ClassDef Cls")
for n in names: print(f"  | .{n} => def{n}")
print("""
/-- The class table used by the validators: `model_fields` of each class; the
package has no subclassing among the concrete classes. -/
def table : ClassTable Cls where
  fields c := (classDef c).fields.map fun f => ⟨f.name, f.alias, f.exclude⟩
  sub c d := decide (c = d)
  reference := .Reference

theorem Cls.mem_all (c : Cls) : c ∈ Cls.all := by cases c <;> decide
""")
print("end Verif.Gen")
