"""Translate the tests of /repo/tests into Lean terms over the model (lean/Verif/Conformance/).

The test files are read with `ast` and interpreted symbolically; nothing of /repo is executed. Tests that use what the
model leaves out are skipped, and listed in Skipped.txt with the reason.
"""
import ast, glob, os, re, sys, json
sys.path.insert(0, os.path.dirname(__file__))
import miniyaml
from miniyaml import Unsupported

TESTS = '/repo/tests'
OUT = os.path.join(os.path.dirname(__file__), '..', 'lean', 'Verif', 'Conformance')
classes = set()
for line in open(os.path.join(OUT, '..', 'Gen', 'Classes.lean')):
    m = re.match(r'  \| (\w+)$', line)
    if m:
        classes.add(m.group(1))
PROCS = {'UnifiedReferencesValidator': 0, 'TagsRefValidator': 1, 'ExternalDocsRefValidator': 2}

class Sym:
    """A Lean term of type V."""
    def __init__(self, t): self.t = t
class Cond:
    """A Lean term of type Bool."""
    def __init__(self, t): self.t = t
class Num:
    """A Lean term of type Nat."""
    def __init__(self, t): self.t = t
class Text:
    """A Lean term of type Str."""
    def __init__(self, t): self.t = t
class Resolved:
    """A Lean term of type Option (PyType × Str)."""
    def __init__(self, t): self.t = t
class Types:
    """A Lean term of type List Cls."""
    def __init__(self, t): self.t = t
class Score:
    def __init__(self, t): self.t = t
class Cls:
    def __init__(self, n): self.n = n
class Url:
    def __init__(self, s): self.s = s
class Proc:
    def __init__(self, n): self.n = n
class Builtin:
    def __init__(self, n): self.n = n
class Ignored:
    """A message text or log; anything asked about it is left unchecked."""
class Func:
    def __init__(self, node, closure): self.node, self.closure = node, closure
class Method:
    def __init__(self, obj, name): self.obj, self.name = obj, name
class Validator: pass
class Return(Exception):
    def __init__(self, v): self.v = v

def lstr(s):
    if s == '':
        return '([] : Str)'
    out = ''
    for c in s:
        if c == '\\': out += '\\\\'
        elif c == '"': out += '\\"'
        elif c == '\n': out += '\\n'
        elif c == '\t': out += '\\t'
        elif c == '\r': out += '\\r'
        elif ord(c) < 32: raise Unsupported('control character')
        else: out += c
    return 'p!"%s"' % out

def lean(v):
    """The Lean term of type V."""
    if isinstance(v, Sym): return v.t
    if isinstance(v, Text): return '(.str (%s))' % v.t
    if v is None: return '.none'
    if v is True: return '(.bool true)'
    if v is False: return '(.bool false)'
    if isinstance(v, int): return '(.int (%d))' % v
    if isinstance(v, float): return '(.float %s)' % lstr(repr(v))
    if isinstance(v, str): return '(.str %s)' % lstr(v)
    if isinstance(v, Url): return '(.url .any ((urlForm %s).getD []))' % lstr(v.s)
    if isinstance(v, Proc): return '(.proc %d)' % v.n
    if isinstance(v, list): return '(.list [%s])' % ', '.join(lean(x) for x in v)
    if isinstance(v, dict): return '(.dict %s)' % entries(v)
    raise Unsupported('value %s' % type(v).__name__)

def entries(d):
    for k in d:
        if not isinstance(k, str): raise Unsupported('key %r' % (k,))
    return '[%s]' % ', '.join('(%s, %s)' % (lstr(k), lean(x)) for k, x in d.items())

def concrete(v):
    if isinstance(v, (list, tuple, set)): return all(concrete(x) for x in v)
    if isinstance(v, dict): return all(concrete(x) for x in v.values())
    return v is None or isinstance(v, (bool, int, float, str))

class Run:
    def __init__(self, env):
        self.lines, self.n, self.env = [], 0, env

    def bind(self, t):
        self.n += 1
        x = 'v%d' % self.n
        self.lines.append('let %s ← %s' % (x, t))
        return x

    def emit(self, t): self.lines.append(t)

    # expressions
    def ev(self, e):
        f = getattr(self, 'e_' + type(e).__name__, None)
        if f is None: raise Unsupported('expression ' + type(e).__name__)
        return f(e)

    def e_Constant(self, e): return e.value
    def e_List(self, e): return [self.ev(x) for x in e.elts]
    def e_Tuple(self, e): return tuple(self.ev(x) for x in e.elts)
    def e_Set(self, e): return [self.ev(x) for x in e.elts]
    def e_Dict(self, e):
        out = {}
        for k, v in zip(e.keys, e.values):
            if k is None: out.update(self.ev(v))
            else: out[self.ev(k)] = self.ev(v)
        return out

    def e_Name(self, e):
        if e.id in self.env: return self.env[e.id]
        if e.id in ('dict', 'list', 'str', 'int', 'bool', 'tuple', 'set'): return Builtin(e.id)
        raise Unsupported('name ' + e.id)

    def e_BinOp(self, e):
        if isinstance(e.op, ast.BitOr):
            a, b = self.ev(e.left), self.ev(e.right)
            a = a.n if isinstance(a, Cls) else a
            b = b.n if isinstance(b, Cls) else b
            if isinstance(a, str): a = (a,)
            if isinstance(b, str): b = (b,)
            if isinstance(a, tuple) and isinstance(b, tuple): return tuple(a) + tuple(b)
        a, b = self.ev(e.left), self.ev(e.right)
        if isinstance(e.op, ast.Add) and concrete(a) and concrete(b): return a + b
        if isinstance(e.op, ast.Mult) and concrete(a) and concrete(b): return a * b
        if isinstance(e.op, ast.Pow) and concrete(a) and concrete(b): return a ** b
        raise Unsupported('operator ' + ast.unparse(e))

    def e_UnaryOp(self, e):
        v = self.ev(e.operand)
        if isinstance(e.op, ast.USub) and concrete(v): return -v
        if isinstance(e.op, ast.Not):
            if isinstance(v, Cond): return Cond('!(%s)' % v.t)
            if concrete(v): return not v
        raise Unsupported('operator ' + ast.unparse(e))

    def e_BoolOp(self, e):
        vs = [self.cond(self.ev(x)) for x in e.values]
        return Cond((' && ' if isinstance(e.op, ast.And) else ' || ').join('(%s)' % x for x in vs))

    def e_JoinedStr(self, e):
        out = ''
        for x in e.values:
            v = self.ev(x.value) if isinstance(x, ast.FormattedValue) else x.value
            if not isinstance(v, (str, int)): raise Unsupported('f-string')
            out += str(v)
        return out

    def cond(self, v):
        if isinstance(v, Cond): return v.t
        if isinstance(v, Ignored): return 'true'
        if concrete(v): return 'true' if v else 'false'
        raise Unsupported('condition %s' % type(v).__name__)

    def e_Attribute(self, e):
        o = self.ev(e.value)
        a = e.attr
        if isinstance(o, Sym):
            if a == 'model_extra' or a == '__pydantic_extra__': return Sym('(extra %s)' % o.t)
            if a in ('model_dump', 'keys', 'values', 'items', 'get'): return Method(o, a)
            if a in ('model_fields_set', '__class__', 'model_config'): raise Unsupported(a)
            return Sym(self.bind('get %s %s' % (o.t, lstr(a))))
        if isinstance(o, Ignored): return o
        if isinstance(o, Resolved):
            if a == 'path': return Text('(%s.map (·.2)).getD []' % o.t)
            if a == 'resolved_type': return Method(o, a)
        if isinstance(o, Method) and o.name == 'resolved_type' and a == '__name__': return o
        return Method(o, a)

    def e_Subscript(self, e):
        o, i = self.ev(e.value), self.ev(e.slice)
        if isinstance(o, (list, tuple, dict)): return o[i]
        if isinstance(o, Sym):
            if isinstance(i, str): return Sym(self.bind('item %s %s' % (o.t, lstr(i))))
            if isinstance(i, int) and i >= 0: return Sym(self.bind('nth %s %d' % (o.t, i)))
        if isinstance(o, Ignored): return o
        raise Unsupported('subscript ' + ast.unparse(e))

    def e_Compare(self, e):
        if len(e.ops) != 1: raise Unsupported('chained comparison')
        a, op, b = self.ev(e.left), e.ops[0], self.ev(e.comparators[0])
        if isinstance(a, Ignored) or isinstance(b, Ignored): return Ignored()
        if isinstance(op, (ast.Is, ast.IsNot, ast.Eq, ast.NotEq)):
            neg = isinstance(op, (ast.IsNot, ast.NotEq))
            r = self.equal(a, b, isinstance(op, (ast.Is, ast.IsNot)))
            return (Cond('!(%s)' % r.t) if isinstance(r, Cond) else not r) if neg else r
        if isinstance(op, (ast.In, ast.NotIn)):
            if isinstance(b, Sym) and isinstance(a, str): r = Cond('member %s %s' % (lstr(a), b.t))
            elif isinstance(b, (list, tuple)) and any(isinstance(x, Ignored) for x in b): r = Cond('true')
            elif isinstance(b, (list, tuple)) and isinstance(a, Sym): r = Cond(' || '.join('eq %s %s' % (a.t, lean(x)) for x in b))
            elif concrete(a) and concrete(b): r = a in b
            else: raise Unsupported('in ' + ast.unparse(e))
            return (Cond('!(%s)' % r.t) if isinstance(r, Cond) else not r) if isinstance(op, ast.NotIn) else r
        if isinstance(a, Score) and isinstance(b, Score) and isinstance(op, ast.Gt): return Cond('Path.scoreLt %s %s' % (b.t, a.t))
        if isinstance(a, Num) and isinstance(b, int):
            o = {ast.Gt: '>', ast.GtE: '≥', ast.Lt: '<', ast.LtE: '≤'}[type(op)]
            return Cond('decide (%s %s %d)' % (a.t, o, b))
        if concrete(a) and concrete(b):
            return {ast.Gt: a > b, ast.Lt: a < b, ast.GtE: a >= b, ast.LtE: a <= b}[type(op)]
        raise Unsupported('comparison ' + ast.unparse(e))

    def equal(self, a, b, ident):
        if isinstance(a, Num) and isinstance(b, int): return Cond('%s == %d' % (a.t, b))
        if isinstance(a, Text) and isinstance(b, str): return Cond('(%s) == %s' % (a.t, lstr(b)))
        if isinstance(a, Types):
            if isinstance(b, Cls): b = (b.n,)
            if isinstance(b, tuple): return Cond('sameClasses %s [%s]' % (a.t, ', '.join('.' + n for n in b)))
        if isinstance(a, Resolved) and b is None: return Cond('%s.isNone' % a.t)
        if isinstance(a, Method) and a.name == 'resolved_type':
            n = b.n if isinstance(b, Cls) else b
            return Cond('%s.map (·.1) == some (.cls .%s)' % (a.obj.t, n))
        if isinstance(a, Cond) and isinstance(b, bool): return a if b else Cond('!(%s)' % a.t)
        if concrete(a) and concrete(b): return a is b if ident and (a is None or b is None) else a == b
        if a is None and isinstance(b, Sym): a, b = b, a
        if isinstance(a, Sym) and b is None: return Cond('V.isNone %s' % a.t)
        if ident and isinstance(a, Sym) and isinstance(b, bool): return Cond('eq %s %s' % (a.t, lean(b)))
        if ident and isinstance(a, list): raise Unsupported('is')
        return Cond('eq %s %s' % (lean(a), lean(b)))

    def e_Call(self, e):
        if isinstance(e.func, ast.Attribute):
            m = ast.unparse(e.func)
            if m == 'yaml.safe_load':
                t = self.ev(e.args[0])
                return miniyaml.load(t)
            if m == 'pytest.raises': return Ignored()
            if m.endswith('.startswith') and len(e.args) == 1:
                o = self.ev(e.func.value)
                if isinstance(o, Sym):
                    return Cond('(match %s with | .str s => Str.startsWith s %s | _ => false)' % (o.t, lstr(self.ev(e.args[0]))))
            if m.startswith('utils.'): return self.utils(e.func.attr, e)
        if isinstance(e.func, ast.Name) and e.func.id == 'any': return Ignored()
        fn = self.ev(e.func) if not (isinstance(e.func, ast.Name) and e.func.id in BUILTINS and e.func.id not in self.env) else Builtin(e.func.id)
        if isinstance(fn, Ignored): return Ignored()
        args = []
        for x in e.args:
            if isinstance(x, ast.Starred): raise Unsupported('*args')
            args.append(self.ev(x))
        kw = {}
        for k in e.keywords:
            v = self.ev(k.value)
            if k.arg is None:
                if isinstance(v, Sym): raise Unsupported('** of ' + v.t)
                kw.update(v)
            else: kw[k.arg] = v
        if isinstance(fn, Cls):
            if args and kw: raise Unsupported('positional argument')
            if args: return Sym(self.bind('make .%s [(%s, %s)]' % (fn.n, lstr('root'), lean(args[0]))))
            return Sym(self.bind('make .%s %s' % (fn.n, entries(kw))))
        if isinstance(fn, Method): return self.method(fn, args, kw, e)
        if isinstance(fn, Builtin): return self.builtin(fn.n, args, kw)
        if isinstance(fn, Func): return self.call(fn, args, kw)
        if isinstance(fn, Proc) and fn.n == 0 and not args: return Validator()
        raise Unsupported('call ' + ast.unparse(e.func))

    def call(self, fn, args, kw):
        ps = [a.arg for a in fn.node.args.args]
        sub = dict(fn.closure)
        sub.update(dict(zip(ps, args)))
        sub.update(kw)
        saved, self.env = self.env, sub
        try:
            self.body(fn.node.body)
            r = None
        except Return as x:
            r = x.v
        finally:
            self.env = saved
        return r

    def builtin(self, n, args, kw):
        if n == 'len':
            if isinstance(args[0], (list, dict, tuple, str)): return len(args[0])
            if isinstance(args[0], Sym): return Num('len %s' % args[0].t)
        if n == 'isinstance': return self.isinst(args[0], args[1])
        if n == 'str':
            if isinstance(args[0], Ignored): return args[0]
            if isinstance(args[0], Sym): return Sym('(strOf %s)' % args[0].t)
            if concrete(args[0]): return str(args[0])
        if n == 'TypeAdapter' and isinstance(args[0], Builtin) and args[0].n == 'EmailStr': return Method(args[0], 'adapter')
        if n == 'AnyUrl': return Url(args[0])
        if n == 'list':
            if isinstance(args[0], Sym): return Sym('(listOf %s)' % args[0].t)
            if isinstance(args[0], (list, tuple)): return list(args[0])
            if isinstance(args[0], dict): return list(args[0])
        if n == 'set' and not args: return []
        if n == 'hasattr' and args[1] in ('__pydantic_extra__', 'model_extra'): return Cond('true')
        if n == 'hasattr' and isinstance(args[0], Sym): return Cond('(get %s %s).isSome' % (args[0].t, lstr(args[1])))
        if n == 'is_null':
            if isinstance(args[0], Sym): return Cond('V.isNone %s' % args[0].t)
        if n == 'validate_patterned_key' and isinstance(args[0], str):
            self.emit('check (Patterns.patternedKey %s)' % lstr(args[0]))
            return None
        raise Unsupported('call ' + n)

    def isinst(self, v, c):
        if isinstance(c, tuple):
            rs = [self.isinst(v, Cls(x) if isinstance(x, str) else x) for x in c]
            return Cond(' || '.join('(%s)' % self.cond(r) for r in rs))
        if isinstance(v, Sym):
            if isinstance(c, Cls): return Cond('isA .%s %s' % (c.n, v.t))
            if isinstance(c, Builtin):
                d = {'dict': 'isDict', 'list': 'isList', 'str': 'isStr', 'AnyUrl': 'isUrl', 'bool': 'isBool', 'int': 'isInt'}
                if c.n in d: return Cond('%s %s' % (d[c.n], v.t))
        raise Unsupported('isinstance')

    def method(self, m, args, kw, e):
        o, a = m.obj, m.name
        if isinstance(o, Cls):
            if a == 'model_validate':
                if kw or len(args) != 1: raise Unsupported('model_validate arguments')
                return Sym(self.bind('load .%s %s' % (o.n, lean(args[0]))))
            if a == 'as_builder' and o.n == 'AsyncAPI3' and not args:
                named = {'title': 'title', 'version': 'version', 'description': 'description', 'terms_of_service': 'termsOfService',
                         'contact': 'contact', 'license': 'license', 'tags': 'tags', 'external_docs': 'externalDocs'}
                fs = ', '.join('%s := %s' % (named[k], lean(v)) for k, v in kw.items() if k in named)
                rest = {k: v for k, v in kw.items() if k not in named}
                return Sym(self.bind('Builder.asBuilder env 0 { %s } %s' % (fs, entries(rest))))
            if o.n == 'Reference' and a.startswith('to_') and len(args) == 1 and isinstance(args[0], str):
                return Sym(self.bind('load .Reference (.dict [(p!"$ref", .str (Factory.pre .%s ++ %s))])' % (a, lstr(args[0]))))
        if isinstance(o, Sym):
            if a == 'model_dump':
                for k, v in kw.items():
                    if (k, v) not in (('mode', 'json'), ('by_alias', True), ('mode', 'python'), ('exclude_none', False)):
                        raise Unsupported('model_dump(%s=%r)' % (k, v))
                return Sym('(dump %s)' % o.t)
            if a == 'keys' and not args: return Sym('(listOf %s)' % o.t)
        if isinstance(o, Method) and o.name == 'adapter' and a == 'validate_python':
            return Sym(self.bind('(parseEmail %s).map (·.1)' % lean(args[0])))
        if isinstance(o, dict) and a in ('keys',): return list(o)
        if isinstance(o, str) and a == 'startswith': return o.startswith(args[0])
        if isinstance(o, Validator): return self.validator(a, args, kw)
        if isinstance(o, Ignored): return o
        raise Unsupported('method ' + ast.unparse(e.func))

    def validator(self, a, args, kw):
        if a == '_normalize_path': return Text('Path.normalize .ascii %s' % lstr(args[0]))
        if a == '_path_matches': return Cond('Path.pathMatches %s %s' % (lstr(args[0]), lstr(args[1])))
        if a == '_pattern_specificity': return Score('(Path.specificity %s)' % lstr(args[0]))
        if a == '_get_expected_type_for_path':
            if 'mapping' in self.env: raise Unsupported('monkeypatch')
            return Types(self.bind('expected %s' % lstr(kw['ref_path'])))
        if a == '_is_type_compatible':
            e = kw['expected_type']
            if isinstance(e, Cls): e = (e.n,)
            if isinstance(e, str): raise Unsupported('expected type that is a string')
            return Cond('Unified.compatible table (.cls .%s) [%s]' % (kw['actual_type'].n, ', '.join('.' + n for n in e)))
        if a == 'validate_reference':
            r = self.bind('get %s p!"ref"' % kw['ref_obj'].t)
            self.emit('validateReference %s (match %s with | .str s => s | _ => []) %s' % (kw['spec'].t, r, lstr(kw['ref_path'])))
            if isinstance(kw['validated_refs'], list): kw['validated_refs'].append(Ignored())
            return None
        raise Unsupported('validator.' + a)

    def utils(self, a, e):
        args = [self.ev(x) for x in e.args]
        if a == '_is_external_reference': return Cond('Resolve.isExternal %s' % lstr(args[0]))
        if a == '_parse_reference_path':
            self.emit('check (Resolve.parsePath %s).toOption.isSome' % lstr(args[0]))
            return Ignored()
        if a == 'resolve_reference' and isinstance(args[1], Sym):
            return Resolved(self.bind('resolve %s %s' % (lstr(args[0]), args[1].t)))
        raise Unsupported('utils.' + a)

    # statements
    def body(self, ss):
        for s in ss:
            f = getattr(self, 's_' + type(s).__name__, None)
            if f is None: raise Unsupported('statement ' + type(s).__name__)
            f(s)

    def s_Expr(self, s):
        if isinstance(s.value, ast.Constant): return
        self.ev(s.value)
    def s_Pass(self, s): pass
    def s_Return(self, s): raise Return(self.ev(s.value) if s.value else None)
    def s_Assert(self, s): self.emit('check (%s)' % self.cond(self.ev(s.test)))
    def s_AnnAssign(self, s): self.assign(s.target, self.ev(s.value))
    def s_Assign(self, s):
        v = self.ev(s.value)
        for t in s.targets: self.assign(t, v)
    def assign(self, t, v):
        if isinstance(t, ast.Name): self.env[t.id] = v
        elif isinstance(t, ast.Tuple) and isinstance(v, tuple):
            for x, y in zip(t.elts, v): self.assign(x, y)
        elif isinstance(t, ast.Attribute) and isinstance(t.value, ast.Name) and isinstance(self.ev(t.value), Sym):
            self.env[t.value.id] = Sym(self.bind('assign %s %s %s' % (self.ev(t.value).t, lstr(t.attr), lean(v))))
        elif isinstance(t, ast.Subscript) and isinstance(t.value, ast.Name) and isinstance(self.ev(t.value), Sym) and isinstance(self.ev(t.slice), str):
            self.env[t.value.id] = Sym(self.bind('setItem %s %s %s' % (self.ev(t.value).t, lstr(self.ev(t.slice)), lean(v))))
        elif isinstance(t, ast.Subscript) and isinstance(t.value, ast.Name) and isinstance(self.ev(t.value), dict):
            self.ev(t.value)[self.ev(t.slice)] = v
        else: raise Unsupported('assignment to ' + ast.unparse(t))
    def s_Delete(self, s):
        for t in s.targets:
            if isinstance(t, ast.Subscript) and isinstance(t.value, ast.Name) and isinstance(self.ev(t.value), Sym):
                self.env[t.value.id] = Sym(self.bind('delItem %s %s' % (self.ev(t.value).t, lstr(self.ev(t.slice)))))
            else: raise Unsupported('del')
    def s_If(self, s):
        v = self.ev(s.test)
        if isinstance(v, (Cond, Sym)) or not concrete(v): raise Unsupported('if')
        self.body(s.body if v else s.orelse)
    def s_For(self, s):
        v = self.ev(s.iter)
        if not isinstance(v, (list, tuple)) : raise Unsupported('for')
        for x in v:
            self.assign(s.target, x)
            self.body(s.body)
    def s_With(self, s):
        if len(s.items) != 1: raise Unsupported('with')
        c = s.items[0]
        t = ast.unparse(c.context_expr)
        if t.startswith('pytest.raises'):
            saved, self.lines = self.lines, []
            self.body(s.body)
            inner, self.lines = self.lines, saved
            if not inner: raise Unsupported('nothing raised')
            if inner[-1].startswith('let '):
                last = inner[-1].split(' ← ', 1)[1]
                inner = inner[:-1] + ['discard (%s)' % last]
            self.emit('raises (do\n    ' + '\n    '.join(inner) + ' : Option Unit)')
            call = c.context_expr
            text = [k.value.value for k in call.keywords if k.arg == 'match' and isinstance(k.value, ast.Constant)]
            if len(inner) == 1 and text:
                for num, fn in ((1, 'tagText'), (2, 'docText')):
                    tail = ', (%s, (.list [(.proc %d)]))]' % (lstr('extra_validators'), num)
                    if tail in inner[0]:
                        self.emit('says %s %s (%s)' % (fn, lstr(text[0]), inner[0].replace('discard (', '', 1)[:-1].replace(tail, ']')))
            if c.optional_vars is not None: self.assign(c.optional_vars, Ignored())
        elif 'caplog' in t:
            self.body(s.body)
        else: raise Unsupported('with ' + t)

BUILTINS = {'any', 'len', 'isinstance', 'str', 'list', 'set', 'hasattr', 'dict', 'int', 'bool', 'tuple'}

def camel(s):
    return s

def module_env(tree):
    env = {}
    for s in tree.body:
        if isinstance(s, ast.ImportFrom) and s.module:
            for a in s.names:
                n = 'ComponentsTags' if s.module.endswith('.components') and a.name == 'Tags' else a.name
                if n in classes: env[a.asname or a.name] = Cls(n)
                elif a.name in PROCS: env[a.asname or a.name] = Proc(PROCS[a.name])
                elif a.name.endswith('RefValidator'): env[a.asname or a.name] = Proc(3)
                elif a.name in ('AnyUrl', 'HttpUrl', 'is_null', 'validate_patterned_key', 'TypeAdapter', 'EmailStr'): env[a.asname or a.name] = Builtin(a.name)
                elif a.name in ('ValidationError',): env[a.asname or a.name] = Ignored()
        elif isinstance(s, ast.FunctionDef): env[s.name] = Func(s, env)
        elif isinstance(s, (ast.Assign, ast.AnnAssign)) and s.value is not None:
            t = s.targets[0] if isinstance(s, ast.Assign) else s.target
            try:
                if isinstance(t, ast.Name): env[t.id] = Run(dict(env)).ev(s.value)
            except Unsupported:
                pass
    return env

def parametrizations(node, env):
    """The argument assignments (name -> thunk) of a test."""
    outs = [('', {})]
    for d in node.decorator_list:
        if not isinstance(d, ast.Call): raise Unsupported('decorator')
        n = ast.unparse(d.func)
        if n == 'parametrize_with_cases':
            names = ast.literal_eval(d.args[0])
            kws = {k.arg: k.value for k in d.keywords}
            if not isinstance(kws.get('cases'), ast.List): raise Unsupported('cases')
            cs = [c.id for c in kws['cases'].elts]
            names = [x.strip() for x in names.split(',')] if isinstance(names, str) else list(names)
            outs = [(l + '_' + c, dict(o, **{'__case__': (names, env[c])})) for l, o in outs for c in cs]
        elif n == 'pytest.mark.parametrize':
            names = ast.literal_eval(d.args[0])
            names = [x.strip() for x in names.split(',')] if isinstance(names, str) else list(names)
            vals = d.args[1]
            outs = [(l, dict(o, **{'__params__': (names, vals)})) for l, o in outs]
        else: raise Unsupported('decorator ' + n)
    return outs

def run_test(node, env, extra, setup=None):
    """Yields (suffix, lines)."""
    for suffix, p in parametrizations(node, env):
        variants = [None]
        if '__params__' in p:
            names, vals = p['__params__']
            r0 = Run(dict(env))
            if isinstance(vals, ast.Call) and ast.unparse(vals.func) == 'list': vals = vals.args[0]
            if isinstance(vals, ast.Call) and ast.unparse(vals.func).endswith('.items'):
                variants = [tuple(x) for x in r0.ev(vals.func.value).items()]
            else:
                variants = r0.ev(vals)
                if r0.lines: raise Unsupported('symbolic parameters')
            if len(names) == 1: variants = [(v,) for v in variants]
        for i, v in enumerate(variants):
            r = Run(dict(env))
            r.env.update(extra)
            if '__case__' in p:
                names, fn = p['__case__']
                x = r.call(fn, [], {})
                r.env.update(zip(names, x if len(names) > 1 else (x,)))
            if v is not None: r.env.update(zip(p['__params__'][0], v))
            r.env.setdefault('caplog', Ignored())
            try:
                r.body(node.body)
            except Return:
                pass
            yield suffix + ('_%d' % i if len(variants) > 1 else ''), r.lines

def main():
    done, skipped = [], []
    per_file = {}
    for f in sorted(glob.glob(TESTS + '/**/test_*.py', recursive=True)):
        rel = os.path.relpath(f, '/repo')
        tree = ast.parse(open(f).read())
        env = module_env(tree)
        units = []
        for s in tree.body:
            if isinstance(s, ast.FunctionDef) and s.name.startswith('test_'): units.append((s, {}))
            if isinstance(s, ast.ClassDef) and s.name.startswith('Test'):
                helpers = {m.name: Func(m, env) for m in s.body if isinstance(m, ast.FunctionDef) and not m.name.startswith('test_')}
                class Self: pass
                for m in s.body:
                    if isinstance(m, ast.FunctionDef) and m.name.startswith('test_'): units.append((m, helpers))
        for m, helpers in units:
            try:
                e = dict(env)
                # self._build_spec() and the like
                node = ast.parse(ast.unparse(m)).body[0]
                class Fix(ast.NodeTransformer):
                    def visit_Attribute(self, n):
                        self.generic_visit(n)
                        if isinstance(n.value, ast.Name) and n.value.id == 'self' and n.attr in helpers:
                            return ast.copy_location(ast.Name(id=n.attr, ctx=ast.Load()), n)
                        return n
                node = Fix().visit(node)
                hs = {}
                for k, h in helpers.items():
                    h2 = ast.parse(ast.unparse(h.node)).body[0]
                    h2.args.args = [a for a in h2.args.args if a.arg != 'self']
                    hs[k] = Func(h2, env)
                for suffix, lines in run_test(node, e, hs):
                    if not lines: raise Unsupported('no check')
                    per_file.setdefault(rel, []).append((m.name + suffix, m.lineno, lines))
                    done.append(m.name)
            except Unsupported as x:
                skipped.append((rel, m.lineno, m.name, str(x)[:100]))
            except (KeyError, AttributeError, TypeError, IndexError) as x:
                skipped.append((rel, m.lineno, m.name, 'translator: %r' % (x,)))
    # tests/test_base_validation.py
    skipped = [x for x in skipped if x[0] != 'tests/test_base_validation.py']
    docs = []
    for f in sorted(glob.glob(TESTS + '/fixtures/json_specs/valid/*')):
        docs.append((f, json.load(open(f))))
    for f in sorted(glob.glob(TESTS + '/fixtures/yaml_specs/valid/single_file/*') + glob.glob(TESTS + '/fixtures/yaml_specs/valid/multi_files/*/asyncapi.yaml')):
        docs.append((f, miniyaml.load(open(f).read())))
    per_file['tests/test_base_validation.py'] = [
        (os.path.relpath(f, TESTS + '/fixtures'), 27, ['discard (load .AsyncAPI3 %s)' % lean(v)]) for f, v in docs]
    return per_file, skipped

if __name__ == '__main__':
    per_file, skipped = main()
    print(sum(len(v) for v in per_file.values()), 'translated', len(skipped), 'skipped')
    if len(sys.argv) > 1 and sys.argv[1] == '-s':
        for s in skipped: print(s)
    json.dump(per_file, open('/tmp/conf.json', 'w'))
    # write
    for rel, tests in sorted(per_file.items()):
        name = ''.join(w.capitalize() for w in os.path.basename(rel)[5:-3].split('_'))
        if '/bindings/' in rel: name = 'Bindings' + name
        out = ['import Verif.Conformance.Support', '', '/-! Translated from %s by tools/gen_conformance.py. -/' % rel, '',
               'set_option maxRecDepth 100000', 'set_option linter.unusedVariables false', 'namespace Verif.Conformance', 'open Verif Verif.Gen Verif.Pyd', '']
        for t, line, lines in tests:
            lines = list(lines)
            if lines[-1].startswith('let '): lines[-1] = 'discard (%s)' % lines[-1].split(' ← ', 1)[1]
            out.append('/-- `%s`, %s:%d -/' % (t, rel, line))
            out.append('example : (do\n  ' + '\n  '.join(lines) + ' : Option Unit).isSome = true := by decide +kernel\n')
        out.append('end Verif.Conformance')
        open(os.path.join(OUT, name + '.lean'), 'w').write('\n'.join(out) + '\n')
