"""The part of YAML 1.1 (as PyYAML's safe_load reads it) that /repo/tests uses. Anything else raises Unsupported."""
import re

class Unsupported(Exception):
    pass

INT = re.compile(r'[-+]?(0|[1-9][0-9_]*)$')
FLOAT = re.compile(r'[-+]?([0-9][0-9_]*)\.[0-9_]*([eE][-+][0-9]+)?$|[-+]?\.[0-9][0-9_]*([eE][-+][0-9]+)?$')
DATE = re.compile(r'\d\d\d\d-\d\d?-\d\d?')
ODD = re.compile(r'[-+]?0[0-7_]+$|0x|0b|[-+]?\.(inf|nan)|[-+]?[0-9][0-9_]*(:[0-5]?[0-9])+(\.[0-9_]*)?$', re.I)

def plain(s):
    if s in ('', '~', 'null', 'Null', 'NULL'):
        return None
    if s in ('true', 'True', 'TRUE', 'yes', 'Yes', 'YES', 'on', 'On', 'ON'):
        return True
    if s in ('false', 'False', 'FALSE', 'no', 'No', 'NO', 'off', 'Off', 'OFF'):
        return False
    if INT.match(s):
        return int(s.replace('_', ''))
    if FLOAT.match(s):
        return float(s.replace('_', ''))
    if DATE.match(s) or ODD.match(s):
        raise Unsupported('scalar ' + s)
    if s[0] in '&*!%@`':
        raise Unsupported('scalar ' + s)
    return s

def unquote(s):
    if s[0] == "'":
        return s[1:-1].replace("''", "'")
    out = ''
    i = 1
    while i < len(s) - 1:
        if s[i] == '\\':
            i += 1
            m = {'n': '\n', 't': '\t', '"': '"', '\\': '\\', '/': '/', 'r': '\r', '0': '\0', ' ': ' '}
            if s[i] == 'u':
                out += chr(int(s[i + 1:i + 5], 16))
                i += 4
            elif s[i] == 'U':
                out += chr(int(s[i + 1:i + 9], 16))
                i += 8
            elif s[i] in m:
                out += m[s[i]]
            else:
                raise Unsupported('escape ' + s)
        else:
            out += s[i]
        i += 1
    return out

def quoted_end(s, i):
    q = s[i]
    i += 1
    while i < len(s):
        if q == '"' and s[i] == '\\':
            i += 2
            continue
        if s[i] == q:
            if q == "'" and i + 1 < len(s) and s[i + 1] == "'":
                i += 2
                continue
            return i + 1
        i += 1
    return None

def strip_comment(s):
    i = 0
    while i < len(s):
        if s[i] in '"\'' and (i == 0 or s[i - 1] in ' [{,:'):
            j = quoted_end(s, i)
            if j is None:
                return s
            i = j
            continue
        if s[i] == '#' and (i == 0 or s[i - 1] in ' \t'):
            return s[:i].rstrip()
        i += 1
    return s.rstrip()

def key_split(s):
    """`key: rest`, or None."""
    if not s:
        return None
    if s[0] in '"\'':
        j = quoted_end(s, 0)
        if j is not None and s[j:j + 1] == ':' and (len(s) == j + 1 or s[j + 1] == ' '):
            return unquote(s[:j]), s[j + 1:].strip()
        return None
    if s[0] in '[{':
        return None
    m = re.search(r':( |$)', s)
    if not m:
        return None
    k = plain(s[:m.start()].strip())
    if not isinstance(k, str):
        raise Unsupported('key %r' % (k,))
    return k, s[m.end():].strip()

class Flow:
    def __init__(self, s):
        self.s, self.i = s, 0

    def ws(self):
        while self.i < len(self.s) and self.s[self.i] in ' \t\n':
            self.i += 1

    def value(self):
        self.ws()
        c = self.s[self.i]
        if c == '[':
            self.i += 1
            out = []
            while True:
                self.ws()
                if self.s[self.i] == ']':
                    self.i += 1
                    return out
                out.append(self.value())
                self.ws()
                if self.s[self.i] == ',':
                    self.i += 1
        if c == '{':
            self.i += 1
            out = {}
            while True:
                self.ws()
                if self.s[self.i] == '}':
                    self.i += 1
                    return out
                k = self.scalar(':')
                if not isinstance(k, str):
                    raise Unsupported('key %r' % (k,))
                self.ws()
                assert self.s[self.i] == ':', self.s
                self.i += 1
                out[k] = self.value()
                self.ws()
                if self.s[self.i] == ',':
                    self.i += 1
        return self.scalar('')

    def scalar(self, stop):
        self.ws()
        if self.s[self.i] in '"\'':
            j = quoted_end(self.s, self.i)
            r = unquote(self.s[self.i:j])
            self.i = j
            return r
        j = self.i
        while j < len(self.s) and self.s[j] not in ',]}' and not (self.s[j] == ':' and (j + 1 == len(self.s) or self.s[j + 1] in ' \n')):
            j += 1
        r = plain(self.s[self.i:j].strip())
        self.i = j
        return r

class Block:
    def __init__(self, text):
        self.lines = text.split('\n')
        self.i = 0

    def skip(self):
        while self.i < len(self.lines):
            t = self.lines[self.i].strip()
            if t == '' or t.startswith('#') or t == '---':
                self.i += 1
            else:
                break

    def indent(self):
        l = self.lines[self.i]
        if '\t' in l[:len(l) - len(l.lstrip())]:
            raise Unsupported('tab')
        return len(l) - len(l.lstrip(' '))

    def node(self, ind):
        """A node whose lines are indented by at least `ind`."""
        self.skip()
        if self.i >= len(self.lines) or self.indent() < ind:
            return None
        n = self.indent()
        t = self.lines[self.i].strip()
        if t.startswith('- ') or t == '-':
            return self.seq(n)
        if key_split(strip_comment(t)):
            return self.map(n)
        return self.inline(strip_comment(t), ind, consume=True)

    def seq(self, n):
        out = []
        while True:
            self.skip()
            if self.i >= len(self.lines) or self.indent() != n:
                break
            l = self.lines[self.i]
            t = l.strip()
            if not (t.startswith('- ') or t == '-'):
                break
            rest = l[n + 1:]
            m = n + 1 + (len(rest) - len(rest.lstrip(' ')))
            t = strip_comment(rest.strip())
            if t == '':
                self.i += 1
                out.append(self.node(n + 1))
            elif t.startswith('- ') or key_split(t):
                self.lines[self.i] = ' ' * m + rest.strip()
                out.append(self.node(m))
            else:
                out.append(self.inline(t, n + 1))
        return out

    def map(self, n):
        out = {}
        while True:
            self.skip()
            if self.i >= len(self.lines) or self.indent() != n:
                break
            t = strip_comment(self.lines[self.i].strip())
            kv = key_split(t)
            if not kv:
                raise Unsupported('line ' + t)
            k, rest = kv
            if rest.startswith('&') or rest.startswith('*') or k == '<<':
                raise Unsupported('anchor')
            if rest == '':
                self.i += 1
                self.skip()
                if self.i < len(self.lines) and self.indent() == n and self.lines[self.i].strip().startswith('- '):
                    v = self.seq(n)
                else:
                    v = self.node(n + 1)
            else:
                v = self.inline(rest, n + 1)
            if k in out:
                raise Unsupported('duplicate key ' + k)
            out[k] = v
        if self.i < len(self.lines):
            self.skip()
            if self.i < len(self.lines) and self.indent() > n:
                raise Unsupported('indentation: ' + self.lines[self.i])
        return out

    def inline(self, t, ind, consume=False):
        """A scalar or flow node starting on the current line with `t`; continuation lines have indentation >= ind."""
        if t[0] in '|>':
            return self.blockscalar(t, ind)
        self.i += 1
        if t[0] in '[{':
            while True:
                try:
                    f = Flow(t)
                    v = f.value()
                    if f.s[f.i:].strip():
                        raise Unsupported('after flow: ' + t)
                    return v
                except IndexError:
                    if self.i >= len(self.lines):
                        raise Unsupported('flow ' + t)
                    t += ' ' + strip_comment(self.lines[self.i].strip())
                    self.i += 1
        if t[0] in '"\'':
            while True:
                j = quoted_end(t, 0)
                if j is not None:
                    if t[j:].strip():
                        raise Unsupported('after quote: ' + t)
                    return unquote(t[:j])
                u = self.lines[self.i].strip()
                if u == '':
                    raise Unsupported('blank line in quotes')
                t = t[:-1] + u if t[0] == '"' and t.endswith('\\') else t + ' ' + u
                self.i += 1
        multi = False
        while self.i < len(self.lines):
            l = self.lines[self.i]
            if l.strip() == '':
                k = self.i
                while k < len(self.lines) and self.lines[k].strip() == '':
                    k += 1
                if k < len(self.lines) and len(self.lines[k]) - len(self.lines[k].lstrip()) >= ind and not self.lines[k].strip().startswith('#'):
                    raise Unsupported('blank line in plain scalar')
                break
            if len(l) - len(l.lstrip()) < ind or l.strip().startswith('#'):
                break
            u = strip_comment(l.strip())
            if key_split(u):
                raise Unsupported('plain scalar followed by ' + u)
            t += ' ' + u
            multi = True
            self.i += 1
        return t if multi else plain(t)

    def blockscalar(self, t, ind):
        style, chomp = t[0], t[1:2]
        if t[1:] not in ('', '-', '+'):
            raise Unsupported(t)
        self.i += 1
        ls = []
        n = None
        while self.i < len(self.lines):
            l = self.lines[self.i]
            if l.strip() == '':
                ls.append('')
                self.i += 1
                continue
            k = len(l) - len(l.lstrip(' '))
            if n is None:
                if k < ind:
                    break
                n = k
            if k < n:
                break
            ls.append(l[n:])
            self.i += 1
        trailing = 0
        while ls and ls[-1] == '':
            ls.pop()
            trailing += 1
        if style == '|':
            s = '\n'.join(ls)
        else:
            if any(x.startswith(' ') for x in ls):
                raise Unsupported('folded, more indented')
            s = ''
            prev = None
            blanks = 0
            for x in ls:
                if x == '':
                    blanks += 1
                    continue
                if prev is not None:
                    s += '\n' * blanks if blanks else ' '
                s += x
                prev = x
                blanks = 0
        if chomp == '-':
            return s
        if chomp == '+':
            return s + '\n' * (trailing + 1)
        return s + '\n' if ls else s

def load(text):
    b = Block(text)
    b.skip()
    if b.i >= len(b.lines):
        return None
    v = b.node(0)
    b.skip()
    if b.i < len(b.lines):
        raise Unsupported('rest: ' + b.lines[b.i])
    return v
