#!/usr/bin/env python3
"""Translates bodies of functions in /repo into programs of Verif/Cpp/Semantics.lean.

The translation is syntactic: it parses, resolves names to numbers of variables and
arrays, substitutes template arguments, and writes one statement per line with the line
it comes from.  Types of values, promotions and conversions are left to the semantics.
Usage: cpp2lean.py   (writes lean/Verif/Cpp/Src/*.lean)
"""
import re, sys, os

REPO = '/repo/'
OUT = '/verif/lean/Verif/Cpp/Src/'

TYPES = {'bool': 'bool', 'uint8_t': 'u8', 'unsigned char': 'u8', 'uint32_t': 'u32', 'unsigned': 'u32',
         'unsigned int': 'u32', 'uint64_t': 'u64', 'size_t': 'u64', 'int': 'i32'}
SIZE = {'bool': 1, 'u8': 1, 'u32': 4, 'u64': 8, 'i32': 4}
TOK = re.compile(r'\s+|//[^\n]*|/\*.*?\*/|(?P<t>"[^"]*"|\x27\\x[0-7][0-9a-f]\x27|0[xX][0-9a-fA-F]+[uUlL]*|\d+[uUlL]*|[A-Za-z_]\w*|<<=|>>=|::|<<|>>|<=|>=|==|!=|&&|\|\||\+\+|--|[-+*/%&|^]=|[-+*/%&|^~!<>=?:;,.(){}\[\]])', re.S)
PREC = {'||': 1, '&&': 2, '|': 3, '^': 4, '&': 5, '==': 6, '!=': 6, '<': 7, '>': 7, '<=': 7, '>=': 7,
        '<<': 8, '>>': 8, '+': 9, '-': 9, '*': 10, '/': 10, '%': 10}
OPS = {'|': 'or', '^': 'xor', '&': 'and', '==': 'eq', '!=': 'ne', '<': 'lt', '>': 'gt', '<=': 'le', '>=': 'ge',
       '<<': 'shl', '>>': 'shr', '+': 'add', '-': 'sub', '*': 'mul', '/': 'div', '%': 'mod'}


def tokens(text):
    out, i = [], 0
    while i < len(text):
        m = TOK.match(text, i)
        if not m:
            raise SyntaxError(text[i:i + 40])
        if m.group('t'):
            # a character below 0x80 is a number: '\x01' is 0x01
            out.append((m.group('t').replace("'", '').replace('\\', '0'), text.count('\n', 0, m.start()) + 1, m.start(), m.end()))
        i = m.end()
    return out


class Source:
    def __init__(self, path):
        self.path = path
        raw = open(REPO + path).read()
        # preprocessor lines are blanked (none is inside a translated function)
        self.text = '\n'.join('' if l.lstrip().startswith('#') else l for l in raw.split('\n'))
        self.lines = self.text.split('\n')

    def function(self, pattern, nth=0):
        """The parameters and the body of the function whose head matches."""
        m = list(re.finditer(pattern, self.text))[nth]
        i = m.end() - 1
        assert self.text[i] == '(', (pattern, self.text[m.start():m.end()])
        d, j = 0, i
        while True:
            d += {'(': 1, ')': -1}.get(self.text[j], 0)
            j += 1
            if d == 0:
                break
        params = self.text[i + 1:j - 1]
        k = self.text.index('{', j)
        d, e = 0, k
        while True:
            d += {'{': 1, '}': -1}.get(self.text[e], 0)
            e += 1
            if d == 0:
                break
        line0 = self.text.count('\n', 0, k)
        toks = [(t, l + line0, a + k, b + k) for t, l, a, b in tokens(self.text[k:e])]
        return params, toks, self.text.count('\n', 0, m.start()) + 1, self.text.count('\n', 0, e) + 1


def params_of(text):
    """[(type, pointer/reference mark, name)] of a parameter list."""
    out = []
    text = re.sub(r'std::array<(\w+),\s*\w+>\s*&', r'\1 @', text)
    for p in filter(None, (x.strip() for x in text.split(','))):
        p = re.sub(r'\bconst\b', '', p).strip()
        m = re.match(r'(.*?)\s*([*&@]?)\s*(\w+)$', p)
        out.append((' '.join(m.group(1).split()), m.group(2), m.group(3)))
    return out


class Parser:
    def __init__(self, toks, templates):
        self.t, self.i, self.templates = toks, 0, templates

    def peek(self, k=0):
        return self.t[self.i + k][0] if self.i + k < len(self.t) else ''

    def line(self):
        return self.t[self.i][1]

    def next(self, want=None):
        t = self.t[self.i][0]
        if want is not None and t != want:
            raise SyntaxError('line %d: %s instead of %s' % (self.line(), t, want))
        self.i += 1
        return t

    # ---- types
    def type_here(self):
        """The length of a type at this place, or 0."""
        i = self.i
        n = 0
        while self.peek(n) == 'const' or self.peek(n) == 'static':
            n += 1
        if self.peek(n) == 'unsigned' and self.peek(n + 1) in ('char', 'int'):
            return n + 2
        if self.peek(n) in TYPES or self.peek(n) in self.templates.get('types', {}) or self.peek(n) == 'auto':
            if self.peek(n + 1) in ('<', '::'):
                return 0
            return n + 1
        return 0

    def type_name(self):
        n = self.type_here()
        assert n, 'line %d: type expected at %s' % (self.line(), self.peek())
        ws = [self.next() for _ in range(n)]
        t = ' '.join(w for w in ws if w not in ('const', 'static'))
        return self.templates.get('types', {}).get(t, t)

    # ---- expressions
    def expr(self, p=0):
        x = self.unary()
        if self.peek() in ('++', '--'):       # m[pos++], 8*i++
            x = ('post', x, self.next()[0])
        while self.peek() in PREC and PREC[self.peek()] > p:
            o = self.next()
            y = self.expr(PREC[o])
            x = ('bin', o, x, y)
        if p == 0 and self.peek() == '?':
            self.next()
            y = self.expr()
            self.next(':')
            z = self.expr()
            x = ('cond', x, y, z)
        return x

    def unary(self):
        t = self.peek()
        if t == '[':            # [this](const unsigned char* data, size_t len) { transform(data, len); }
            a = self.i
            while self.peek() != '}':
                self.next()
            self.next('}')
            want = '[ this ] ( const unsigned char * data , size_t len ) { %s ; }' % self.templates.get('callback', 'transform ( data , len )')
            assert [x[0] for x in self.t[a:self.i]] == want.split(), self.t[a:self.i]
            return ('lambda',)
        if t in ('~', '!'):
            self.next()
            return ('un', t, self.unary())
        if t == '&':
            self.next()
            return ('addr', self.unary())
        if t == '(' :
            self.next()
            if self.type_here():
                ty = self.type_name()
                self.next(')')
                return ('cast', ty, self.unary())
            x = self.expr()
            self.next(')')
            return self.postfix(x)
        return self.postfix(self.primary())

    def primary(self):
        t = self.next()
        if re.match(r'\d', t):
            return ('num', t)
        if t in ('true', 'false'):
            return ('bool', t)
        if t in ('static_cast', 'reinterpret_cast'):
            self.next('<')
            ty = self.type_name()
            ptr = False
            if self.peek() == '*':
                self.next()
                ptr = True
            self.next('>')
            self.next('(')
            x = self.expr()
            self.next(')')
            return ('recast', ty, x) if ptr else ('cast', ty, x)
        if t == 'sizeof':
            self.next('(')
            if self.type_here():
                r = ('sizeof', self.type_name())
            else:
                r = ('sizeof', self.expr())
            self.next(')')
            return r
        name = t
        args = None
        while True:
            if self.peek() == '<' and (name.endswith('_constants') or name.split('::')[-1] in self.templates.get('functions', ())):
                self.next()
                args = []
                while self.peek() != '>':
                    if self.type_here() or self.peek() == 'void':
                        args.append(self.type_name() if self.type_here() else self.next())
                    else:
                        args.append(self.expr(PREC['>']))
                    if self.peek() == ',':
                        self.next()
                self.next('>')
            elif self.peek() == '::':
                self.next()
                name += '::' + self.next()
            else:
                break
        return ('name', name, args)

    def postfix(self, x):
        while True:
            t = self.peek()
            if t == '[':
                self.next()
                i = self.expr()
                self.next(']')
                x = ('index', x, i)
            elif t == '(':
                self.next()
                args = []
                while self.peek() != ')':
                    args.append(self.expr())
                    if self.peek() == ',':
                        self.next()
                self.next(')')
                x = ('call', x, args)
            elif t == '.':
                self.next()
                x = ('member', x, self.next())
            else:
                return x

    # ---- statements
    def block(self):
        self.next('{')
        out = []
        while self.peek() != '}':
            out.append(self.stmt())
        self.next('}')
        return out

    def body(self):
        return self.block() if self.peek() == '{' else [self.stmt()]

    def simple(self):
        """A statement without its semicolon; a list for several declarators or comma expressions."""
        a = self.line()
        if self.type_here():
            ty = self.type_name()
            out = []
            while True:
                ptr = False
                if self.peek() == '*':
                    self.next()
                    ptr = True
                name = self.next()
                if self.peek() == '[':
                    dims = []
                    while self.peek() == '[':
                        self.next()
                        dims.append(self.expr())
                        self.next(']')
                    out.append(('array', a, ty, name, dims))
                elif self.peek() == '=':
                    self.next()
                    out.append(('ptrdecl' if ptr else 'decl', a, ty, name, self.expr()))
                else:
                    out.append(('declare', a, ty, name))
                if self.peek() != ',':
                    return out
                self.next()
        out = []
        while True:
            if self.peek() in ('++', '--'):
                o = self.next()
                out.append(('assign', a, o[0] + '=', self.unary(), ('num', '1')))
            else:
                x = self.unary()
                t = self.peek()
                if t in ('++', '--'):
                    self.next()
                    out.append(('assign', a, t[0] + '=', x, ('num', '1')))
                elif t == '=' or (len(t) >= 2 and t[-1] == '=' and t[:-1] in PREC and t not in ('<=', '>=', '==', '!=')):
                    self.next()
                    out.append(('assign', a, t, x, self.expr()))
                else:
                    out.append(('call', a, x))
            if self.peek() != ',':
                return out
            self.next()

    def stmt(self):
        a = self.line()
        t = self.peek()
        if t == '{':
            return ('scope', a, self.block())
        if t == ';':
            self.next()
            return ('scope', a, [])
        if t == 'return':
            self.next()
            if self.peek() == ';':
                self.next()
                return ('leave', a)
            x = self.expr()
            self.next(';')
            return ('return', a, x)
        if t == 'for':
            self.next()
            self.next('(')
            init = self.simple() if self.peek() != ';' else []
            self.next(';')
            c = self.expr()
            self.next(';')
            step = self.simple()
            self.next(')')
            return ('for', a, init, c, step, self.body())
        if t == 'while':
            self.next()
            self.next('(')
            i = self.i
            x = self.unary()
            t = self.peek()
            if len(t) >= 2 and t[-1] == '=' and t[:-1] in PREC and t not in ('<=', '>=', '==', '!='):      # while (tmp >>= 8)
                self.next()
                c = ('assign', a, t, x, self.expr())
            else:
                self.i = i
                c = self.expr()
            self.next(')')
            return ('while', a, c, self.body())
        if t == 'switch':
            self.next()
            self.next('(')
            c = self.expr()
            self.next(')')
            self.next('{')
            cases = []
            while self.peek() != '}':
                l = self.line()
                if self.next() == 'case':
                    v = self.expr()
                else:
                    v = None
                self.next(':')
                ss = []
                while self.peek() not in ('case', 'default', '}'):
                    ss.append(self.stmt())
                cases.append((l, v, ss))
            self.next('}')
            return ('switch', a, c, cases)
        if t == 'std' and self.peek(2) == 'string':   # std::string name = ...;  the array is given
            while self.next() != ';':
                pass
            return ('string', a)
        if t == 'if':
            self.next()
            self.next('(')
            c = self.expr()
            self.next(')')
            s = self.body()
            e = []
            if self.peek() == 'else':
                self.next()
                e = self.body()
            return ('if', a, c, s, e)
        x = self.simple()
        self.next(';')
        return ('many', a, x)


def literal(t):
    m = re.match(r'(0[xX][0-9a-fA-F]+|\d+)([uUlL]*)$', t)
    v, suf = int(m.group(1), 0), m.group(2).lower()
    if len(m.group(1)) > 1 and m.group(1)[0] == '0' and m.group(1)[1] not in 'xX':
        v = int(m.group(1), 8)
    hexa = m.group(1)[:2].lower() == '0x'
    show = m.group(1)
    if 'l' in suf:
        assert 'u' in suf, t
        return '.lit (.u64 %s)' % show
    if suf == 'u':
        return '.lit (.u32 %s)' % show if v < 2 ** 32 else '.lit (.u64 %s)' % show
    if v < 2 ** 31:
        return '.lit (.i32 %s)' % show
    if hexa and v < 2 ** 32:
        return '.lit (.u32 %s)' % show
    raise SyntaxError('literal ' + t)


def dedent(txt, n):
    """Lines after the first, indented less."""
    ls = txt.split('\n')
    return '\n'.join([ls[0]] + [l[2 * n:] if l.startswith('  ' * n) else l for l in ls[1:]])


class Gen:
    """Names in scope: ('var', lean number), ('arr', lean number), ('arg', k), ('lean', text), ('fun', lean text), ('size', ...)."""

    def __init__(self, src, names, templates, funcs, nargs=0):
        self.src, self.templates, self.funcs = src, templates, funcs
        self.scopes = [dict(names)]
        self.depth = nargs          # number of variables so far
        self.base = ''              # '' or 'dep + '
        self.arrays = []            # hoisted local arrays
        self.defs = []              # the loops, as definitions of their own

    def look(self, n):
        for s in reversed(self.scopes):
            if n in s:
                return s[n]
        raise KeyError(n)

    def ty(self, t):
        t = self.templates.get('types', {}).get(t, t)
        return TYPES[t]

    def slot(self, k):
        return '(%s%d)' % (self.base, k) if self.base else str(k)

    def par(self, s):
        return s if re.match(r'^[\w.]+$', s) else '(%s)' % s

    def e(self, x):
        return self.par(self.expr(x))

    def args(self, xs):
        r = '.nil'
        for x in reversed(xs):
            r = '.push %s %s' % (self.par(x), self.par(r))
        return r

    def table(self, x):
        """Lean text of a constant array, or None."""
        if x[0] == 'name' and x[1] in self.templates.get('tables', {}):
            return self.templates['tables'][x[1]]
        if x[0] == 'index' and x[1][0] == 'name' and x[1][1] in self.templates.get('tables2', {}):
            if x[2][0] == 'num':
                return self.templates['tables2'][x[1][1]] % x[2][1]
        return None

    def expr(self, x):
        k = x[0]
        if k == 'num':
            return literal(x[1])
        if k == 'bool':
            return '.lit (.bool %s)' % x[1]
        if k == 'name':
            n = x[1]
            if n in self.templates.get('consts', {}):
                return self.templates['consts'][n]
            v = self.look(n)
            if v[0] == 'var':
                return '.var %s' % v[1]
            if v[0] == 'arg':
                return '.arg %s' % v[1]
            if v[0] == 'arr':
                return '.addr %s (.lit (.i32 0))' % v[1]
            if v[0] == 'lean':
                return v[1]
            raise KeyError(n)
        if k == 'bin':
            if x[1] == '&&':
                return '.land %s %s' % (self.e(x[2]), self.e(x[3]))
            if x[1] == '||':
                return '.lor %s %s' % (self.e(x[2]), self.e(x[3]))
            return '.bin .%s %s %s' % (OPS[x[1]], self.e(x[2]), self.e(x[3]))
        if k == 'post':                 # the variable is changed after the statement, which has to be an assignment and must not use it elsewhere
            self.posts.append((x[1][1], x[2]))
            return self.expr(x[1])
        if k == 'un':
            return '.%s %s' % ({'~': 'bnot', '!': 'lnot'}[x[1]], self.e(x[2]))
        if k == 'cond':
            return '.cond %s %s %s' % (self.e(x[1]), self.e(x[2]), self.e(x[3]))
        if k == 'cast':
            return '.cast .%s %s' % (self.ty(x[1]), self.e(x[2]))
        if k == 'recast':
            return '.recast %d %s' % (SIZE[self.ty(x[1])], self.e(x[2]))
        if k == 'sizeof':
            if isinstance(x[1], str):
                return '.lit (.u64 %d)' % SIZE[self.ty(x[1])]
            v = self.look(x[1][1])
            return '.lit (.u64 %d)' % v[2]
        if k == 'addr':
            y = x[1]
            if y[0] == 'name' and self.look(y[1])[0] == 'arr':      # a variable whose address is used: an array with one element
                return self.expr(y)
            assert y[0] == 'index', y
            v = self.look(y[1][1])
            if v[0] == 'arr':
                return '.addr %s %s' % (v[1], self.e(y[2]))
            return '.bin .add %s %s' % (self.e(y[1]), self.e(y[2]))
        if k == 'member':
            if x[2] == 'length':
                return '.var %s' % self.look(x[1][1] + '.length()')[1]
            if x[2] == 'empty':
                return '.var %s' % self.look(x[1][1] + '.empty()')[1]
            assert x[2] == 'data', x
            return self.expr(x[1])
        if k == 'index':
            t = self.table(x[1])
            if t:
                return '.tab %s %s' % (t, self.e(x[2]))
            if x[1][0] == 'name':
                v = self.look(x[1][1])
                if v[0] == 'arr':
                    return '.idx %s %s' % (v[1], self.e(x[2]))
            return '.at %s %s' % (self.e(x[1]), self.e(x[2]))
        if k == 'call':
            f = x[1]
            if f[0] == 'member':
                return self.expr(('member', f[1], f[2]))
            n = f[1].split('::')[-1]
            if n == 'min':
                a, b = self.e(x[2][0]), self.e(x[2][1])
                return '.cond (.bin .lt %s %s) %s %s' % (b, a, b, a)
            if n not in self.funcs:
                v = self.look(n)        # function pointer: (choice by number)
                fs = v[2]
                body = fs[-1]
                cond = self.par('.ret %s %s' % (fs[-1], self.par(self.args([self.expr(a) for a in x[2]]))))
                for i in range(len(fs) - 2, -1, -1):
                    cond = '(.cond (.bin .eq (.var %s) (.lit (.i32 %d))) %s %s)' % (
                        v[1], i, self.par('.ret %s %s' % (fs[i], self.par(self.args([self.expr(a) for a in x[2]])))), cond)
                return cond[1:-1]
            lean, ptys = self.funcs[n]
            if f[2]:
                lean = '(%s %s)' % (lean, ' '.join(self.e(a) if not isinstance(a, str) else '' for a in f[2])) if any(not isinstance(a, str) for a in f[2]) else lean
            xs = []
            for p, a in zip(ptys, x[2]):
                s = self.expr(a)
                xs.append(s if p is None else '.cast .%s %s' % (p, self.par(s)))
            return '.ret %s %s' % (lean, self.par(self.args(xs)))
        raise SyntaxError(str(x))

    # ---- statements: lists of (comment, text) where text may contain newlines
    def new(self, name, *more):
        self.scopes[-1][name] = ('var', self.slot(self.depth)) + more
        self.depth += 1

    def comment(self, a, b=None):
        return '-- %d: %s' % (a, self.src.lines[a - 1].strip())

    def one(self, s):
        """List of Lean statements."""
        k, a = s[0], s[1]
        if k == 'many':
            return [y for x in s[2] for y in self.one(x)]
        if k == 'scope':
            return ['.scope ' + self.blk(s[2], a)]
        if k == 'array':
            n = s[3]
            if n not in self.templates.get('hoisted', {}):
                raise KeyError('array ' + n)
            self.scopes[-1][n] = ('arr', self.templates['hoisted'][n][0]) + tuple(self.templates['hoisted'][n][1:])
            return []
        if k == 'decl':
            if s[2] == 'auto':
                fs = self.templates['fnptr']
                i = [f[0] for f in fs].index(s[4][1])
                self.new(s[3], [f[1] for f in fs])
                return ['.decl .i32 (.lit (.i32 %d))' % i]
            if s[4][0] == 'call' and self.returns(s[4]):
                self.new(s[3])
                return ['.declare .%s' % self.ty(s[2])] + self.one(('assign', a, '=', ('name', s[3]), s[4]))
            if s[3] in self.templates.get('boxed', {}):
                self.scopes[-1][s[3]] = ('arr',) + self.templates['boxed'][s[3]]
                return ['.store %s (.lit (.i32 0)) %s' % (self.templates['boxed'][s[3]][0], self.e(s[4]))]
            t = '.decl .%s %s' % (self.ty(s[2]), self.e(s[4]))
            self.new(s[3])
            return [t]
        if k == 'ptrdecl':
            t = '.declp %s' % self.e(s[4])
            self.new(s[3])
            return [t]
        if k == 'declare':
            self.new(s[3])
            return ['.declare .%s' % self.ty(s[2])]
        if k == 'assign':
            o, l, r = s[2], s[3], s[4]
            if r[0] == 'call' and self.returns(r):
                lean, kinds = self.returns(r)
                assert o == '=' and l[0] == 'name' and all(m == 'val' for m in kinds)
                return ['%s %s %s %s' % (lean, self.slot(self.depth), ' '.join(self.e(x) for x in r[2]), self.look(l[1])[1])]
            self.posts = []
            if r[0] == 'name' and any(r[1] == f[0] for f in self.templates.get('fnptr', [])):
                rt = '.lit (.i32 %d)' % [f[0] for f in self.templates['fnptr']].index(r[1])
            else:
                rt = self.expr(r)
            if l[0] == 'index' and l[2][0] == 'post':
                self.posts.insert(0, (l[2][1][1], l[2][2]))
                l = ('index', l[1], l[2][1])
            for n, _ in self.posts:
                assert (str(l) + str(r)).count(repr(n)) == 1, n
            post = ['.set %s (.bin .%s (.var %s) (.lit (.i32 1)))' % (self.look(n)[1], {'+': 'add', '-': 'sub'}[d], self.look(n)[1]) for n, d in self.posts]
            if o != '=':
                rt = '.bin .%s %s %s' % (OPS[o[:-1]], self.e(l), self.par(rt))
            if l[0] == 'name':
                v = self.look(l[1])
                if v[0] == 'arr':
                    return ['.store %s (.lit (.i32 0)) %s' % (v[1], self.par(rt))] + post
                return ['.set %s %s' % (v[1], self.par(rt))] + post
            assert l[0] == 'index', l
            if l[1][0] == 'name':
                v = self.look(l[1][1])
                if v[0] == 'arr':
                    return ['.store %s %s %s' % (v[1], self.e(l[2]), self.par(rt))] + post
            return ['.storep %s %s %s' % (self.e(l[1]), self.e(l[2]), self.par(rt))] + post
        if k == 'call':
            f = s[2]
            assert f[0] == 'call', f
            n = f[1][1].split('::')[-1] if f[1][0] == 'name' else f[1][1][1] + '.' + f[1][2]
            if n == 'memcpy' and f[2][1][0] == 'addr' and f[2][1][1][0] == 'name':
                return ['.memcpyv %s %s %s' % (self.e(f[2][0]), self.look(f[2][1][1][1])[1], self.e(f[2][2]))]
            if n in ('memcpy', 'memset'):
                return ['.%s %s' % (n, ' '.join(self.e(a) for a in f[2]))]
            if n == 'zero_memory':          # an array: its bytes, see the check of `zero_memory` below
                x = f[2][0]
                v = self.look(x[1] if x[0] == 'name' else x[1][1] + '.' + x[2])
                if v[0] == 'string':        # its characters if there are any
                    return ['.ite (.bin .ne (.var %s) (.lit (.i32 0))) (.memset (.addr %s (.lit (.i32 0))) (.lit (.i32 0)) (.var %s)) .skip' % (v[2], v[1], v[2])]
                return ['.memset (.addr %s (.lit (.i32 0))) (.lit (.i32 0)) (.lit (.u64 %s))' % (v[1], v[2])]
            if n.endswith('.clear') and not f[2] and self.look(n[:-6])[0] == 'string':
                return ['.set %s (.lit (.i32 0))' % self.look(n[:-6])[2]]
            if n in self.templates.get('inlined', {}) and len(f[2]) == 1:
                return ['.scope ' + self.templates['inlined'][n]]
            if n in self.templates.get('external1', {}) and len(f[2]) == 1:
                return ['.call %d %s (.lit (.i32 0))' % (self.templates['external1'][n], self.e(f[2][0]))]
            if n in self.templates.get('chosen', {}):       # the number of the function and two of the arguments
                num, args = self.templates['chosen'][n](f[2])
                return ['.call %d %s' % (num, ' '.join(self.e(a) for a in args))]
            if n in self.templates.get('external', {}):
                return ['.call %d %s' % (self.templates['external'][n], ' '.join(self.e(a) for a in (f[2] + [('num', '0')])[:2]))]
            lean, kinds, extra = self.templates['procs'][n]
            if f[1][2]:
                lean = lean[tuple(str(t) if isinstance(t, str) else t[1] for t in f[1][2])] if isinstance(lean, dict) else lean
            args = [self.slot(self.depth)]
            for (m, a) in zip(kinds, f[2]):
                if m == 'val':
                    args.append(self.e(a))
                elif m == 'ref':
                    v = self.look(a[1])
                    args.append(str(v[1]))
                elif m == 'arr':
                    v = self.look(a[1])
                    args.append(str(v[1]))
            for h in extra:
                args.append(str(self.templates['hoisted'][h][0]))
            return ['%s %s' % (lean, ' '.join(args))]
        if k == 'if':
            t = '.ite %s %s %s' % (self.e(s[2]), self.inner(s[3], a), self.inner(s[4], a))
            return [t]
        if k == 'for':
            d = self.depth
            self.scopes.append({})
            init = [y for x in s[2] for y in self.one(x)]
            c = self.e(s[3])
            step = [y for x in s[4] for y in self.one(x)]
            body = self.blk(s[5], a)
            self.scopes.pop()
            self.depth = d
            pr = lambda l: '(%s)' % l[0] if len(l) == 1 else '(block [%s])' % ', '.join(l)
            txt = "for' %s %s %s %s" % (pr(init), c, pr(step), body)
            if self.base:
                return [txt]
            name = '%s%d' % (getattr(self, 'prefix', 'for'), a)
            params = tuple(x for x in self.templates.get('params', ()) if re.search(r'\b%s\b' % x, re.sub('--.*', '', txt)))
            self.defs.append('/-- %s %d: `%s`. -/\ndef %s %s: Stmt := %s\n' % (self.src.path.split('/')[-1], a, self.src.lines[a - 1].strip(), name, ''.join('(%s : %s) ' % (x, 'Bool' if x in BOOLS else 'Nat') for x in params), dedent(txt, self.ind)))
            return [' '.join((name,) + params)]
        if k == 'while' and s[2][0] == 'assign':
            step = self.one(s[2])
            assert len(step) == 1
            return step + ['.while (.var %s) (.seq %s (%s))' % (self.look(s[2][3][1])[1], self.inner(s[3], a), step[0])]
        if k == 'while' and s[2][0] == 'post':      # while (n--): the variable is changed before the statements, and at the end
            n = self.look(s[2][1][1])[1]
            step = '.set %s (.bin .%s (.var %s) (.lit (.i32 1)))' % (n, {'+': 'add', '-': 'sub'}[s[2][2]], n)
            return ['.while (.var %s) (.seq (%s) %s)' % (n, step, self.inner(s[3], a)), step]
        if k == 'return':               # of a function that is not void, at its end
            return ['.set r_result %s' % self.e(s[2])]
        if k == 'while':
            return ['.while %s %s' % (self.e(s[2]), self.inner(s[3], a))]
        raise SyntaxError(str(s)[:100])

    def returns(self, x):
        """A function with statements and a result: its name and the kinds of its parameters."""
        return x[1][0] == 'name' and self.templates.get('returning', {}).get(x[1][1].split('::')[-1])

    def leave(self, ss):
        """The statements with everything after a `return` moved into the other branches."""
        out = []
        for i, s in enumerate(ss):
            if s[0] == 'leave':
                return out
            if s[0] == 'string':
                continue
            if s[0] == 'if' and s[3][-1][0] == 'leave':
                assert not s[4]
                return out + [('if', s[1], s[2], self.leave(s[3]), self.leave(ss[i + 1:]))]
            if s[0] == 'switch':
                assert s[3][-1][1] is None and all(c[2][-1][0] == 'leave' for c in s[3][:-1]), s
                r = self.leave(s[3][-1][2] + ss[i + 1:])
                for l, v, cs in reversed(s[3][:-1]):
                    r = [('if', l, ('bin', '==', s[2], v), self.leave(cs), r)]
                return out + r
            out.append(s)
        return out

    def inner(self, ss, a):
        return '(.scope %s)' % self.blk(ss, a) if ss else '.skip'

    def blk(self, ss, a):
        d = self.depth
        self.scopes.append({})
        out = []
        self.ind = getattr(self, 'ind', 0) + 1
        pad = '  ' * (self.ind + 1)
        for s in ss:
            r = self.one(s)
            if r:
                for i, x in enumerate(r):
                    out.append((self.comment(s[1]) if i == 0 else None, x))
            else:
                out.append((self.comment(s[1]), None))
        self.ind -= 1
        self.scopes.pop()
        self.depth = d
        if not out:
            return '.skip'
        last = max((i for i, o in enumerate(out) if o[1] is not None), default=-1)
        txt = '(block [\n'
        for i, (c, x) in enumerate(out):
            if c:
                txt += pad + c + '\n'
            if x is not None:
                txt += pad + x + (',' if i < last else '') + '\n'
        return txt + '  ' * (self.ind + 1) + '])'


def value_function(src, pattern, templates, funcs, nth=0, retty=None, name=None, tparam=''):
    """`return e;` -> Lean definition, parameter types."""
    ps, toks, a, b = src.function(pattern, nth)
    p = Parser(toks, templates)
    ss = p.block()
    assert len(ss) == 1 and ss[0][0] == 'return', ss
    names = {n: ('arg', i) for i, (_, _, n) in enumerate(params_of(ps))}
    names.update(templates.get('names', {}))
    g = Gen(src, names, templates, funcs)
    body = '.cast .%s %s' % (g.ty(retty), g.e(ss[0][2]))
    doc = '/-- %s %d-%d: `%s`. -/' % (src.path.split('/')[-1], a, b, name)
    lean = re.sub(r'\W', '_', name)
    return '%s\ndef %s %s: Expr := %s\n' % (doc, lean, tparam, body), [None if m == '*' else TYPES.get(templates.get('types', {}).get(t, t)) for t, m, _ in params_of(ps)]


def procedure(src, pattern, templates, funcs, lean, nth=0, extra=(), tparam=''):
    """A void function with references: a Lean function of the number of the next variable and the arguments."""
    ps, toks, a, b = src.function(pattern, nth)
    p = Parser(toks, templates)
    ss = p.block()
    names, decls, sig, kinds = {}, [], '(dep : Nat)', []
    g = Gen(src, names, templates, funcs)
    g.base = 'dep + '
    for t, m, n in params_of(ps):
        if m == '&':
            sig += ' (r_%s : Nat)' % n
            g.scopes[0][n] = ('var', 'r_' + n)
            kinds.append('ref')
        elif m == '@':
            sig += ' (r_%s : Nat)' % n
            g.scopes[0][n] = ('arr', 'r_' + n)
            kinds.append('arr')
        elif t == 'TF':
            kinds.append('fn')
        else:
            sig += ' (v_%s : Expr)' % n
            decls.append('.declp v_%s' % n if m == '*' else '.decl .%s v_%s' % (g.ty(t), n))
            g.new(n)
            kinds.append('val')
    for h in extra:
        sig += ' (%s : Nat)' % templates['hoisted'][h][0]
    assert not any(s[0] == 'return' for s in ss[:-1])
    if ss[-1][0] == 'return':
        sig += ' (r_result : Nat)'
    body = g.blk(ss, a)
    doc = '/-- %s %d-%d: `%s`. -/' % (src.path.split('/')[-1], a, b, lean)
    txt = '%s\ndef %s %s%s : Stmt := .scope (block [%s%s])\n' % (doc, lean, tparam, sig, ', '.join(decls) + (', ' if decls else ''), body)
    return txt, kinds


BOOLS = ('xof', 'last')


def function_body(src, pattern, templates, funcs, names, nvars, lean, nth=0):
    ps, toks, a, b = src.function(pattern, nth)
    p = Parser(toks, templates)
    ss = p.block()
    g = Gen(src, names, templates, funcs, nvars)
    body = g.blk(g.leave(ss), a)
    doc = '/-- %s %d-%d. -/' % (src.path.split('/')[-1], a, b)
    params = [x for x in templates.get('params', ()) if re.search(r'\b%s\b' % x, re.sub('--.*', '', body))]
    return '\n'.join(g.defs) + '\n%s\ndef %s %s: Stmt := %s\n' % (doc, lean, ''.join('(%s : %s) ' % (x, 'Bool' if x in BOOLS else 'Nat') for x in params), body[1:-1])


def write(name, imports, opens, parts, note):
    txt = ''.join('import %s\n' % i for i in imports)
    txt += '\n/-! C71. %s Written by tools/cpp2lean.py from the text of the library. -/\n\n' % note
    txt += 'namespace Digestpp.Cpp.Src%s\n' % ('' if name == 'Functions' else '.' + name)
    if opens:
        txt += 'open %s\n' % opens
    txt += '\n' + '\n'.join(parts) + '\nend Digestpp.Cpp.Src%s\n' % ('' if name == 'Functions' else '.' + name)
    os.makedirs(OUT, exist_ok=True)
    path = OUT + name + '.lean'
    if not os.path.exists(path) or open(path).read() != txt:
        open(path, 'w').write(txt)


# ---------------------------------------------------------------------------- functions.hpp
F = {}
fsrc = Source('detail/functions.hpp')
parts = []
for fn in ('rotate_left', 'rotate_right', 'byteswap'):
    for w in (32, 64):
        t, tys = value_function(fsrc, r'inline uint%d_t %s\(' % (w, fn), {}, {}, 0, 'uint%d_t' % w, fn + str(w))
        parts.append(t)
    parts.append('/-- functions.hpp: the overloads of `%s`. -/\ndef %s : Expr := .over %s32 %s64\n' % (fn, fn, fn, fn))
    F[fn] = (fn, [None] + tys[1:])
write('Functions', ['Verif.Cpp.Semantics'], '', parts, '`detail/functions.hpp`.')

# zero_memory writes a zero into every byte of an array
for pat, want in ((r'inline void zero_memory\(std::array<T, N>& ar\)', '{ zero_memory ( ar . data ( ) , ar . size ( ) * sizeof ( T ) ) ; }'),
                  (r'inline void zero_memory\(std::string& s\)', '{ if ( ! s . empty ( ) ) zero_memory ( & s [ 0 ] , s . size ( ) ) ; }'),
                  (r'inline void zero_memory\(void \*v, size_t n\)', '{ volatile unsigned char * p = static_cast < volatile unsigned char * > ( v ) ; while ( n -- ) { * p ++ = 0 ; } }')):
    k = re.search(pat, fsrc.text).end()
    got = [t[0] for t in tokens(fsrc.text[k:k + 400])]
    assert got[:len(want.split())] == want.split(), got

D = 'algorithm/detail/'

# ---------------------------------------------------------------------------- absorb_data.hpp
asrc = Source('detail/absorb_data.hpp')
t, kinds = procedure(asrc, r'inline void absorb_bytes\(', {'types': {'T': 'uint64_t'}, 'external': {'transform': 0}}, F, 'absorb_bytes')
ABSORB = {'absorb_bytes': ('absorb_bytes', kinds, ())}
write('Absorb', ['Verif.Cpp.Src.Functions'], '', [t], '`absorb_bytes` of `detail/absorb_data.hpp`, with `T = uint64_t`. The function `transform` it is given is number 0.')


def members(src, T, FF, parts, nm, pat={}):
    """`init`, `update` and `final` of a provider: array 0 is what `data` or `hash` points to, 1 is `m`, 2 is `H` or `h`."""
    T = dict(T)
    T['procs'] = dict(T.get('procs', {}), **ABSORB)
    T['external'] = {'transform': 0}
    A = dict({'m': ('arr', 1), pat.get('H', 'H'): ('arr', 2)}, **pat.get('names', {}))
    names = lambda ps, **more: dict(A, **{n: ('var', i) for i, n in enumerate(ps)}, **more)
    if 'init' not in pat or pat['init']:
        for i, (suffix, nth) in enumerate(pat.get('init', [('', 0)])):
            parts.append(function_body(src, r'(?<!template<> )inline void (?:sha2_provider<uint32_t, \d+>::)?init\(', T, FF, names(['pos', 'total']), 2, 'init' + suffix, nth))
    parts.append(function_body(src, r'inline void update\(', T, FF, names(['data', 'len', 'pos', 'total']), 4, 'update'))
    parts.append(function_body(src, r'inline void final\(', T, FF, names(['hash', 'pos', 'total'] + pat.get('more', [])), 3 + len(pat.get('more', [])), 'final'))

# ---------------------------------------------------------------------------- md5
src = Source(D + 'md5_provider.hpp')
T = {'tables': {'md5_constants::K': '(.a32 Model.md5_K)', 'md5_constants::S': '(.a8 (Model.md5_S.map (BitVec.ofNat 8)))'}, 'procs': {}}
parts = []
for fn in ('roundf', 'roundg', 'roundh', 'roundi'):
    t, kinds = procedure(src, r'static inline void %s\(' % fn, T, F, fn)
    parts.append(t)
    T['procs'][fn] = (fn, kinds, ())
parts.append(function_body(src, r'inline void transform\(', T, F, {'data': ('var', 0), 'num_blks': ('var', 1), 'H': ('arr', 2)}, 2, 'transform'))
members(src, T, F, parts, 'Md5')
write('Md5', ['Verif.Cpp.Src.Absorb', 'Verif.Model.Tables.Md5'], 'Absorb', parts, '`transform`, `init`, `update` and `final` of `md5_provider.hpp` and what they call. Array 0 is what `data` or `hash` points to, 1 is `m`, 2 is `H`. Variables are the parameters, followed by `pos` and `total`.')

# ---------------------------------------------------------------------------- sha1
src = Source(D + 'sha1_provider.hpp')
T = {'tables': {'sha1_constants::K': '(.a32 Model.sha1_K)'}, 'hoisted': {'M': ('3', 64), 'W': ('4', 320)},
     'fnptr': [('sha1_functions::Ch', 'Ch'), ('sha1_functions::Parity', 'Parity'), ('sha1_functions::Maj', 'Maj')]}
parts = []
for fn in ('Ch', 'Parity', 'Maj'):
    t, tys = value_function(src, r'static inline uint32_t %s\(' % fn, T, F, 0, 'uint32_t', fn)
    parts.append(t)
parts.append(function_body(src, r'inline void transform\(', T, F, {'data': ('var', 0), 'num_blks': ('var', 1), 'H': ('arr', 2)}, 2, 'transform'))
members(src, T, F, parts, 'Sha1')
write('Sha1', ['Verif.Cpp.Src.Absorb', 'Verif.Model.Tables.Sha1'], 'Absorb', parts, '`transform`, `init`, `update` and `final` of `sha1_provider.hpp` and what they call. Array 0 is what `data` or `hash` points to, 1 is `m`, 2 is `H`, 3 is `M`, 4 is `W`. Variables are the parameters, followed by `pos` and `total`. The pointer to a function `f` is a number: 0 `Ch`, 1 `Parity`, 2 `Maj`.')

# ---------------------------------------------------------------------------- sha2
src = Source(D + 'sha2_provider.hpp')
for w, nm in ((32, 'Sha256'), (64, 'Sha512')):
    ty = 'uint%d_t' % w
    T = {'types': {'T': ty}, 'functions': ('getK',), 'consts': {'N': '.lit (.u64 %d)' % (w * 8)},
         'tables': {'sha256_constants::K': '(.a32 Model.sha256_K)', 'sha512_constants::K': '(.a64 Model.sha512_K)'},
         'hoisted': {'M': ('3', w * 2), 'W': ('4', w // 8 * (64 if w == 32 else 80))}}
    FF = dict(F)
    parts = []
    for fn in ('Ch', 'Maj'):
        t, tys = value_function(src, r'static inline T %s\(' % fn, T, FF, 0, 'T', fn)
        parts.append(t)
        FF[fn] = (fn, tys)
    t, tys = value_function(src, r'inline %s getK\(' % ty, T, FF, 0, 'T', 'getK')
    parts.append(t)
    FF['getK'] = ('getK', tys)
    for fn in ('sum0', 'sum1', 'sigma0', 'sigma1'):
        t, tys = value_function(src, r'static inline %s %s\(' % (ty, fn), T, FF, 0, ty, fn)
        parts.append(t)
        FF[fn] = (fn, tys)
    parts.append(function_body(src, r'inline void transform\(', T, FF, {'data': ('var', 0), 'num_blks': ('var', 1), 'H': ('arr', 2)}, 2, 'transform'))
    if w == 64:
        TI = dict(T, external={'update': 1, 'final': 2}, hoisted={'buf': ('5', 64)})
        parts.append(function_body(src, r'inline void init\(', TI, FF, {'pos': ('var', 0), 'total': ('var', 1), 'hs': ('var', 2), 'tmp.length()': ('var', 3), 'H': ('arr', 2), 'tmp': ('arr', 6)}, 4, 'init'))
    members(src, T, FF, parts, nm, {'init': [('224', 1), ('256', 2)] if w == 32 else [], 'more': ['hs']})
    write(nm, ['Verif.Cpp.Src.Absorb', 'Verif.Model.Tables.Sha2'], 'Absorb', parts, '`transform`, `init`, `update` and `final` of `sha2_provider.hpp` with `T = %s`, and what they call. Array 0 is what `data` or `hash` points to, 1 is `m`, 2 is `H`, 3 is `M`, 4 is `W`. Variables are the parameters, followed by `pos`, `total` and (in `final`) `hs`. The overload for `T` of the functions `sum0` etc. is chosen here.%s' % (ty, '' if w == 32 else ' In `init`, the variables are `pos`, `total`, `hs` and the length of `tmp`; array 5 is `buf` and array 6 is the string `tmp`, which is given; functions 1 and 2 are `update` and `final`; what follows a `return` is moved into the other branches.'))

# ---------------------------------------------------------------------------- sm3
src = Source(D + 'sm3_provider.hpp')
T = {'hoisted': {'M': ('3', 64), 'W': ('4', 272), 'W2': ('5', 256)}}
FF = dict(F)
parts = []
for fn in ('xorf', 'ff1', 'gg1', 'p0', 'p1'):
    t, tys = value_function(src, r'static inline uint32_t %s\(' % fn, T, FF, 0, 'uint32_t', fn)
    parts.append(t)
    FF[fn] = (fn, tys)
parts.append(function_body(src, r'inline void transform\(', T, FF, {'data': ('var', 0), 'num_blks': ('var', 1), 'H': ('arr', 2)}, 2, 'transform'))
members(src, T, FF, parts, 'Sm3')
write('Sm3', ['Verif.Cpp.Src.Absorb'], 'Absorb', parts, '`transform`, `init`, `update` and `final` of `sm3_provider.hpp` and what they call. Array 0 is what `data` or `hash` points to, 1 is `m`, 2 is `H`, 3 is `M`, 4 is `W`, 5 is `W2`. Variables are the parameters, followed by `pos` and `total`.')

# ---------------------------------------------------------------------------- whirlpool
src = Source(D + 'whirlpool_provider.hpp')
T = {'tables': {'whirlpool_constants::RC': '(.a64 Model.whirlpool_RC)'}, 'tables2': {'whirlpool_constants::T': '(.a64 (Model.whirlpool_T.getD %s []))'},
     'hoisted': {'K': ('3', 64), 'state': ('4', 64), 'L': ('5', 64)}, 'functions': ('G',)}
FF = dict(F)
parts = []
t, tys = value_function(src, r'static inline uint64_t G\(', dict(T, consts={'a': 'a'}), FF, 0, 'uint64_t', 'G', '(a : Expr) ')
parts.append(t)
FF['G'] = ('G', tys)
t, tys = value_function(src, r'inline size_t hash_size\(', T, FF, 0, 'size_t', 'hash_size')
parts.append(t)
FF['hash_size'] = ('hash_size', tys)
parts.append(function_body(src, r'inline void transform\(', T, FF, {'mp': ('var', 0), 'num_blks': ('var', 1), 'h': ('arr', 2)}, 2, 'transform'))
members(src, T, FF, parts, 'Whirlpool', {'H': 'h'})
write('Whirlpool', ['Verif.Cpp.Src.Absorb', 'Verif.Model.Tables.Whirlpool'], 'Absorb', parts, '`transform`, `init`, `update` and `final` of `whirlpool_provider.hpp` and what they call. Array 0 is what `data` or `hash` points to, 1 is `m`, 2 is `h`, 3 is `K`, 4 is `state`, 5 is `L`. Variables are the parameters, followed by `pos` and `total`.')

# ---------------------------------------------------------------------------- sha3
src = Source(D + 'sha3_provider.hpp')
lit = lambda n: '.lit (.u64 (BitVec.ofNat 64 %s))' % n
T = {'tables': {'sha3_constants<void>::RC': '(.a64 Model.sha3_RC)', 'sha3_constants::RC': '(.a64 Model.sha3_RC)'}, 'functions': ('transform',), 'hoisted': {'C': ('3', 40), 'D': ('4', 40)},
     'inlined': {'transform': 'permute'}, 'consts': {'R': '.lit (.i32 24)'}, 'callback': 'sha3_functions :: transform < 24 > ( data , len , A . data ( ) , rate )'}
FF = dict(F)
parts = []
parts.append(function_body(src, r'static inline void transform\(', T, FF, {'A': ('arr', 2)}, 5, 'permute'))
T['params'] = ('rate',)
parts.append(function_body(src, r'static inline void transform\(', T, FF, {'data': ('var', 0), 'num_blks': ('var', 1), 'A': ('arr', 2, 200), 'rate': ('lean', lit('rate'))}, 2, 'transform', 1))
T['params'] = ('hs', 'rate')
t, tys = value_function(src, r'inline size_t hash_size\(', dict(T, names={'hs': ('lean', lit('hs'))}), FF, 0, 'size_t', 'hash_size', '(hs : Nat) ')
parts.append(t)
FF['hash_size'] = ('(hash_size hs)', tys)
members(src, T, FF, parts, 'Sha3', {'H': 'A', 'names': {'A': ('arr', 2, 200), 'rate': ('lean', lit('rate')), 'hs': ('lean', lit('hs'))}})
write('Sha3', ['Verif.Cpp.Src.Absorb', 'Verif.Model.Tables.Sha3'], 'Absorb', parts, '`transform`, `init`, `update` and `final` of `sha3_provider.hpp` and what they call, with 24 rounds. Array 0 is what `data` or `hash` points to, 1 is `m`, 2 is `A`, 3 is `C`, 4 is `D`. Variables are the parameters, followed by `pos` and `total`. `hs` and `rate`, which are assigned in the constructors only, are given. `permute` is the `transform` with one parameter, in the place where it is called.')

# ---------------------------------------------------------------------------- shake
src = Source(D + 'shake_provider.hpp')
parts = []
t, kinds = procedure(src, r'static inline size_t left_encode\(', {}, F, 'left_encode')
parts.append(t)
T = {'functions': ('transform',), 'external': {'transform': 0, 'update': 2}, 'external1': {'transform': 1}, 'consts': {'R': '.lit (.i32 24)'}, 'params': ('rate',),
     'returning': {'left_encode': ('left_encode', kinds)}, 'hoisted': {'buf': ('5', 1024)},
     'callback': 'sha3_functions :: transform < R > ( data , len , A . data ( ) , rate )', 'procs': ABSORB}
FF = dict(F)
own = lambda k: {'m': ('arr', 1, 168), 'A': ('arr', 2, 200), 'rate': ('lean', lit('rate')), 'pos': ('var', k), 'total': ('var', k + 1), 'squeezing': ('var', k + 2), 'suffix': ('var', k + 3),
                 'N.empty()': ('var', k + 4), 'S.empty()': ('var', k + 5)}
strings = {'N.length()': ('var', 6), 'S.length()': ('var', 7), 'N': ('arr', 6), 'S': ('arr', 7)}
parts.append(function_body(src, r'inline void init\(', T, FF, dict(own(0), **strings), 8, 'init'))
parts.append(function_body(src, r'inline void update\(', T, FF, dict(own(2), data=('var', 0), len=('var', 1)), 4, 'update'))
parts.append(function_body(src, r'inline void squeeze\(', T, FF, dict(own(2), hash=('var', 0), hs=('var', 1)), 8, 'squeeze'))
write('Shake', ['Verif.Cpp.Src.Absorb'], 'Absorb', parts, '`left_encode`, `init`, `update` and `squeeze` of `shake_provider.hpp`. Array 0 is what `data` or `hash` points to, 1 is `m`, 2 is `A`; in `init`, 5 is `buf`, 6 the characters of `N`, 7 those of `S`. Variables are the parameters, followed by `pos`, `total`, `squeezing`, `suffix`, `N.empty()`, `S.empty()` (`update` has the first two of these), and in `init` `N.length()` and `S.length()`. Function 0 is `sha3_functions::transform` with four parameters, 1 the one with one parameter, 2 is `update`. `left_encode` is translated where it is called; `r_result` is the variable its result is assigned to.')

# ---------------------------------------------------------------------------- kmac
parts = []
t, kinds = procedure(src, r'static inline size_t right_encode\(', {}, F, 'right_encode')
parts.append(t)
src = Source(D + 'kmac_provider.hpp')
T = {'external': {'update': 2, 'shake.squeeze': 3}, 'consts': {'XOF': '.lit (.bool xof)'}, 'params': ('xof',), 'returning': {'right_encode': ('right_encode', kinds)}, 'hoisted': {'buf': ('5', 32)}}
parts.append(function_body(src, r'inline void squeeze\(', T, dict(F), {'hash': ('var', 0), 'hs': ('var', 1), 'squeezing': ('var', 2)}, 9, 'squeeze'))
write('Kmac', ['Verif.Cpp.Src.Shake'], None, parts, '`right_encode` of `shake_provider.hpp` and `squeeze` of `kmac_provider.hpp`. Array 0 is what `hash` points to, 1 to 4 are those of the member `shake`, 5 is `buf`. Variables are the parameters, `squeezing`, and those of `shake`. Function 2 is `update`, 3 is `shake.squeeze`. `xof` is the template argument `XOF`.')

# ---------------------------------------------------------------------------- ascon
src = Source(D + 'ascon_provider.hpp')
parts = []
T = {'tables': {'ascon_constants<void>::RC': '(.a64 Model.ascon_RC)', 'ascon_constants::RC': '(.a64 Model.ascon_RC)'}, 'external': {'transform': 0, 'update': 2}, 'procs': ABSORB, 'params': ('type',),
     'consts': {'type': '.lit (.i32 (type : Int))', 'ascon_type::hash': '.lit (.i32 0)', 'ascon_type::xof': '.lit (.i32 1)', 'ascon_type::cxof': '.lit (.i32 2)'},
     'boxed': {'Z0': ('6', 8)}, 'callback': 'transform ( data , len )'}
FF = dict(F)
own = lambda k: {'m': ('arr', 1, 64), 'H': ('arr', 2, 40), 'rate': ('lean', '.lit (.u64 64)'), 'pos': ('var', k), 'total': ('var', k + 1), 'squeezing': ('var', k + 2)}
strings = {'Z.empty()': ('var', 3), 'Z.length()': ('var', 4), 'Z': ('arr', 7), 'ascon_constants::IVHASH': ('arr', 3, 40), 'ascon_constants::IVXOF': ('arr', 4, 40), 'ascon_constants::IVCXOF': ('arr', 5, 40)}
parts.append(function_body(src, r'inline void transform\(', T, FF, dict(own(2), data=('var', 0), num_blks=('var', 1)), 2, 'transform'))
parts.append(function_body(src, r'inline void init\(', T, FF, dict(own(0), **strings), 5, 'init'))
parts.append(function_body(src, r'inline void update\(', T, FF, dict(own(2), data=('var', 0), len=('var', 1)), 4, 'update'))
parts.append(function_body(src, r'inline void squeeze\(', T, FF, dict(own(2), hash=('var', 0), hs=('var', 1)), 5, 'squeeze'))
write('Ascon', ['Verif.Cpp.Src.Absorb', 'Verif.Model.Tables.Ascon'], 'Absorb', parts, '`transform`, `init`, `update` and `squeeze` of `ascon_provider.hpp`. Array 0 is what `data` or `hash` points to, 1 is `m`, 2 is `H`; in `init`, 3, 4 and 5 are the tables `IVHASH`, `IVXOF` and `IVCXOF`, 6 is the variable `Z0`, whose address is used, 7 the characters of `Z`. Variables are the parameters, followed by `pos`, `total`, `squeezing` (`update` has the first two of these), and in `init` `Z.empty()` and `Z.length()`. Function 0 is `transform`, 2 is `update`. `type` is the template argument: 0 is `hash`, 1 is `xof`, 2 is `cxof`.')

# ---------------------------------------------------------------------------- esch
src = Source(D + 'esch_provider.hpp')
parts = []
T = {'tables': {'esch_constants<void>::C': '(.a32 Model.esch_C)', 'esch_constants::C': '(.a32 Model.esch_C)'}}
parts.append(function_body(src, r'static inline void sparkle\(', T, dict(F), {'rounds': ('var', 0), 'ns': ('var', 1), 'H': ('arr', 2)}, 2, 'sparkle'))
last = lambda a: {('bool', 'true'): 4, ('bool', 'false'): 0}[a[2]]
T = {'chosen': {'sparkle': lambda a: (1, a[1:]), 'transform': lambda a: (last(a), a[:2])}, 'procs': ABSORB, 'params': ('n', 'hs', 'xof', 'last'), 'hoisted': {'M': ('3', 16)},
     'consts': {'XOF': '.lit (.bool xof)', 'lastBlock': '.lit (.bool last)'}, 'callback': 'transform ( data , len , false )'}
own = lambda k: {'m': ('arr', 1, '128'), 'H': ('arr', 2, '(BitVec.ofNat 64 (n / 8))'), 'hs': ('lean', lit('hs')), 'pos': ('var', k), 'total': ('var', k + 1), 'squeezing': ('var', k + 2)}
parts.append(function_body(src, r'inline void transform\(', T, dict(F), dict(own(2), data=('var', 0), num_blks=('var', 1)), 2, 'transform'))
parts.append(function_body(src, r'inline void init\(', T, dict(F), own(0), 3, 'init'))
parts.append(function_body(src, r'inline void update\(', T, dict(F), dict(own(2), data=('var', 0), len=('var', 1)), 4, 'update'))
parts.append(function_body(src, r'inline void squeeze\(', T, dict(F), dict(own(2), hash=('var', 0), hss=('var', 1)), 5, 'squeeze'))
write('Esch', ['Verif.Cpp.Src.Absorb', 'Verif.Model.Tables.Esch'], 'Absorb', parts, '`sparkle`, `transform`, `init`, `update` and `squeeze` of `esch_provider.hpp`. Array 0 is what `data` or `hash` points to, 1 is `m`, 2 is `H`, 3 is `M`. Variables are the parameters, followed by `pos`, `total`, `squeezing` (`update` has the first two of these). Functions 0 and 4 are `transform` with `lastBlock` equal to `false` and `true`, `last` being its value; 1 is `sparkle`. `n` and `xof` are the template arguments `N` and `XOF`; `hs`, which is assigned in the constructors only, is given.')

# ---------------------------------------------------------------------------- clear
# The array members of a provider are numbered in the order of their declarations; the number of bytes of each is from its declaration.
BYTES = {'unsigned char': 1, 'uint32_t': 4, 'uint64_t': 8}

def size_of(ty, consts):
    k = re.fullmatch(r'std::array<(.*), ([^,>]*)>', ty)
    if not k:
        return BYTES[consts.get(ty, ty)]
    n = k.group(2)
    for x, v in consts.items():
        n = re.sub(r'\b%s\b' % x, str(v), n)
    assert re.fullmatch(r'[0-9 +/]*', n), n
    return size_of(k.group(1), consts) * eval(n.replace('/', '//'))

parts = []
for nm, header, consts in (('md5', 'md5', {}), ('sha1', 'sha1', {}), ('sha256', 'sha2', {'T': 'uint32_t', 'N': 256}), ('sha512', 'sha2', {'T': 'uint64_t', 'N': 512}), ('sha3', 'sha3', {}),
                           ('whirlpool', 'whirlpool', {}), ('ascon', 'ascon', {}), ('esch256', 'esch', {'N': 384}), ('esch384', 'esch', {'N': 512}), ('sm3', 'sm3', {}), ('jh', 'jh', {}),
                           ('groestl', 'groestl', {}), ('kupyna', 'kupyna', {}), ('streebog', 'streebog', {}), ('echo', 'echo', {}),
                           ('lsh256', 'lsh', {'T': 'uint32_t', 'NS': 26, 'N': 256}), ('lsh512', 'lsh', {'T': 'uint64_t', 'NS': 28, 'N': 512}),
                           ('blake', 'blake', {}), ('shake', 'shake', {}), ('blake2b', 'blake2', {'T': 'uint64_t', 'N': 512}), ('blake2s', 'blake2', {'T': 'uint32_t', 'N': 256}),
                           ('skein256', 'skein', {'N': 256}), ('skein512', 'skein', {'N': 512}), ('skein1024', 'skein', {'N': 1024})):
    src = Source(D + header + '_provider.hpp')
    found, names, strings = [], {}, []
    for i, l in enumerate(src.lines):
        k = re.fullmatch(r'\t(std::array<.*>) (\w+(?:, \w+)*);\s*', l)
        if k:
            found += [(i + 1, x, size_of(k.group(1), consts)) for x in k.group(2).split(', ')]
        k = re.fullmatch(r'\tunion \{ (std::array<[^>]*>) (\w+); (std::array<[^>]*>) (\w+); \} u;\s*', l)
        if k:
            found.append((i + 1, 'u', max(size_of(k.group(1), consts), size_of(k.group(3), consts))))
            names['u.' + k.group(2)] = ('arr', len(found) - 1, size_of(k.group(1), consts))
        k = re.fullmatch(r'\tstd::string (\w+(?:, \w+)*);\s*', l)
        if k and nm != 'ascon':             # the string of Ascon is not in its `clear`
            strings += k.group(1).split(', ')
    for i, (_, x, z) in enumerate(found):
        names[x] = ('arr', i, z)
    for i, x in enumerate(strings):
        names[x] = ('string', len(found) + i, i)
    more = ['fanout', 'nodedepth', 'nodeoffset'] if header == 'blake2' else []
    for i, x in enumerate(more):
        names[x] = ('var', len(strings) + i)
    parts.append('/-- %s_provider.hpp %s: the number of bytes of each array of the object: %s. -/\ndef %s_bytes : List Nat := %s\n'
                 % (header, ', '.join(str(i) for i in sorted({f[0] for f in found})), ', '.join('`%s`' % f[1] for f in found), nm, [f[2] for f in found]))
    parts.append(function_body(src, r'inline void clear\(', {}, dict(F), names, len(strings) + len(more), nm))
write('Clear', ['Verif.Cpp.Src.Functions'], None, parts, '`clear` of eighteen providers. The arrays are the members that are arrays (or a union of arrays), in the order of their declarations, followed by the characters of the strings. The variables are the lengths of the strings, in the order of their declarations, followed in BLAKE2 by `fanout`, `nodedepth` and `nodeoffset`.')
