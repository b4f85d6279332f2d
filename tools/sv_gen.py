#!/usr/bin/env python3
"""
Translates the short_vec classes (detail/short_vec_*.hpp) to Lean: one definition per member function, with a comment which
cites the lines. Anything which is not understood is an error.

usage: sv_gen.py <detail directory> <lean/Verif/SV directory>
"""
import glob
import os
import re
import sys

ISAS = dict(SCALAR=10, QPX=11, ARM_NEON=12, MIC=13, AVX512F=14, AVX=15, AVX2=16, SSE=17, SSE2=18, SSE4_1=19)
FEATURES = {
    'SCALAR': [], 'QPX': ['__VECTOR4DOUBLE__'], 'ARM_NEON': ['__ARM_NEON__'], 'MIC': ['__MIC__'],
    'SSE': ['__SSE__'], 'SSE2': ['__SSE__', '__SSE2__'], 'SSE4_1': ['__SSE__', '__SSE2__', '__SSE4_1__'],
}
FEATURES['AVX'] = FEATURES['SSE4_1'] + ['__AVX__']
FEATURES['AVX2'] = FEATURES['AVX'] + ['__AVX2__']
FEATURES['AVX512F'] = FEATURES['AVX2'] + ['__AVX512F__']


def configs():
    for isa in ISAS:
        base = {'LIBFLATARRAY_WITH_CPP14': '1', 'LIBFLATARRAY_WIDEST_VECTOR_ISA': 'LIBFLATARRAY_' + isa}
        for k, v in ISAS.items():
            base['LIBFLATARRAY_' + k] = str(v)
        for f in FEATURES[isa]:
            base[f] = '1'
        if isa == 'ARM_NEON':
            for prec in (0, 1):
                for lp in (0, 1):
                    d = dict(base)
                    if prec:
                        d['LIBFLATARRAY_WITH_INCREASED_PRECISION'] = '1'
                    if lp:
                        d['__LP64__'] = '1'
                    yield ('neon' + ('_prec' if prec else '') + ('_lp64' if lp else ''), isa, d)
        else:
            yield (isa.lower().replace('4_1', '41'), isa, base)


# ---------------------------------------------------------------- preprocessor

def ppeval(expr, defs):
    expr = re.sub(r'defined\s*\(?\s*(\w+)\s*\)?', lambda m: '1' if m.group(1) in defs else '0', expr)

    def sub(m):
        w = m.group(0)
        for _ in range(5):
            if w in defs:
                w = defs[w]
        return w if w.isdigit() else '0'
    expr = re.sub(r'[A-Za-z_]\w*', sub, expr)
    expr = expr.replace('||', ' or ').replace('&&', ' and ').replace('!', ' not ').replace(' not =', '!=')
    return bool(eval(expr))


def preprocess(text, defs):
    """list of (line number, text), and function-like macros"""
    defs = dict(defs)
    macros = {}
    out = []
    stack = []  # (active, taken, parent active)
    lines = text.split('\n')
    i = 0
    incomment = False
    while i < len(lines):
        no = i + 1
        l = lines[i]
        while l.endswith('\\'):
            i += 1
            l = l[:-1] + lines[i]
        i += 1
        if incomment:
            if '*/' in l:
                l = l.split('*/', 1)[1]
                incomment = False
            else:
                continue
        l = re.sub(r'/\*.*?\*/', ' ', l)
        if '/*' in l:
            l = l.split('/*', 1)[0]
            incomment = True
        l = re.sub(r'//.*', '', l)
        active = all(s[0] for s in stack)
        m = re.match(r'\s*#\s*(\w+)\s*(.*)', l)
        if m:
            d, rest = m.group(1), m.group(2).strip()
            if d in ('if', 'ifdef', 'ifndef'):
                if d == 'if':
                    c = active and ppeval(rest, defs)
                elif d == 'ifdef':
                    c = rest.split()[0] in defs
                else:
                    c = rest.split()[0] not in defs
                stack.append([c, c])
            elif d == 'else':
                s = stack[-1]
                s[0] = not s[1]
                s[1] = True
            elif d == 'elif':
                s = stack[-1]
                s[0] = (not s[1]) and ppeval(rest, defs)
                s[1] = s[1] or s[0]
            elif d == 'endif':
                stack.pop()
            elif d == 'define' and active:
                mm = re.match(r'(\w+)\(([^)]*)\)\s*(.*)', rest)
                if mm:
                    macros[mm.group(1)] = ([x.strip() for x in mm.group(2).split(',')], mm.group(3))
                else:
                    p = rest.split(None, 1)
                    defs[p[0]] = p[1] if len(p) > 1 else ''
            elif d in ('undef', 'include', 'pragma') or not active:
                pass
            elif d == 'define':
                pass
            else:
                raise Exception('directive ' + d)
            continue
        if active and l.strip():
            out.append((no, l))
    assert not stack
    return out, macros


TOK = re.compile(r'\s*(?:("(?:[^"\\]|\\.)*")|(0x[0-9A-Fa-f]+|\d+)|([A-Za-z_]\w*(?:::[A-Za-z_]\w*)*)'
                 r'|(<<=|>>=|<<|>>|&&|\|\||==|!=|<=|>=|\+=|-=|\*=|/=|&=|\|=|->|::|[-+*/%&|^~!<>=?:;,.(){}\[\]]))')


def tokenize(lines, macros):
    toks = []
    for no, l in lines:
        pos = 0
        while True:
            if not l[pos:].strip():
                break
            m = TOK.match(l, pos)
            if not m:
                raise Exception('%d: cannot tokenize %r' % (no, l[pos:]))
            pos = m.end()
            kind = 'str' if m.group(1) else 'num' if m.group(2) else 'id' if m.group(3) else 'op'
            toks.append((kind, m.group(1) or m.group(2) or m.group(3) or m.group(4), no))
    # function-like macros of the file
    out = []
    i = 0
    while i < len(toks):
        t = toks[i]
        if t[0] == 'id' and t[1] in macros and i + 1 < len(toks) and toks[i + 1][1] == '(':
            params, body = macros[t[1]]
            j = i + 2
            depth = 1
            args = [[]]
            while depth:
                x = toks[j]
                if x[1] == '(':
                    depth += 1
                if x[1] == ')':
                    depth -= 1
                if depth == 1 and x[1] == ',':
                    args.append([])
                elif depth:
                    args[-1].append(x)
                j += 1
            bt = tokenize([(t[2], body)], {})
            for b in bt:
                if b[0] == 'id' and b[1] in params:
                    out += args[params.index(b[1])]
                else:
                    out.append(b)
            i = j
        elif t[0] == 'id' and t[1] in ('SHORTVEC_DISABLE_WARNING_UNINITIALIZED', 'SHORTVEC_ENABLE_WARNING_UNINITIALIZED'):
            i += 1
        else:
            out.append(t)
            i += 1
    return out


# ---------------------------------------------------------------- parser

REGS = {'__m128': 'M128', '__m128d': 'M128d', '__m128i': 'M128i', '__m256': 'M256', '__m256d': 'M256d', '__m256i': 'M256i',
        '__m512': 'M512', '__m512d': 'M512d', '__m512i': 'M512i', 'float32x4_t': 'F32x4', 'uint32x4_t': 'U32x4',
        'vector4double': 'V4d'}
SCALARS = {'float': 'f32', 'double': 'f64', 'int': 'int', 'bool': 'bool', 'void': 'void', 'unsigned': ('u', 32),
           '__mmask8': ('u', 8), '__mmask16': ('u', 16), 'std::size_t': 'size'}


class Parser:
    def __init__(self, toks):
        self.t = toks
        self.i = 0
        self.typedefs = {}
        self.quirks = []

    def peek(self, k=0):
        return self.t[self.i + k][1] if self.i + k < len(self.t) else None

    def line(self):
        return self.t[self.i][2]

    def next(self):
        r = self.t[self.i][1]
        self.i += 1
        return r

    def expect(self, s):
        if self.peek() != s:
            raise Exception('line %d: expected %r, found %r' % (self.line(), s, self.peek()))
        self.i += 1

    def accept(self, s):
        if self.peek() == s:
            self.i += 1
            return True
        return False

    # types
    def try_type(self):
        """parses a type at the current position or returns None (position unchanged)"""
        save = self.i
        const = False
        while self.peek() in ('const', 'register'):
            const = True
            self.i += 1
        n = self.peek()
        if n == 'unsigned':
            self.i += 1
            if self.peek() == 'char':
                self.i += 1
                ty = ('u', 8)
            elif self.peek() == 'short':
                self.i += 1
                ty = ('u', 16)
            else:
                ty = ('u', 32)
        elif n in SCALARS:
            self.i += 1
            ty = SCALARS[n]
        elif n in REGS:
            self.i += 1
            ty = ('reg', REGS[n])
        elif n in ('short_vec', 'sqrt_reference', 'std::initializer_list', 'std::basic_ostream'):
            self.i += 1
            if self.peek() != '<':
                self.i = save
                return None
            self.i += 1
            args = []
            while self.peek() != '>':
                args.append(self.next())
            self.expect('>')
            if n == 'short_vec':
                assert args[0] == self.cargo and args[2] == str(self.arity), args
            ty = {'short_vec': 'V', 'sqrt_reference': 'S', 'std::initializer_list': 'il', 'std::basic_ostream': 'os'}[n]
        elif n in self.typedefs:
            self.i += 1
            ty = self.typedefs[n]
        elif n == 'ShortVecHelpers::ExtractResult':
            self.i += 1
            ty = 'union'
        else:
            self.i = save
            return None
        while self.peek() in ('const', '*', '&'):
            x = self.next()
            if x == '*':
                ty = ('ptr', ty)
        return ty

    # expressions
    PREC = [['||'], ['&&'], ['|'], ['^'], ['&'], ['==', '!='], ['<', '<=', '>', '>='], ['<<', '>>'], ['+', '-'], ['*', '/', '%']]

    def expr(self, level=0):
        if level == len(self.PREC):
            return self.unary()
        l = self.expr(level + 1)
        while self.peek() in self.PREC[level]:
            op = self.next()
            r = self.expr(level + 1)
            l = ('bin', op, l, r)
        return l

    def unary(self):
        if self.peek() in ('*', '&', '-', '!', '~'):
            op = self.next()
            return ('un', op, self.unary())
        return self.postfix()

    def args(self):
        a = []
        self.expect('(')
        if not self.accept(')'):
            a.append(self.expr())
            while self.accept(','):
                a.append(self.expr())
            self.expect(')')
        return a

    def postfix(self):
        e = self.primary()
        while True:
            if self.peek() == '[':
                self.next()
                e = ('idx', e, self.expr())
                self.expect(']')
            elif self.peek() == '.':
                self.next()
                n = self.next()
                if self.peek() == '(':
                    e = ('mcall', e, n, self.args())
                else:
                    e = ('mem', e, n)
            else:
                return e

    def primary(self):
        kind, s, no = self.t[self.i]
        if s == '(':
            self.next()
            e = self.expr()
            self.expect(')')
            return e
        if kind == 'num':
            self.next()
            return ('num', int(s, 0))
        if kind == 'str':
            self.next()
            return ('str', s)
        if s in ('static_cast', 'reinterpret_cast', 'const_cast'):
            self.next()
            self.expect('<')
            ty = self.try_type()
            assert ty, self.line()
            self.expect('>')
            a = self.args()
            assert len(a) == 1
            return ('cast', s, ty, a[0])
        if kind == 'id':
            save = self.i
            ty = self.try_type()
            if ty:
                return ('ctor', ty, self.args())
            self.i = save
            self.next()
            if self.peek() == '(':
                return ('call', s, self.args())
            return ('var', s)
        raise Exception('line %d: unexpected %r' % (no, s))

    # statements
    def block(self):
        self.expect('{')
        r = []
        while not self.accept('}'):
            r.append(self.stmt())
        return r

    def stmt(self):
        s = self.peek()
        if s == '{':
            return ('block', self.block())
        if s == 'return':
            self.next()
            e = self.expr()
            self.expect(';')
            return ('return', e)
        if s == 'if':
            self.next()
            self.expect('(')
            c = self.expr()
            self.expect(')')
            assert self.peek() == '{'
            th = self.block()
            el = []
            if self.accept('else'):
                el = self.block() if self.peek() == '{' else [self.stmt()]
            return ('if', c, th, el)
        if s == 'for':
            self.next()
            self.expect('(')
            self.accept('int')
            v = self.next()
            self.expect('=')
            self.expect('0')
            self.expect(';')
            assert self.next() == v
            self.expect('<')
            e = self.expr()
            self.expect(';')
            toks = []
            while self.peek() != ')':
                toks.append(self.next())
            assert toks in (['+', '+', v], [v, '+', '+']), toks
            self.next()
            return ('for', v, e, self.block())
        if s in ('asm', 'register'):
            while self.next() != ';':
                pass
            return ('asm',)
        save = self.i
        ty = self.try_type()
        if ty and self.t[self.i][0] == 'id':
            decls = []
            while True:
                n = self.next()
                if self.peek() == '[':
                    self.next()
                    k = int(self.next())
                    self.expect(']')
                    decls.append((n, 'array', k))
                elif self.accept('='):
                    decls.append((n, 'init', self.expr()))
                elif self.peek() == '(':
                    decls.append((n, 'ctor', self.args()))
                else:
                    decls.append((n, 'none', None))
                if self.accept(','):
                    continue
                self.expect(';')
                return ('decl', ty, decls)
        self.i = save
        e = self.expr()
        if self.peek() in ('=', '+=', '-=', '*=', '/=', '&='):
            op = self.next()
            r = self.expr()
            self.expect(';')
            return ('assign', e, op, r)
        self.expect(';')
        return ('expr', e)

    # declarations
    def skip_braces(self):
        d = 0
        while True:
            x = self.next()
            if x == '{':
                d += 1
            if x == '}':
                d -= 1
                if d == 0:
                    return

    def params(self):
        ps = []
        self.expect('(')
        if self.accept(')'):
            return ps
        while True:
            ty = self.try_type()
            assert ty, (self.line(), self.peek())
            n = self.next() if self.peek() not in (',', ')') else 'i'
            dflt = None
            if self.accept('='):
                dflt = self.expr()
            ps.append((n, ty, dflt))
            if self.accept(','):
                continue
            self.expect(')')
            return ps

    def func(self, inclass):
        """function at the current position; None for mere declarations"""
        first = self.line()
        if not self.accept('inline'):
            self.accept('LIBFLATARRAY_INLINE')
        # constructor?
        name = None
        if self.peek() == 'short_vec' and (self.peek(1) == '('):
            self.next()
            name = 'ctor'
            ret = None
        elif self.peek() == 'short_vec' and self.peek(1) == '<' and self.peek(5) == '>' and self.peek(6) == '::' and \
                self.peek(7) == 'short_vec':
            assert self.peek(2) == self.cargo and self.peek(4) == str(self.arity)
            self.i += 8
            name = 'ctor'
            ret = None
        else:
            ret = self.try_type()
            assert ret, (self.line(), self.peek())
            if self.peek() == 'short_vec' and self.peek(1) == '<':
                assert self.peek(2) == self.cargo and self.peek(4) == str(self.arity) and self.peek(6) == '::'
                self.i += 7
            name = self.next()
            if name == 'operator':
                op = self.next()
                if op == '[':
                    self.expect(']')
                    op = '[]'
                name = 'operator' + op
        ps = self.params()
        self.accept('const')
        if self.accept(';'):
            return None
        inits = None
        if self.accept(':'):
            n = self.next()
            assert n == 'val'
            if self.peek() == '[':
                # not valid C++ (qpx_double_16, qpx_double_32): read as initialisation of the elements
                self.quirks.append('the constructor at line %d initialises elements of an array member one by one' % self.line())
                inits = ('arr', [])
                while True:
                    self.expect('[')
                    assert int(self.next()) == len(inits[1])
                    self.expect(']')
                    inits[1].append(self.args()[0])
                    if not self.accept(','):
                        break
                    assert self.next() == 'val'
            elif self.accept('{'):
                inits = ('arr', [])
                while True:
                    inits[1].append(self.expr())
                    if not self.accept(','):
                        break
                self.expect('}')
            else:
                a = self.args()
                inits = ('one', a)
        body = self.block()
        return dict(name=name, ret=ret, params=ps, inits=inits, body=body, first=first, last=self.t[self.i - 1][2], inclass=inclass)

    def file(self):
        """class description or None"""
        while self.peek() is not None and not (self.peek() == 'namespace' and self.peek(1) == 'LibFlatArray'):
            raise Exception('line %d: %r before namespace' % (self.line(), self.peek()))
        if self.peek() is None:
            return None
        self.i += 3
        cls = None
        funcs = []
        while self.peek() != '}':
            if self.peek() == 'template' and self.peek(1) == '<' and self.peek(2) == '>':
                self.i += 3
                self.expect('class')
                n = self.next()
                self.expect('<')
                cargo = self.next()
                self.expect(',')
                arity = int(self.next())
                self.expect('>')
                if n == 'sqrt_reference':
                    toks = []
                    j = self.i
                    self.skip_braces()
                    toks = ' '.join(x[1] for x in self.t[j:self.i])
                    want = ('{ public : template < typename OTHER_CARGO , std::size_t OTHER_ARITY > friend class short_vec ; '
                            'sqrt_reference ( const short_vec < T , N > & vec ) : vec ( vec ) { } private : short_vec < T , N > vec ; }')
                    got = toks.replace('short_vec < %s , %d >' % (cargo, arity), 'short_vec < T , N >')
                    assert got == want, got
                    self.expect(';')
                    continue
                assert n == 'short_vec' and cls is None
                self.cargo, self.arity = cargo, arity
                cls = dict(cargo=cargo, arity=arity, line=self.line())
                if self.accept(':'):
                    self.expect('public')
                    assert self.next() == 'short_vec_base'
                    self.expect('<')
                    assert self.next() == cargo
                    self.expect(',')
                    assert self.next() == str(arity)
                    self.expect('>')
                    cls['base'] = True
                self.expect('{')
                while not self.accept('}'):
                    s = self.peek()
                    if s in ('public', 'private'):
                        self.next()
                        self.expect(':')
                    elif s == 'static':
                        x = []
                        while True:
                            y = self.next()
                            if y == ';':
                                break
                            x.append(y)
                        assert x == ['static', 'const', 'std::size_t', 'ARITY', '=', str(arity)], x
                    elif s == 'typedef':
                        self.next()
                        if self.peek().startswith('short_vec_strategy::'):
                            cls['strategy'] = self.next().split('::')[1]
                            assert self.next() == 'strategy'
                        else:
                            ty = self.try_type()
                            assert ty
                            assert self.next() == 'mask_type'
                            self.typedefs['mask_type'] = ty
                            cls['mask'] = ty
                        self.expect(';')
                    elif s == 'template':
                        while self.next() != ';':
                            pass
                    elif s != 'inline' and self.is_field():
                        ty = self.try_type()
                        no = self.line()
                        assert self.next() == 'val'
                        k = None
                        if self.accept('['):
                            k = int(self.next())
                            self.expect(']')
                        self.expect(';')
                        if k == 0:
                            # not valid C++ (qpx_double_32): read as declaration of a single array
                            while self.is_field():
                                self.try_type()
                                self.next()
                                self.expect('[')
                                k += 1
                                assert int(self.next()) == k
                                self.expect(']')
                                self.expect(';')
                            k += 1
                            self.quirks.append('the member at line %d is declared several times' % no)
                        assert 'field' not in cls
                        cls['field'] = (ty, k)
                    else:
                        f = self.func(True)
                        if f:
                            funcs.append(f)
                self.expect(';')
            elif self.peek() == 'template':
                # declaration or stream output
                j = self.i
                while self.next() != '>':
                    pass
                if self.peek() == 'class':
                    while self.next() != ';':
                        pass
                else:
                    f = self.func(False)
                    f['first'] = self.t[j][2]
                    funcs.append(f)
            else:
                f = self.func(False)
                if f:
                    funcs.append(f)
        self.expect('}')
        assert self.peek() is None, self.peek()
        if cls:
            cls['funcs'] = funcs
            cls['quirks'] = self.quirks
        return cls

    def is_field(self):
        save = self.i
        ty = self.try_type()
        r = ty is not None and self.peek() == 'val' and self.peek(1) in (';', '[')
        self.i = save
        return r


# ---------------------------------------------------------------- intrinsics: signatures from Base.lean

def read_intrinsics(path):
    s = open(path).read()
    s = re.sub(r'/-.*?-/', '', s, flags=re.S)
    r = {}
    for m in re.finditer(r'^def (\w+)((?: [({\[][^)}\]]*[)}\]])*) : ([^\n]*?) :=(.*?)(?=^\S|\Z)', s, re.S | re.M):
        name, binders, ret, body = m.groups()
        ps = []
        for b in re.findall(r'\(([^)]*)\)', binders):
            names, ty = b.split(':')
            for n in names.split():
                ps.append((n, ty.strip()))
        useE = bool(re.search(r'\bE\b', body))
        r[name] = (ps, ret.strip(), useE)
    return r


# float results of intrinsics which return BitVec 32
F32RES = {'_mm_cvtss_f32', '_MM_EXTRACT_FLOAT'}
INTRES = {'_mm_cvtsi128_si32', '_mm_extract_epi32', '_mm_extract_ps', '_mm_testz_si128', '_mm256_testz_si256', '_mm256_extract_epi32'}
F64RES = {'_mm_cvtsd_f64', 'vec_extract'}
WIDTH = {'f32': 32, 'f64': 64, 'int': 32}
LANES = {'M128': [4], 'M128i': [4], 'F32x4': [4], 'U32x4': [4], 'M128d': [2], 'V4d': [4], 'M256': [2, 4], 'M256i': [2, 4],
         'M256d': [2, 2], 'M512': [2, 2, 4], 'M512i': [2, 2, 4], 'M512d': [2, 2, 2]}


def nlanes(reg):
    n = 1
    for x in LANES[reg]:
        n *= x
    return n


def lane_proj(reg, k):
    dims = LANES[reg]
    out = ''
    n = nlanes(reg)
    for d in dims:
        n //= d
        out += '.x%d' % (k // n)
        k %= n
    return out


def ltype(ty):
    if ty in ('f32', 'int'):
        return 'BitVec 32'
    if ty == 'f64':
        return 'BitVec 64'
    if ty == 'bool':
        return 'Bool'
    if isinstance(ty, tuple) and ty[0] == 'u':
        return 'BitVec %d' % ty[1]
    if isinstance(ty, tuple) and ty[0] == 'reg':
        return ty[1]
    if ty == 'V':
        return 'V'
    if ty == 'S':
        return 'SqrtRef'
    raise Exception('type ' + str(ty))


OPNAMES = {'+': 'opAdd', '-': 'opSub', '*': 'opMul', '/': 'opDiv', '+=': 'opAddAssign', '-=': 'opSubAssign', '*=': 'opMulAssign',
           '/=': 'opDivAssign', '<': 'opLt', '<=': 'opLe', '==': 'opEq', '>': 'opGt', '>=': 'opGe', '[]': 'opIndex'}


class Fn:
    """translation of one function"""

    def __init__(self, cls, f, intr, sigs):
        self.cls, self.f, self.intr, self.sigs = cls, f, intr, sigs
        self.ct = SCALARS[cls['cargo']]
        self.w = WIDTH[self.ct]
        self.sz = self.w // 8
        self.fty, self.fk = cls['field']
        self.E = 'E.f32' if self.ct == 'f32' else 'E.f64'

    def fld(self, i=None):
        return 'val' if self.fk is None else 'val%d' % i

    def fields(self):
        return [self.fld()] if self.fk is None else [self.fld(i) for i in range(self.fk)]

    # naming
    def leanname(self):
        f = self.f
        n = f['name']
        pt = [p[1] for p in f['params']]
        if n == 'ctor':
            if pt == ['S']:
                return 'ofSqrt'
            if pt == ['il']:
                return 'ofList'
            if pt == [('ptr', self.ct)]:
                return 'ofPtr'
            if pt == [self.ct] and f['params'][0][2] is not None:
                return 'bcast'
            return 'ofRegs'
        if n.startswith('operator'):
            op = n[8:]
            if op == '<<':
                return 'print' if pt[0] == 'os' else 'opStore'
            b = OPNAMES[op]
            if pt == ['S']:
                b += 'Sqrt'
            elif pt == ['int'] and op != '[]':
                b += 'Int'
            else:
                assert pt == ['V'] or op == '[]'
            return b
        if n == 'sqrt':
            return 'sqrt' if f['inclass'] else 'sqrtFn'
        return n

    def translate(self):
        self.eff = False
        for _ in range(2):
            code = self.attempt()
        return code

    def attempt(self):
        f = self.f
        name = self.leanname()
        self.tmp = 0
        self.consts = {}
        self.env = {}
        self.writes = None
        self.rebound = set()
        self.asm = any(s[0] == 'asm' for s in f['body'])
        binders = ['(E : FEnv)']
        const = f['inclass'] and f['name'] != 'ctor'
        mut = False
        outclass_member = (not f['inclass']) and f['name'] in ('operator/', 'operator/=', 'ctor')
        member = const or (outclass_member and f['name'] != 'ctor')
        self.member = member or f['name'] == 'ctor'
        useM = useO = False
        pnames = []
        for (n, ty, _) in f['params']:
            if ty == ('ptr', self.ct) and not (n == 'offsets'):
                self.env[n] = (n, ('ptr', 'm', self.ct))
                pnames.append('(%s : Int)' % n)
                useM = True
            elif ty == ('ptr', 'int') and n == 'offsets':
                self.env[n] = (n, ('ptr', 'mo', 'int'))
                pnames.append('(%s : Int)' % n)
                useO = True
            elif ty == 'il':
                self.env[n] = (n, 'il')
                pnames.append('(%s : Int)' % n)
                useM = True
            elif ty == 'os':
                self.env[n] = (n, 'os')
            else:
                self.env[n] = (n, ty)
                pnames.append('(%s : %s)' % (n, 'Mask' if ty == self.cls.get('mask') and n == 'mask' else ltype(ty)))
        # result
        kind = None
        if f['name'] == 'ctor':
            kind = 'V'
            self.val = ['(uninit : %s)' % ltype(self.fty)] * (self.fk or 1)
        else:
            self.val = ['self.' + x for x in self.fields()] if self.member else None
            ret = f['ret']
            if ret == 'void':
                base = name
                if name in ('store', 'store_aligned', 'store_nt', 'scatter', 'opStore'):
                    kind = 'W'
                else:
                    kind = 'V'
            elif ret == 'os':
                kind = 'os'
            else:
                kind = ret
        self.kind = kind
        if kind == 'W':
            self.writes = []
            useM = False
            self.eff = True
        if useM:
            binders.append('(m : Mem %d)' % self.w)
            self.eff = True
        if useO:
            binders.append('(mo : Mem 32)')
            self.eff = True
        if member:
            binders.append('(self : V)')
        binders += pnames
        rt = {'V': 'V', 'W': 'Writes %d' % self.w, 'os': 'List (Out %d)' % self.w}.get(kind) if isinstance(kind, str) else None
        if rt is None:
            rt = 'Mask' if f['ret'] == self.cls.get('mask') and name.startswith('op') else ltype(kind)
        self.out = []
        self.declared = set()
        if self.asm:
            lines = ['  none']
            self.eff = True
            return self.pack(name, binders, rt, lines)
        if f['inits'] is not None:
            es = f['inits'][1]
            if len(es) != (self.fk or 1):
                raise Exception('initialisers')
            vals = []
            pre = []
            for e in es:
                t, ty = self.ex(e)
                vals.append(self.conv(t, ty, self.fty))
            self.val = vals
            assert not f['body']
        lines = self.block(f['body'], '  ')
        return self.pack(name, binders, rt, lines)

    def pack(self, name, binders, rt, lines):
        self.sigs[name] = dict(eff=self.eff, kind=self.kind, binders=binders)
        head = 'def %s %s : %s :=' % (name, ' '.join(binders), 'Option (%s)' % rt if self.eff and ' ' in rt
                                      else 'Option ' + rt if self.eff else rt)
        if self.eff and len(lines) > 1:
            head += ' do'
        return head, lines

    # blocks
    def fresh(self, p='t'):
        self.tmp += 1
        return '%s%d' % (p, self.tmp)

    def bind(self, term, p='t'):
        n = self.fresh(p)
        self.out.append('let %s ← %s' % (n, term))
        self.eff = True
        return n

    def result(self, term):
        return ('some %s' % par(term)) if self.eff else term

    def mkV(self):
        return '⟨' + ', '.join(unpar(v) for v in self.val) + '⟩'

    def finish(self):
        if self.kind == 'V':
            return self.result(self.mkV())
        if self.kind == 'W':
            return self.result(' ++ '.join(self.writes))
        raise Exception('missing return in ' + self.f['name'])

    def block(self, stmts, ind):
        """lines for the statements, ends with the result of the function"""
        lines = []

        def flush():
            for o in self.out:
                lines.append(ind + o)
            self.out = []
        for i, s in enumerate(stmts):
            rest = stmts[i + 1:]
            if s[0] == 'return':
                assert not rest
                if self.kind == 'os':
                    assert s[1] == ('var', '__os')
                    t = '[' + ', '.join(self.osout) + ']'
                    flush()
                    lines.append(ind + self.result(t))
                    return lines
                r = self.ret(s[1])
                flush()
                lines.append(ind + r)
                return lines
            if s[0] == 'if' and self.has_return(s[2]):
                c = self.cond(s[1])
                flush()
                saved = (dict(self.env), list(self.val) if self.val else None)
                lines.append(ind + 'if %s then' % c + (' do' if self.eff else ''))
                lines += self.block(s[2], ind + '  ')
                self.env, self.val = saved
                lines.append(ind + 'else' + (' do' if self.eff else ''))
                lines += self.block(s[3] + rest, ind + '  ')
                return lines
            self.stmt(s)
            flush()
        flush()
        lines.append(ind + self.finish())
        return lines

    def has_return(self, b):
        return any(s[0] == 'return' or (s[0] == 'if' and (self.has_return(s[2]) or self.has_return(s[3]))) for s in b)

    inbranch = False

    def setvar(self, n, t, ty):
        if self.inbranch:
            self.env[n] = (t, ty)
        else:
            ln = n
            self.rebound.add(n)
            if ty == 'union':
                self.out.append('let %s := %s' % (ln, t))
            else:
                self.out.append('let %s : %s := %s' % (ln, ltype(ty), unpar(t)))
            self.env[n] = (ln, ty)

    def setval(self, i, t):
        if self.inbranch:
            self.val[i] = t
        else:
            n = self.fields()[i]
            if t == n:
                return
            self.out.append('let %s : %s := %s' % (n, ltype(self.fty), unpar(t)))
            self.rebound.add(n)
            self.val[i] = n

    def stmt(self, s):
        if s[0] == 'decl':
            _, ty, ds = s
            for n, k, x in ds:
                if ty == 'int' and (k == 'none' or x[0] == 'num'):
                    # loop counter, number of iterations
                    if k == 'init':
                        self.consts[n] = x[1]
                    continue
                if k == 'array':
                    assert ty == self.ct
                    self.out.append('let %s : Mem %d := localArr %d %d' % (n, self.w, self.w, x))
                    self.env[n] = ('0', ('ptr', n, ty))
                elif k == 'none':
                    if ty == 'union':
                        self.env[n] = (None, 'union')
                    else:
                        self.setvar(n, '(uninit : %s)' % ltype(ty), ty)
                elif k == 'init':
                    if isinstance(ty, tuple) and ty[0] == 'ptr':
                        self.env[n] = self.ex(x)
                    else:
                        t, tt = self.ex(x)
                        self.setvar(n, self.conv(t, tt, ty), ty)
                elif k == 'ctor':
                    assert ty == 'V'
                    self.setvar(n, self.ctor(x), 'V')
            return
        if s[0] == 'assign':
            _, lhs, op, rhs = s
            if lhs[0] == 'var' and lhs[1] in self.consts:
                assert op == '=' and not self.inbranch
                self.consts[lhs[1]] = self.const(rhs)
                return
            if op != '=':
                rhs = ('bin', op[:-1], lhs, rhs)
            if lhs[0] == 'mem' and lhs[2] == 'i' and lhs[1][0] == 'var' and self.env[lhs[1][1]][1] == 'union':
                t, ty = self.ex(rhs)
                assert ty == 'int'
                self.setvar(lhs[1][1], t, 'union')
                return
            slot = self.slot(lhs)
            if slot is not None:
                t, ty = self.ex(rhs)
                self.setval(slot, self.conv(t, ty, self.fty))
                return
            if lhs[0] == 'var':
                ty = self.env[lhs[1]][1]
                t, tt = self.ex(rhs)
                self.setvar(lhs[1], self.conv(t, tt, ty), ty)
                return
            if lhs[0] == 'idx' or (lhs[0] == 'un' and lhs[1] == '*'):
                p = self.addr(lhs)
                t, ty = self.ex(rhs)
                a, (_, sp, el) = p
                t = self.conv(t, ty, el)
                if sp == 'm':
                    w = '[(%s, %s)]' % (unpar(a), unpar(t))
                    if set(re.findall(r"[A-Za-z_]\w*", w)) & self.rebound:
                        # variables may be assigned again later on
                        n = self.fresh('w')
                        self.out.append('let %s : Writes %d := %s' % (n, self.w, w))
                        w = n
                    self.writes.append(w)
                else:
                    assert sp != 'mo'
                    self.out.append('let %s ← wr %s %s %s' % (sp, sp, par(a), par(t)))
                    self.eff = True
                return
            raise Exception('assignment ' + str(lhs))
        if s[0] == 'expr':
            e = s[1]
            if e[0] == 'bin' and e[1] == '<<':
                items = []
                while e[0] == 'bin' and e[1] == '<<':
                    items.append(e[3])
                    e = e[2]
                assert e == ('var', '__os') and not hasattr(self, 'osout_done')
                r = []
                for it in reversed(items):
                    if it[0] == 'str':
                        r.append('.s ' + it[1])
                    else:
                        t, ty = self.ex(it)
                        assert ty == self.ct
                        r.append('.v ' + par(t))
                self.osout = getattr(self, 'osout', []) if getattr(self, 'oscur', None) is self.out else []
                self.osout = r
                return
            if e[0] == 'call' and e[1] == 'SHORTVEC_ASSERT_ALIGNED':
                t, ty = self.ex(e[2][0])
                assert ty[0] == 'ptr'
                self.out.append('assertAligned %d %s %d' % (WIDTH[ty[2]] // 8, par(t), self.const(e[2][1])))
                self.eff = True
                return
            if e[0] == 'call' and e[1] in ('SHORTVEC_INSERT_PS', 'SHORTVEC_INSERT_PS_AVX'):
                t, ty = self.ex(e)
                slot = self.slot(e[2][0])
                if slot is not None:
                    self.setval(slot, t)
                else:
                    assert e[2][0][0] == 'var'
                    self.setvar(e[2][0][1], t, ty)
                return
            if e[0] == 'call' and e[1] == '_MM_EXTRACT_FLOAT':
                # macro: the first argument is assigned
                self.stmt(('assign', e[2][0], '=', ('call', e[1], e[2][1:])))
                return
            if e[0] == 'call' and e[1] in ('load',):
                assert self.val
                a, ty = self.ex(e[2][0])
                v = self.bind('load E %s %s %s' % (ty[1], self.mkV() if self.val[0] != 'self.' + self.fields()[0] else 'self', par(a)), 'v')
                self.val = ['%s.%s' % (v, x) for x in self.fields()]
                return
            if e[0] == 'call' and e[1] in ('store',):
                a, ty = self.ex(e[2][0])
                assert ty[1] == 'm'
                self.writes.append(self.bind('store E self %s' % par(a), 'w'))
                return
            if e[0] == 'mcall' and e[2] == 'store':
                v, vt = self.ex(e[1])
                assert vt == 'V'
                a, ty = self.ex(e[3][0])
                self.writes.append(self.bind('store E %s %s' % (v, par(a)), 'w'))
                return
            if e[0] == 'call':
                t, ty = self.ex(e)
                assert ty == 'W', e
                self.writes.append(self.bind(t, 'w'))
                return
            raise Exception('statement ' + str(e))
        if s[0] == 'for':
            n = self.consts[s[2][1]]
            for _ in range(n):
                for x in s[3]:
                    self.stmt(x)
            return
        if s[0] == 'if':
            c = self.cond(s[1])
            was = self.inbranch
            env0, val0 = dict(self.env), list(self.val)
            n0 = len(self.out)
            self.inbranch = True
            for x in s[2]:
                self.stmt(x)
            env1, val1 = self.env, self.val
            self.env, self.val = dict(env0), list(val0)
            for x in s[3]:
                self.stmt(x)
            env2, val2 = self.env, self.val
            assert len(self.out) == n0, 'effects in branch'
            self.env, self.val = dict(env0), list(val0)
            self.inbranch = was
            changed = {k for k in env0 if env1[k] != env0[k] or env2[k] != env0[k]}
            changed |= {self.fields()[i] for i in range(len(val0)) if val1[i] != val0[i] or val2[i] != val0[i]}
            assert all(env1[k] != env2[k] for k in env0 if k in changed), 'same value in both branches'
            assert all(val1[i] != val2[i] for i in range(len(val0)) if self.fields()[i] in changed)
            if len(changed) > 1:
                # assignments are emitted one after the other: no term may use a variable assigned before
                terms = [c] + [e[k][0] for e in (env1, env2) for k in env0 if k in changed]
                terms += [v[i] for v in (val1, val2) for i in range(len(val0)) if self.fields()[i] in changed]
                used = set(re.findall(r"(?<![.\w])[A-Za-z_]\w*", ' '.join(terms)))
                assert not used & changed, 'order of assignments'
            for k in env0:
                if env1[k] != env2[k]:
                    self.setvar(k, '(if %s then %s else %s)' % (c, unpar(env1[k][0]), unpar(env2[k][0])), env0[k][1])
            for i in range(len(val0)):
                if val1[i] != val2[i]:
                    self.setval(i, '(if %s then %s else %s)' % (c, unpar(val1[i]), unpar(val2[i])))
            return
        raise Exception('statement ' + s[0])

    def slot(self, e):
        """index of a member of this object"""
        if not self.member:
            return None
        if self.fk is None and e == ('var', 'val') and 'val' not in self.env:
            return 0
        if self.fk is not None and e[0] == 'idx' and e[1] == ('var', 'val') and e[2][0] == 'num':
            assert e[2][1] < self.fk
            return e[2][1]
        return None

    def ret(self, e):
        t, ty = self.ex(e)
        k = self.kind
        if k == 'V' and ty != 'V':
            t = self.ctor([e], [(t, ty)])
        elif k == 'V':
            pass
        elif k == 'bool':
            t = self.tobool(t, ty)
        elif k == 'S':
            assert ty == 'S'
        else:
            t = self.conv(t, ty, k)
        return self.result(unpar(t)) if not self.eff else 'some %s' % par(t)

    def cond(self, e):
        t, ty = self.ex(e)
        return unpar(self.tobool(t, ty))

    def tobool(self, t, ty):
        if ty == 'bool':
            return t
        if ty in ('f32', 'f64'):
            return '(truthy %s)' % par(t)
        if ty == 'int' or (isinstance(ty, tuple) and ty[0] == 'u'):
            return '(%s != 0)' % t
        raise Exception('bool of ' + str(ty))

    def conv(self, t, ty, to):
        if ty == to:
            return t
        if ty == 'union' and to == 'f32':
            return t
        if ty == 'lit':
            if to in ('int', ) or (isinstance(to, tuple) and to[0] == 'u'):
                return '(%s : %s)' % (t, ltype(to))
            if to in ('f32', 'f64'):
                assert t in ('0', '1')
                return '%s.%s' % ('E.' + to, 'zero' if t == '0' else 'one')
        if isinstance(to, tuple) and to[0] == 'u':
            if isinstance(ty, tuple) and ty[0] == 'u' or ty == 'int':
                return t if (32 if ty == 'int' else ty[1]) == to[1] else '(%s.setWidth %d)' % (par(t), to[1])
            if ty == 'bool':
                return '((b2i %s).setWidth %d)' % (par(t), to[1])
        if to == 'int':
            if isinstance(ty, tuple) and ty[0] == 'u':
                return t if ty[1] == 32 else '(promote %s)' % par(t)
            if ty == 'bool':
                return '(b2i %s)' % par(t)
        raise Exception('conversion of %s to %s in %s' % (ty, to, self.f['name']))

    def promote(self, t, ty):
        """integral promotions: result int or unsigned"""
        if ty == 'bool' or ty == ('u', 8) or ty == ('u', 16) or ty == 'lit':
            return self.conv(t, ty, 'int'), 'int'
        if ty in ('int', ('u', 32)):
            return t, ty
        raise Exception('promotion of ' + str(ty))

    def const(self, e):
        if e[0] == 'num':
            return e[1]
        if e[0] == 'bin':
            a, b = self.const(e[2]), self.const(e[3])
            return {'|': a | b, '<<': a << b, '+': a + b}[e[1]]
        raise Exception('constant ' + str(e))

    def imm(self, e):
        if e[0] == 'call' and e[1] in ('_MM_SHUFFLE', '_MM_MK_INSERTPS_NDX'):
            return '(%s %s)' % (e[1], ' '.join(str(self.const(x)) for x in e[2]))
        return str(self.const(e))

    def isconst(self, e):
        return e[0] == 'num' or (e[0] == 'bin' and e[1] in ('|', '<<', '+') and self.isconst(e[2]) and self.isconst(e[3]))

    def addr(self, e):
        """address of an element"""
        if e[0] == 'un' and e[1] == '*':
            t, ty = self.ex(e[2])
            assert ty[0] == 'ptr', ty
            return t, ty
        assert e[0] == 'idx'
        t, ty = self.ex(e[1])
        assert ty[0] == 'ptr', (ty, e)
        return self.offset(t, e[2]), ty

    def offset(self, t, e):
        if self.isconst(e):
            k = self.const(e)
            if t == '0':
                return str(k)
            return '(%s + %d)' % (t, k)
        i, ity = self.ex(e)
        assert ity == 'int'
        return '(%s + %s.toInt)' % (t, par(i))

    def ctor(self, args, done=None):
        r = done or [self.ex(a) for a in args]
        if len(r) == 1 and r[0][1] == 'S':
            return '(ofSqrt E %s)' % par(r[0][0])
        if len(r) == 1 and r[0][1] == 'V':
            return r[0][0]
        if len(r) == 1 and self.fk is None and self.fty == self.ct:
            return '(bcast E %s)' % par(self.conv(r[0][0], r[0][1], self.ct))
        assert len(r) == (self.fk or 1), (len(r), self.fk)
        ts = [par(self.conv(t, ty, self.fty)) for t, ty in r]
        return '(ofRegs E %s)' % ' '.join(ts)

    def ex(self, e):
        k = e[0]
        if k == 'num':
            return str(e[1]), 'lit'
        if k == 'var':
            s = self.slot(e)
            if s is not None:
                return self.val[s], self.fty
            if e[1] not in self.env:
                raise Exception('variable %s in %s' % (e[1], self.f['name']))
            return self.env[e[1]]
        if k == 'mem':
            if e[1][0] == 'var' and e[1][1] in self.env and self.env[e[1][1]][1] == 'union':
                assert e[2] == 'f'
                return self.env[e[1][1]][0], 'f32'
            t, ty = self.ex(e[1])
            if ty == 'S' and e[2] == 'vec':
                return t + '.vec', 'V'
            if ty == 'V' and e[2] == 'val' and self.fk is None:
                return t + '.val', self.fty
            if ty == 'V' and e[2] == 'val':
                return t, 'Varr'
            raise Exception('member ' + str(e))
        if k == 'idx':
            s = self.slot(e)
            if s is not None:
                return self.val[s], self.fty
            if e[1] == ('var', 'val') and self.fk is not None and self.member:
                i, ity = self.ex(e[2])
                assert ity == 'int'
                return self.bind('dyn [%s] %s' % (', '.join(self.val), par(i))), self.fty
            t, ty = self.ex(e[1])
            if ty == 'Varr':
                assert e[2][0] == 'num' and e[2][1] < self.fk
                return '%s.val%d' % (t, e[2][1]), self.fty
            if ty[0] == 'lane':
                n = self.const(e[2])
                assert n < nlanes(ty[1]), e
                return t + lane_proj(ty[1], n), self.ct
            a, (_, sp, el) = self.addr(e)
            return self.bind('%s %s' % (sp, par(a))), el
        if k == 'un':
            if e[1] == '*':
                a, (_, sp, el) = self.addr(e)
                return self.bind('%s %s' % (sp, par(a))), el
            if e[1] == '&':
                # address of a register (for lane access), of an element or of a parameter
                if e[2][0] == 'un' and e[2][1] == '*' and e[2][2] == ('mcall', ('var', 'il'), 'begin', []):
                    return 'il', ('ptr', 'm', self.ct)
                t, ty = self.ex(e[2])
                if ty[0] == 'reg':
                    return t, ('lane', ty[1])
                if ty == self.ct:
                    return t, ('addrof', ty)
            raise Exception('unary ' + str(e))
        if k == 'cast':
            t, ty = self.ex(e[3])
            to = e[2]
            if isinstance(to, tuple) and to[0] == 'ptr':
                if ty[0] == 'ptr':
                    if e[1] == 'reinterpret_cast':
                        assert to[1][0] == 'reg' or to[1] == ty[2]
                    return t, ty
                if ty[0] == 'lane':
                    assert to[1] == self.ct
                    return t, ty
            if to == 'int' and ty == 'f64' and e[1] == 'static_cast':
                return '(E.f64.toIntT %s)' % par(t), 'int'
            if to == 'f32' and ty == 'f32':
                return t, ty
            raise Exception('cast %s %s' % (e, ty))
        if k == 'ctor':
            ty = e[1]
            if ty == 'V':
                return self.ctor(e[2]), 'V'
            if ty == 'S':
                t, tt = self.ex(e[2][0])
                assert tt == 'V'
                return '(SqrtRef.mk %s)' % par(t), 'S'
            t, tt = self.ex(e[2][0])
            return self.conv(t, tt, ty), ty
        if k == 'mcall':
            t, ty = self.ex(e[1])
            if ty == 'V' and e[2] == 'sqrt' and not e[3]:
                return '(sqrt E %s)' % par(t), 'V'
            raise Exception('call ' + str(e))
        if k == 'call':
            return self.call(e)
        if k == 'bin':
            return self.bin(e)
        raise Exception('expression ' + str(e))

    def call(self, e):
        n, args = e[1], e[2]
        if n == 'std::sqrt':
            t, ty = self.ex(args[0])
            if ty == 'int':
                return '(E.f64.sqrt (E.f64.ofInt %s))' % par(t), 'f64'
            return '(E.%s.sqrt %s)' % (ty, par(t)), ty
        if n not in self.intr:
            raise Exception('unknown function ' + n)
        ps, ret, useE = self.intr[n]
        ps = list(ps)
        mem = None
        if ps and ps[0][0] == 'm' and ps[0][1].startswith('Mem'):
            mem = ps.pop(0)
        assert len(ps) == len(args), (n, ps, args)
        out = []
        space = None
        for (pn, pt), a in zip(ps, args):
            if pt == 'Nat' or pt == 'CmpOp' or pt == 'Perm':
                if pt == 'Nat':
                    out.append(self.imm(a))
                else:
                    assert a[0] == 'var'
                    out.append(a[1])
            elif pt == 'Int' and pn in ('p', 'base'):
                t, ty = self.ex(a)
                assert ty[0] == 'ptr', (n, ty)
                space = (ty[1], WIDTH[ty[2]])
                out.append(par(t))
            elif pt == 'Int':
                assert pn == 'o' and self.const(a) == 0
                out.append('0')
            else:
                t, ty = self.ex(a)
                if isinstance(ty, tuple) and ty[0] == 'addrof':
                    ty = ty[1]
                if pt.startswith('BitVec'):
                    w = int(pt.split()[1])
                    if ty == 'lit':
                        t = '(%s : BitVec %d)' % (t, w)
                    elif ty in WIDTH:
                        if WIDTH[ty] != w:
                            t = '(%s.setWidth %d)' % (par(t), w)
                    elif isinstance(ty, tuple) and ty[0] == 'u':
                        if ty[1] != w:
                            t = '(%s.setWidth %d)' % (par(t), w)
                    else:
                        raise Exception('argument %s of %s' % (ty, n))
                else:
                    assert ty == ('reg', pt), (n, pt, ty)
                out.append(par(t))
        if mem:
            assert space and space[1] == int(mem[1].split()[1]), (n, space, mem)
            out.insert(0, space[0])
        elif space:
            assert space[0] == 'm', n
        if useE:
            out.insert(0, 'E')
        term = '%s %s' % (n, ' '.join(out))
        if ret.startswith('Option (Writes'):
            assert space[1] == int(ret[15:-1])
            return term, 'W'
        if ret.startswith('Option '):
            return self.bind(term), ('reg', ret[7:])
        if ret == 'BitVec 32' and n in F32RES:
            return '(%s)' % term, 'f32'
        if ret == 'BitVec 32' and n in INTRES:
            return '(%s)' % term, 'int'
        if ret == 'BitVec 64' and n in F64RES:
            return '(%s)' % term, 'f64'
        if ret in ('BitVec 8', 'BitVec 16'):
            return '(%s)' % term, ('u', int(ret[7:]))
        if ret in LANES:
            return '(%s)' % term, ('reg', ret)
        raise Exception('result %s of %s' % (ret, n))

    def bin(self, e):
        op = e[1]
        if op in ('||', '&&'):
            n0 = len(self.out)
            a = self.tobool(*self.ex(e[2]))
            b = self.tobool(*self.ex(e[3]))
            assert len(self.out) == n0
            return '(%s %s %s)' % (unpar1(a), op, unpar1(b)), 'bool'
        a, ta = self.ex(e[2])
        if isinstance(ta, tuple) and ta[0] == 'ptr' and op == '+':
            return self.offset(a, e[3]), ta
        if op in ('<<', '>>'):
            if self.isconst(e):
                return str(self.const(e)), 'lit'
            n = self.const(e[3])
            a, ta = self.promote(a, ta)
            if op == '<<':
                return '(%s <<< %d)' % (a, n), ta
            if ta == 'int':
                return '(%s.sshiftRight %d)' % (par(a), n), ta
            return '(%s >>> %d)' % (a, n), ta
        b, tb = self.ex(e[3])
        if ta in ('f32', 'f64') and op == '!=' and e[3] == ('num', 0):
            return '(truthy %s)' % par(a), 'bool'
        if ta in ('f32', 'f64') and tb in (ta, 'lit'):
            b = self.conv(b, tb, ta)
            F = 'E.' + ta
            fn = {'+': 'add', '-': 'sub', '*': 'mul', '/': 'div', '<': 'lt', '<=': 'le', '==': 'eq', '>': 'gt', '>=': 'ge'}[op]
            return '(%s.%s %s %s)' % (F, fn, par(a), par(b)), 'bool' if op in '< <= == > >='.split() else ta
        if ta == 'bool' and tb == 'bool' and op == '==':
            return '(%s == %s)' % (a, b), 'bool'
        if ta == 'lit' and tb == 'lit':
            return str(self.const(e)), 'lit'
        # integers
        a, ta = self.promote(a, ta)
        b, tb = self.promote(b, tb)
        if ta == tb == 'int':
            if op in ('+', '-', '*', '/'):
                fn = {'+': 'iadd', '-': 'isub', '*': 'imul', '/': 'idiv'}[op]
                return self.bind('%s %s %s' % (fn, par(a), par(b))), 'int'
            if op in ('&', '|'):
                return '(%s %s %s)' % (a, op * 3, b), 'int'
            if op in ('==', '!='):
                return '(%s %s %s)' % (a, op, b), 'bool'
            cmp = {'<': '(BitVec.slt %s %s)' % (par(a), par(b)), '<=': '(BitVec.sle %s %s)' % (par(a), par(b)),
                   '>': '(BitVec.slt %s %s)' % (par(b), par(a)), '>=': '(BitVec.sle %s %s)' % (par(b), par(a))}
            return cmp[op], 'bool'
        # one operand is unsigned
        if op in ('+', '-', '*'):
            return '(%s %s %s)' % (a, op, b), ('u', 32)
        if op in ('&', '|'):
            return '(%s %s %s)' % (a, op * 3, b), ('u', 32)
        raise Exception('operator %s on %s, %s' % (op, ta, tb))


def balanced(t):
    d = 0
    for i, c in enumerate(t):
        if c in '(⟨[':
            d += 1
        if c in ')⟩]':
            d -= 1
            if d == 0 and i < len(t) - 1:
                return False
    return True


def par(t):
    if re.match(r'^[\w.]+$', t) or (t[0] in '(⟨[' and balanced(t)):
        return t
    return '(' + t + ')'


def unpar(t):
    if t and t[0] == '(' and t[-1] == ')' and balanced(t) and not re.match(r'^\(.* : [\w ]+\)$', t):
        return t[1:-1]
    return t


def unpar1(t):
    return t


def wrap(line, width=128):
    """breaks a long line"""
    if len(line) <= width:
        return [line]
    ind = re.match(r' *', line).group(0)
    out = []
    while len(line) > width:
        k = line.rfind(' ', len(ind) + 8, width)
        while k > 0 and line[:k].count('"') % 2:
            k = line.rfind(' ', len(ind) + 8, k)
        assert k > 0, line
        out.append(line[:k])
        line = ind + '    ' + line[k + 1:]
    out.append(line)
    return out


def main():
    src, dst = sys.argv[1], sys.argv[2]
    intr = read_intrinsics(os.path.join(dst, 'Base.lean'))
    groups = {}
    info = {}
    for path in sorted(glob.glob(os.path.join(src, 'short_vec_*_*_*.hpp')) + glob.glob(os.path.join(src, 'short_vec_*_*.hpp'))):
        m = re.match(r'short_vec_(\w+?)_(float|double|int)_(\d+)\.hpp$', os.path.basename(path))
        if not m:
            continue
        isa, cargo, arity = m.group(1), m.group(2), int(m.group(3))
        if (isa, cargo, arity) in info:
            continue
        text = open(path).read()
        variants = {}
        cfgs = []
        order = []
        rec = dict(isas=[], path=os.path.basename(path), isa=isa, cargo=cargo, arity=arity)
        for cname, cisa, defs in configs():
            lines, macros = preprocess(text, defs)
            toks = tokenize(lines, macros)
            cls = Parser(toks).file()
            if cls is None:
                continue
            assert cls['cargo'] == cargo and cls['arity'] == arity
            cfgs.append(cname)
            if cisa not in rec['isas']:
                rec['isas'].append(cisa)
            sigs = {}
            fns = {}
            done = {}
            for f in cls['funcs']:
                fn = Fn(cls, f, intr, sigs)
                try:
                    head, lines_ = fn.translate()
                except Exception as ex:
                    raise Exception('%s:%d: %s' % (path, f['first'], ex)) from ex
                nm = fn.leanname()
                assert nm not in done, (path, nm)
                done[nm] = (head, lines_, f['first'], f['last'])
                if nm not in order:
                    order.append(nm)
                    cn = {'ctor': 'constructor'}.get(f['name'], '`%s`' % f['name'])
                    if nm.endswith('Sqrt') or nm == 'ofSqrt':
                        cn += ' of `sqrt_reference`'
                    if not f['inclass'] and nm in ('opStore', 'sqrtFn', 'print'):
                        cn += ', free function'
                    rec.setdefault('cnames', {})[nm] = cn
            for nm, d in done.items():
                variants.setdefault(nm, {}).setdefault((d[0], tuple(d[1]), d[2], d[3]), []).append(cname)
            rec['cls'] = cls
            rec.setdefault('have', {})[cname] = {k: dict(eff=sigs[k]['eff'], kind=sigs[k]['kind']) for k in done}
        assert cfgs, path
        rec['cfgs'] = cfgs
        rec['variants'] = variants
        rec['order'] = order
        info[(isa, cargo, arity)] = rec
    emit(info, dst)
    return info


CALLS = re.compile(r'\b(load|store|ofRegs|bcast|ofSqrt|sqrt) E\b')


def emit(info, dst):
    groups = {}
    for key in sorted(info, key=lambda k: (k[0], k[1], k[2])):
        groups.setdefault((key[0], key[1]), []).append(key)
    for (isa, cargo), keys in groups.items():
        mod = isa.capitalize() + cargo.capitalize()
        out = ['/-', '  Generated by tools/sv_gen.py from detail/short_vec_%s_%s_*.hpp.' % (isa, cargo), '-/',
               'import Verif.SV.Base', 'set_option linter.unusedVariables false', 'set_option autoImplicit false', '']
        for key in keys:
            r = info[key]
            cls = r['cls']
            fty, fk = cls['field']
            ns = 'LFA.SV.%s%d' % (mod, key[2])
            r['ns'] = ns
            out.append('namespace %s' % ns)
            out.append('')
            out.append('/-- members of `short_vec<%s, %d>` (detail/%s:%d)' % (cargo, key[2], r['path'], cls['line']))
            for q in cls['quirks']:
                out.append('    Not valid C++: %s. The model describes the obvious intention.' % q)
            out[-1] += ' -/'
            out.append('structure V where')
            for x in (['val'] if fk is None else ['val%d' % i for i in range(fk)]):
                out.append('  %s : %s' % (x, ltype(fty)))
            out.append('')
            fl = ['val'] if fk is None else ['val%d' % i for i in range(fk)]
            w = WIDTH[SCALARS[cargo]]
            out.append('/-- lanes, from low to high -/')
            ls = ' ++ ('.join('SV.lanes v.' + x for x in fl) + ')' * (len(fl) - 1)
            if r['isa'] == 'scalar':
                ls = '[' + ', '.join('v.' + x for x in fl) + ']'
            out += wrap('def V.lanes (v : V) : List (BitVec %d) := %s' % (w, ls))
            out.append('')
            if any('Sqrt' in n for n in r['order']):
                out.append('/-- `sqrt_reference<%s, %d>`: keeps the vector until the square root is needed -/' % (cargo, key[2]))
                out.append('structure SqrtRef where')
                out.append('  vec : V')
                out.append('')
            if cls.get('mask'):
                out.append('/-- `mask_type` -/')
                out.append('abbrev Mask := %s' % ltype(cls['mask']))
                out.append('')
            # order of definitions: constructors, load and store first
            first = [n for n in ('bcast', 'ofRegs', 'load', 'store', 'sqrt', 'ofSqrt') if n in r['order']]
            order = first + [n for n in r['order'] if n not in first]
            r['names'] = {}
            # suffixes: functions with several variants
            for nm in order:
                # callees with several variants
                vs = {}
                for (head, lines, a, b), cs in r['variants'][nm].items():
                    for c in cs:
                        ls = tuple(CALLS.sub(lambda m: r['names'][c][m.group(1)] + ' E', l) for l in lines)
                        vs.setdefault((head, ls, a, b), []).append(c)
                multi = len(vs) > 1
                for (head, lines, a, b), cs in vs.items():
                    suffix = '_' + cs[0] if multi else ''
                    for c in cs:
                        r['names'].setdefault(c, {})[nm] = nm + suffix
                    h = re.sub(r'^def \w+', 'def ' + nm + suffix, head)
                    out.append('/-- %s (detail/%s:%d-%d%s) -/' % (r['cnames'][nm], r['path'], a, b,
                                                                  '; ' + ', '.join(cs) if multi else ''))
                    body = list(lines)
                    if len(body) == 1 and len(h) + len(body[0]) < 120 and not h.endswith('do'):
                        out.append(h + ' ' + body[0].strip())
                    else:
                        out += wrap(h)
                        for l in body:
                            out += wrap(l)
                    out.append('')
            out.append('end %s' % ns)
            out.append('')
        open(os.path.join(dst, mod + '.lean'), 'w').write('\n'.join(out))


if __name__ == '__main__':
    info = main()
    import pickle
    if len(sys.argv) > 3:
        pickle.dump(info, open(sys.argv[3], 'wb'))
