#!/usr/bin/env python3
"""Translate the assertions of the documentation examples and unit tests in /repo/src into Lean examples about the model,
as evidence that the model behaves like the code. Writes lean/Verif/Tests/DocTests.lean. Usage: doctests.py [-v]"""
import re, sys, glob
SIGS = {}
for l in open('/verif/tools/sigs.txt'):
    m = re.match(r'(\w+) (\d+) Ethnum\.((?:U256|I256)\.\w+) : (.*)', l.strip())
    if m: SIGS[m.group(3)] = m.group(4)
class Skip(Exception): pass
TOK = re.compile(r'''\s+|//[^\n]*|(?P<str>b?"(?:[^"\\]|\\.)*")|(?P<num>\d[\d_a-zA-Z]*(?:\.\d[\d_]*)?)|(?P<id>[A-Za-z_]\w*!?(?!=))|(?P<p>::<|::|\.\.|=>|->|==|!=|<<|>>|<=|>=|&&|\|\||[-+*/%&|^!<>=(){}\[\],.;:#?'@$])''')
def tokenize(s):
    out, i = [], 0
    while i < len(s):
        m = TOK.match(s, i)
        if not m: raise Skip('tok ' + s[i:i+20])
        if m.lastgroup: out.append((m.lastgroup, m.group(), i))
        i = m.end()
    return out
class P:
    def __init__(self, toks): self.t = toks; self.i = 0
    def pk(self, k=0): return self.t[self.i + k][1] if self.i + k < len(self.t) else None
    def kind(self): return self.t[self.i][0] if self.i < len(self.t) else None
    def nx(self):
        if self.i >= len(self.t): raise Skip('eof')
        self.i += 1; return self.t[self.i - 1]
    def ex(self, s):
        t = self.nx()
        if t[1] != s: raise Skip(f'expected {s} got {t[1]}')
    def args(self, close):
        r = []
        while self.pk() != close:
            r.append(self.expr())
            if self.pk() == ',': self.nx()
            elif self.pk() == ';':
                self.nx(); r = ['repeat', r[0], self.expr()]
            elif self.pk() != close: raise Skip('args ' + str(self.pk()))
        self.ex(close); return r
    PREC = [['=='], ['|'], ['^'], ['&'], ['<<', '>>'], ['+', '-'], ['*', '/', '%']]
    def expr(self, lvl=0):
        if lvl == len(self.PREC): return self.cast()
        a = self.expr(lvl + 1)
        while self.pk() in self.PREC[lvl]:
            op = self.nx()[1]; b = self.expr(lvl + 1); a = ('bin', op, a, b)
        return a
    def cast(self):
        a = self.unary()
        while self.pk() == 'as': self.nx(); a = ('as', a, self.nx()[1])
        return a
    def unary(self):
        if self.pk() in ('-', '!', '&', '*'):
            op = self.nx()[1]; a = self.unary()
            return a if op in '&*' else ('un', op, a)
        return self.postfix()
    def postfix(self):
        a = self.primary()
        while True:
            if self.pk() == '.':
                self.nx(); n = self.nx()[1]; g = None
                if self.pk() == '::<': self.nx(); g = self.nx()[1]; self.ex('>')
                if self.pk() != '(': raise Skip('field ' + n)
                self.nx(); a = ('meth', a, n, g, self.args(')'))
            elif self.pk() == '?': self.nx(); a = ('meth', a, 'unwrap', None, [])
            else: return a
    def primary(self):
        k, v, _ = self.nx()
        if k == 'num': return ('num', v)
        if k == 'str': return ('str', eval('""' + re.sub(r'\\\n\s*', '', v) + '""') if not v.startswith('b') else eval(v))
        if v == '(':
            a = self.args(')')
            return a[0] if len(a) == 1 else ('tup', a)
        if v == '[': return ('arr', self.args(']'))
        if v == 'if':
            if self.pk() != 'cfg!': raise Skip('if')
            j = self.i
            self.nx(); self.ex('(')
            if self.nx()[1] != 'target_endian': raise Skip('cfg')
            self.ex('='); e = self.nx()[1]; self.ex(')'); self.ex('{'); a = self.expr(); self.ex('}')
            self.ex('else'); self.ex('{'); b = self.expr(); self.ex('}')
            return ('endian', a, b) if e == '"big"' else ('endian', b, a)
        if k == 'id':
            if v.endswith('!'):
                if self.pk() in ('(', '['):
                    o = self.nx()[1]; return ('mac', v, self.args(')' if o == '(' else ']'))
                raise Skip('macro ' + v)
            path = [v]
            while self.pk() == '::':
                self.nx(); path.append(self.nx()[1])
            g = None
            if self.pk() == '::<':
                self.nx(); g = self.nx()[1]; self.ex('>')
                if self.pk() == '::': self.nx(); path.append(self.nx()[1])
            if path[-1] == 'cast': raise Skip('cast')
            if self.pk() == '(':
                self.nx(); return ('call', path, self.args(')'))
            return ('path', path)
        raise Skip('primary ' + v)
BITS = {'u8': 8, 'i8': 8, 'u16': 16, 'i16': 16, 'u32': 32, 'i32': 32, 'u64': 64, 'i64': 64, 'u128': 128, 'i128': 128}
LEAN = {'U8': 8, 'U16': 16, 'U32': 32, 'U64': 64, 'U128': 128}
WIDE = ('U256', 'I256')
class V:
    def __init__(s, lean, ty): s.lean, s.ty = lean, ty
class N:                                  # an untyped or suffixed constant
    def __init__(s, v, suf): s.v, s.suf, s.ty = v, suf, 'const'
def bv(w, v): return f'(BitVec.ofInt {w} ({v}))'
class Gen:
    def __init__(self, env, default='I256'): self.st, self.env, self.k, self.me = [], dict(env), 0, default
    def bind(self, e, ty, mon):
        n = f't{self.k}'; self.k += 1
        self.st.append(f'let {n} {"←" if mon else ":="} {e}'); return V(n, ty)
    def coerce(self, v, ty):
        if isinstance(v, N):
            if ty in LEAN: return bv(LEAN[ty], v.v)
            if ty in WIDE: raise Skip('const to wide')
            if ty == 'Nat': return str(v.v)
            raise Skip('coerce const to ' + ty)
        if ty == 'List U8' and v.ty == 'str': return f'(str {v.lean})'
        if ty == 'List Char' and v.ty == 'str': return f'{v.lean}.toList'
        if v.ty != ty and not (v.ty.startswith('prim') and ty in LEAN): raise Skip(f'coerce {v.ty} to {ty}')
        return v.lean
    def callsig(self, name, args):
        if name not in SIGS: raise Skip('nosig ' + name)
        parts = [p.strip() for p in SIGS[name].split('→')]
        ret = parts[-1]; ps = parts[:-1]
        out = []; ai = iter(args)
        for p in ps:
            if p in ('Cfg', '(c : Cfg)'): out.append('c'); continue
            try: a = next(ai)
            except StopIteration: raise Skip('arity ' + name)
            if p == 'ShiftBy c': out.append(self.shiftby(a)); continue
            out.append(self.coerce(a, p))
        if list(ai): raise Skip('arity ' + name)
        e = f'{name} ' + ' '.join(out) if out else name
        if ret.startswith('Res '):
            r = ret[4:].strip()
            if r.startswith('(') and r.endswith(')'): r = r[1:-1]
            return self.bind(e, r, True)
        return self.bind(e, ret, False) if out else V(name, ret)
    def shiftby(self, a):
        if isinstance(a, N): return f'(.prim .{a.suf or "i32"} {bv(BITS[a.suf or "i32"], a.v)})'
        if a.ty == 'U256': return f'(.u256 {a.lean})'
        if a.ty == 'I256': return f'(.i256 {a.lean})'
        if a.ty == 'U32': return f'(.prim .u32 {a.lean})'
        raise Skip('shiftby')
    def ev(self, e, want=None):
        k = e[0]
        if k == 'num':
            m = re.match(r'(0x[0-9a-fA-F_]+|0b[01_]+|0o[0-7_]+|[\d_]+)((?:[ui](?:8|16|32|64|128|size))?)$', e[1])
            if e[1].startswith('0x'):
                m2 = re.match(r'(0x[0-9a-fA-F_]+?)([ui](?:8|16|32|64|128|size))$', e[1])
                if m2: m = m2
            if not m: raise Skip('num ' + e[1])
            return N(int(m.group(1).replace('_', ''), 0) if not re.match(r'^0\d', m.group(1)) else int(m.group(1)), m.group(2))
        if k == 'str':
            s = e[1]
            if isinstance(s, bytes) or not all(32 <= ord(ch) < 127 or ch == '\n' for ch in s): raise Skip('str')
            return V('"' + s.replace('\\', '\\\\').replace('"', '\\"').replace('\n', '\\n') + '"', 'str')
        if k == 'un':
            a = self.ev(e[2])
            if isinstance(a, N):
                if e[1] == '-': return N(-a.v, a.suf)
                if e[1] == '!': return N(~a.v, a.suf)
            if e[1] == '!' and a.ty == 'Bool': return V(f'(!{a.lean})', 'Bool')
            if a.ty in WIDE: return self.callsig(a.ty + ('.neg' if e[1] == '-' else '.not'), [a])
            raise Skip('unary')
        if k == 'bin':
            a = self.ev(e[2]); b = self.ev(e[3]); op = e[1]
            nm = {'+': 'add', '-': 'sub', '*': 'mul', '/': 'div', '%': 'rem', '&': 'bitand', '|': 'bitor', '^': 'bitxor'}
            if op in ('<<', '>>') and isinstance(a, V) and a.ty in WIDE:
                return self.callsig(a.ty + ('.shlBy' if op == '<<' else '.shrBy'), [a, b])
            if isinstance(a, N) and isinstance(b, N):
                f = {'+': lambda x, y: x + y, '-': lambda x, y: x - y, '*': lambda x, y: x * y, '<<': lambda x, y: x << y, '|': lambda x, y: x | y}
                if op in f: return N(f[op](a.v, b.v), a.suf or b.suf)
            if op == '==': return V(self.equal(a, b), 'Bool')
            if op in nm and isinstance(a, V) and a.ty in WIDE:
                if isinstance(b, N): b = self.callsig(a.ty + '.new', [b])
                return self.callsig(f'{a.ty}.{nm[op]}', [a, b])
            if op in nm and isinstance(b, V) and b.ty in WIDE and isinstance(a, N):
                return self.callsig(f'{b.ty}.{nm[op]}', [self.callsig(b.ty + '.new', [a]), b])
            raise Skip('bin ' + op)
        if k == 'tup':
            vs = [self.ev(x) for x in e[1]]
            return ('tup', vs)
        if k == 'arr':
            if e[1] and e[1][0] == 'repeat': return ('arr', [self.ev(e[1][1])] * self.ev(e[1][2]).v)
            return ('arr', [self.ev(x) for x in e[1]])
        if k == 'endian':
            a = self.ev(e[1]); b = self.ev(e[2])
            return V(f'(if c.bigEndian then {self.bytes(a)} else {self.bytes(b)})', 'List U8')
        if k == 'path':
            p = [self.me if x == 'Self' else x for x in e[1]]
            if len(p) == 1 and p[0] in self.env: return self.env[p[0]]
            if p == ['None']: return ('none',)
            if p in (['true'], ['false']): return V(p[0], 'Bool')
            if len(p) == 2 and p[0] in WIDE:
                if p[1] == 'BITS': return N(256, 'u32')
                return self.callsig('.'.join(p), [])
            pr = {'u128': 128, 'i128': 128, 'u64': 64, 'i64': 64, 'u8': 8, 'i8': 8, 'u32': 32, 'i32': 32}
            if len(p) == 2 and p[0] in pr and p[1] in ('MAX', 'MIN'):
                w = pr[p[0]]; s = p[0][0] == 'i'
                return N((2 ** (w - 1) - 1 if s else 2 ** w - 1) if p[1] == 'MAX' else (-2 ** (w - 1) if s else 0), p[0])
            raise Skip('path ' + '::'.join(p))
        if k == 'call':
            p = [self.me if x == 'Self' else x for x in e[1]]
            if p == ['Some']: return ('some', self.ev(e[2][0]))
            if p == ['Ok']: return ('ok', self.ev(e[2][0]))
            if len(p) == 2 and p[0] in WIDE:
                if p[1] == 'from' or p[1] == 'try_from' or p[1] == 'from_ne_bytes':
                    a = self.ev(e[2][0])
                    if p[1] == 'from' and isinstance(a, N) and a.suf in BITS:
                        return self.bind(f'{p[0]}.from_prim c .{a.suf} {bv(BITS[a.suf], a.v)}', p[0], False)
                    if p[1] == 'try_from' and isinstance(a, N) and a.suf in BITS and p[0] == 'U256':
                        return self.bind(f'{p[0]}.try_from_prim c .{a.suf} {bv(BITS[a.suf], a.v)}', f'Option {p[0]}', False)
                    if p[1] != 'from_ne_bytes': raise Skip('from')
                args = [self.ev(x) for x in e[2]]
                args = [V(self.bytes(a), 'List U8') if isinstance(a, tuple) and a[0] == 'arr' else a for a in args]
                return self.callsig('.'.join(p), args)
            raise Skip('call ' + '::'.join(p))
        if k == 'as': raise Skip('as')
        if k == 'mac':
            if e[1] in ('int!', 'uint!'):
                a = self.ev(e[2][0]); t = 'I256' if e[1] == 'int!' else 'U256'
                return self.callsig(t + '.const_from_str_prefixed', [a])
            if e[1] == 'format!' and len(e[2]) == 2 and e[2][0][0] == 'str':
                m = re.fullmatch(r'\{(?::(#?)(0?)(\d*)([xXbo]?)(\??))?\}', e[2][0][1])
                if not m: raise Skip('format ' + e[2][0][1])
                al, z, w, r, d = [x or '' for x in m.groups()]
                a = self.ev(e[2][1])
                if not isinstance(a, V) or a.ty not in WIDE: raise Skip('format arg')
                fl = (4 if al else 0) + (8 if z else 0)
                R = {'x': '.lowerHex', 'X': '.upperHex', 'b': '.binary', 'o': '.octal'}
                if d: fl += {'x': 16, 'X': 32, '': 0}[r]
                f = f"⟨{fl}, {'some ' + w if w else 'none'}, ' ', none⟩"
                if d: return self.bind(f'{a.ty}.debug c {a.lean} {f}', 'List Char', True)
                if r: return self.bind(f'{a.ty}.fmtRadix c {R[r]} {a.lean} {f}'.replace(f'fmtRadix c {R[r]} {a.lean}', f'fmtRadix c {R[r]} {a.lean}'), 'List Char', True)
                return self.bind(f'{a.ty}.display c {a.lean} {f}', 'List Char', True)
            raise Skip('mac ' + e[1])
        if k == 'meth':
            _, re_, n, g, ar = e
            if n == 'parse':
                a = self.ev(re_)
                if g not in WIDE: raise Skip('parse')
                return self.callsig(g + '.from_str', [a])
            a = self.ev(re_)
            if n in ('unwrap', 'clone', 'to_owned', 'into'):
                if n == 'clone': return a
                if n == 'into': raise Skip('into')
                if isinstance(a, V) and a.ty.startswith('ParseResult '): return self.bind(f'unwrap {a.lean}', a.ty[12:], True)
                if isinstance(a, V) and a.ty.startswith('Option '): return self.bind(f'unwrapO {a.lean}', a.ty[7:], True)
                raise Skip('unwrap')
            if n == 'repeat' and isinstance(a, V) and a.ty == 'str':
                return V(f'(List.replicate {self.ev(ar[0]).v} {a.lean}.toList).flatten', 'List Char')
            if isinstance(a, N):
                if n in ('as_u256', 'as_i256'):
                    s = a.suf or 'i32'
                    return self.bind(f'{"U256" if n == "as_u256" else "I256"}.of_prim_as c .{s} {bv(BITS[s], a.v)}', 'U256' if n == 'as_u256' else 'I256', False)
                raise Skip('std method ' + n)
            if isinstance(a, V) and a.ty in WIDE:
                if n == 'to_string': return self.bind(f'{a.ty}.display c {a.lean} .default', 'List Char', True)
                if re.fullmatch(r'as_[ui](8|16|32|64|128|size)', n):
                    t = n[3:]
                    return self.bind(f'{a.ty}.as_prim c .{t} {a.lean}', 'prim:' + t, False)
                if n in ('as_f32', 'as_f64'): raise Skip('float')
                if n in ('as_u256', 'as_i256') and n[3:].upper() == a.ty: return a
                if n == 'ctlz': raise Skip('ctlz')
                return self.callsig(f'{a.ty}.{n}', [a] + [self.ev(x) for x in ar])
            raise Skip('method ' + n)
        raise Skip('node ' + k)
    def bytes(self, a):
        if isinstance(a, tuple) and a[0] == 'arr':
            vs = []
            for x in a[1]:
                if not isinstance(x, N): raise Skip('arr')
                vs.append(str(x.v))
            return '[' + ', '.join(vs) + ']'
        if isinstance(a, V) and a.ty == 'List U8': return a.lean
        raise Skip('bytes')
    def equal(self, a, b):
        if isinstance(a, tuple) and not isinstance(b, tuple): a, b = b, a
        if isinstance(a, tuple) and isinstance(b, tuple):
            if a[0] == b[0] == 'tup': return '(' + ' && '.join(self.equal(x, y) for x, y in zip(a[1], b[1])) + ')'
            raise Skip('eq tuple')
        if isinstance(a, N) and isinstance(b, V): a, b = b, a
        if isinstance(a, N) and isinstance(b, N): return 'true' if a.v == b.v else 'false'
        if isinstance(b, tuple):
            if b[0] == 'none': return f'({a.lean}).isNone'
            if b[0] == 'some':
                if not a.ty.startswith('Option '): raise Skip('some ' + a.ty)
                return f'(match {a.lean} with | some v => {self.equal(V("v", a.ty[7:]), b[1])} | none => false)'
            if b[0] == 'ok':
                if not a.ty.startswith('ParseResult '): raise Skip('ok ' + a.ty)
                return f'(match {a.lean} with | .ok v => {self.equal(V("v", a.ty[12:]), b[1])} | .error _ => false)'
            if b[0] == 'tup':
                ts = [x.strip().strip('()') for x in a.ty.split('×')]
                if len(ts) != len(b[1]): raise Skip('tuple arity')
                acc = [f'({a.lean}).1', f'({a.lean}).2'] if len(ts) == 2 else [f'({a.lean}).1', f'({a.lean}).2.1', f'({a.lean}).2.2']
                return '(' + ' && '.join(self.equal(V(l, t), y) for l, t, y in zip(acc, ts, b[1])) + ')'
            if b[0] == 'arr': return f'decide ({a.lean} = {self.bytes(b)})'
            raise Skip('eq')
        if isinstance(b, N):
            if a.ty in WIDE: return f'({a.ty}.eq_prim c {a.lean} {bv(128, b.v)})'
            if a.ty in LEAN: return f'decide ({a.lean} = {bv(LEAN[a.ty], b.v)})'
            if a.ty.startswith('prim:'): return f'decide (PrimTy.toInt (c := c) (t := .{a.ty[5:]}) {a.lean} = {b.v})'.replace('(t := ', '').replace(f'.{a.ty[5:]}) {a.lean}', f'.{a.ty[5:]} {a.lean}')
            raise Skip('eq const ' + a.ty)
        if a.ty == 'str' and b.ty == 'List Char': a, b = b, a
        if a.ty == 'List Char' and b.ty == 'str': return f'decide ({a.lean} = {b.lean}.toList)'
        if a.ty in WIDE and a.ty == b.ty: return f'({a.ty}.eq c {a.lean} {b.lean})'
        if a.ty != b.ty: raise Skip(f'eq {a.ty} {b.ty}')
        return f'decide ({a.lean} = {b.lean})'
def statements(p):
    """yield (kind, payload, pos) for the statements up to the closing brace or the end"""
    while p.pk() is not None and p.pk() != '}':
        pos = p.t[p.i][2]
        if p.pk() == 'let':
            p.nx()
            if p.pk() == 'mut': p.nx()
            n = p.nx()[1]
            if p.pk() == ':':
                p.nx(); p.nx()
            p.ex('='); e = p.expr(); p.ex(';'); yield ('let', (n, e), pos)
        elif p.pk() in ('assert_eq!', 'assert!', 'assert_ne!'):
            m = p.nx()[1]; p.ex('('); a = p.args(')')
            if p.pk() == ';': p.nx()
            yield (m, a, pos)
        elif p.pk() == 'use':
            while p.nx()[1] != ';': pass
        elif p.pk() == 'if':
            p.nx(); p.ex('cfg!'); p.ex('(')
            if p.nx()[1] != 'target_endian': raise Skip('cfg')
            p.ex('='); en = p.nx()[1]; p.ex(')'); p.ex('{')
            a = list(statements(p)); p.ex('}'); p.ex('else'); p.ex('{'); b = list(statements(p)); p.ex('}')
            yield ('endian', (a, b) if en == '"big"' else (b, a), pos)
        else:
            p.expr()
            if p.pk() == ';': p.nx()
            else: raise Skip('stmt ' + str(p.pk()))
out, skipped, count = [], [], 0
def emit(where, g, cond):
    global count
    body = '; '.join(g.st + [f'pure ({cond})'])
    out.append(f'/- {where} -/\nexample : ∀ c ∈ cfgs, (do {body} : Res Bool) = .ok true := by decide +kernel\n')
    count += 1
def run_block(code, lineof, where, me):
    try: toks = tokenize(code)
    except Skip as s: skipped.append((where, str(s))); return
    p = P(toks); g0 = Gen({}, me)
    def do(kind, a, pos, wrap=None):
        ln = lineof(pos)
        g = Gen(g0.env, me); g.st = list(g0.st); g.k = g0.k
        try:
            if kind == 'assert_eq!': cond = g.equal(g.ev(a[0]), g.ev(a[1]))
            elif kind == 'assert_ne!': cond = '!' + g.equal(g.ev(a[0]), g.ev(a[1]))
            elif kind == 'assert!':
                v = g.ev(a[0])
                if not isinstance(v, V) or v.ty != 'Bool': raise Skip('assert')
                cond = v.lean
            if wrap: cond = wrap(cond)
            emit(f'{where}:{ln}', g, cond)
        except Skip as s: skipped.append((f'{where}:{ln}', str(s)))
    try:
        for kind, a, pos in statements(p):
            if kind == 'let':
                try: g0.env[a[0]] = g0.ev(a[1])
                except Skip as s: skipped.append((f'{where}:{lineof(pos)}', 'let ' + str(s))); g0.env.pop(a[0], None)
            elif kind == 'endian':
                for br, neg in ((a[0], '!'), (a[1], '')):
                    for k2, a2, p2 in br:
                        if k2 == 'let': continue
                        do(k2, a2, p2, lambda cnd, neg=neg: f'({neg}c.bigEndian || {cnd})')
            else: do(kind, a, pos)
    except Skip as s: skipped.append((f'{where}:{lineof(p.t[min(p.i, len(p.t)-1)][2]) if p.t else 0}', 'block ' + str(s)))
import bisect
def process(path):
    src = open(path).read(); rel = path.replace('/repo/', '')
    me = 'U256' if '/uint' in path else 'I256'
    lines = src.split('\n')
    # documentation examples
    i = 0
    while i < len(lines):
        m = re.match(r'\s*//[/!] ```(.*)$', lines[i])
        if m:
            start = i; i += 1; buf, nums = [], []
            while i < len(lines) and not re.match(r'\s*//[/!] ```', lines[i]):
                t = re.sub(r'^\s*//[/!] ?', '', lines[i]); t = re.sub(r'^# ', '', t)
                if t.startswith('#'): t = ''
                t = t.replace('$', '')
                buf.append(t); nums.append(i + 1); i += 1
            if m.group(1).strip() in ('', 'rust'):
                offs = [0]
                for b in buf: offs.append(offs[-1] + len(b) + 1)
                run_block('\n'.join(buf), lambda pos, offs=offs, nums=nums: nums[bisect.bisect_right(offs, pos) - 1], rel, me)
        i += 1
    # unit tests
    for m in re.finditer(r'#\[test\]\s*\n(\s*#\[[^\n]*\n)*\s*fn (\w+)\(\) \{\n', src):
        d = 1; j = m.end()
        while d:
            if src[j] == '"':
                j += 1
                while src[j] != '"':
                    if src[j] == '\\': j += 1
                    j += 1
            if src[j] == '{': d += 1
            if src[j] == '}': d -= 1
            j += 1
        if m.group(1): skipped.append((rel, 'attr ' + m.group(2))); continue
        code = src[m.end():j - 1]
        base = src[:m.end()].count('\n') + 1
        run_block(code, lambda pos, code=code, base=base: base + code[:pos].count('\n'), rel, me)
for f in sorted(glob.glob('/repo/src/**/*.rs', recursive=True)): process(f)
HEAD = '''import Verif.Model.Parse
import Verif.Model.Fmt
import Verif.Model.Bytes
import Verif.Model.IntApi
import Verif.Model.Convert
import Verif.Spec

/-
Generated by tools/doctests.py from the documentation examples and unit tests of /repo/src: the assertions the authors
make about the code, checked of the model. They are tests of the model, not proofs of the properties.
-/

set_option maxRecDepth 100000

namespace Ethnum.DocTests

/-- A little-endian build with debug assertions and a big-endian release build. -/
def cfgs : List Cfg := [⟨false, true, true, .w64⟩, ⟨true, false, false, .w32⟩]
/-- `Result::unwrap` of a parse -/
def unwrap {α : Type} : ParseResult α → Res α | .ok v => .ok v | .error _ => throwPanic .explicit
/-- `Option::unwrap` -/
def unwrapO {α : Type} : Option α → Res α | some v => .ok v | none => throwPanic .explicit

'''
import os
os.makedirs('/verif/lean/Verif/Tests', exist_ok=True)
open('/verif/lean/Verif/Tests/DocTests.lean', 'w').write(HEAD + '\n'.join(out) + '\nend Ethnum.DocTests\n')
print(count, 'translated;', len(skipped), 'skipped')
if '-v' in sys.argv:
    for s in skipped: print(*s)
