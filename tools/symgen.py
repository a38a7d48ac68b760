"""Mirror of the symbolic executor in lean/Verif/Proof/X86/SymStep.lean and SymRun.lean.

It runs a straight-line program on polynomials and finds the advice (why an addition has no carry) that the Lean
executor is given.  Everything it finds is checked again in Lean."""
import re, sys
from collections import OrderedDict

REGS = ['rax','rbx','rcx','rdx','rsi','rdi','rbp','rsp','r8','r9','r10','r11','r12','r13','r14','r15']
T = 1 << 64

def parse(path, name):
    s = open(path).read()
    m = re.search(r'def %s : Prog := \[(.*?)\](?: --[^\n]*)?\n\n' % name, s, re.S)
    body = m.group(1) + ','
    prog = []
    for line in body.split('\n'):
        line = re.sub(r'--.*', '', line).strip().rstrip(',').strip()
        if not line: continue
        prog.append(parse_ins(line))
    return prog

def toks(s):
    out = []; i = 0
    while i < len(s):
        c = s[i]
        if c == ' ': i += 1; continue
        if c in '()⟨⟩,': out.append(c); i += 1; continue
        j = i
        while j < len(s) and s[j] not in ' ()⟨⟩,': j += 1
        out.append(s[i:j]); i = j
    return out

def num(t):
    t = t.split('#')[0]
    return int(t, 16) if t.startswith('0x') else int(t)

def parse_ins(line):
    t = toks(line); op = t[0][1:]; args = []; i = 1
    while i < len(t):
        if t[i] == '(':
            k = t[i+1]
            if k == '.reg': args.append(('reg', t[i+2][1:])); i += 4
            elif k == '.imm': args.append(('imm', num(t[i+2]))); i += 4
            elif k == '.mem':
                j = t.index('⟩', i)
                args.append(mem(t[i+3:j])); i = j + 2
            else: raise Exception(line)
        elif t[i] == '⟨':
            j = t.index('⟩', i); args.append(mem(t[i+1:j])); i = j + 1
        elif t[i].startswith('.'): args.append(('r', t[i][1:])); i += 1
        else: args.append(('n', num(t[i]))); i += 1
    return op, args

def mem(t):
    s = ' '.join(t)
    parts = s.split(' , ')
    base = None if parts[0] == 'none' else parts[0].split('.')[1]
    idx = None if parts[1].strip() == 'none' else parts[1]
    disp = num(parts[-1].strip())
    return ('mem', base, idx, disp)

# polynomials: dict key -> int, key = tuple of at most two variables
def padd(p, q):
    r = dict(p)
    for k, a in q.items():
        b = r.get(k, 0) + a
        if b: r[k] = b
        else: r.pop(k, None)
    return r
def smul(c, p): return {k: c*a for k, a in p.items()} if c else {}
def psub(p, q): return padd(p, smul(-1, q))
def con(n): return {(): n} if n else {}
def vr(i): return {(i,): 1}
def lin(p): return all(len(k) <= 1 for k in p)
def pmul(p, q):
    r = {}
    for k, a in p.items():
        for l, b in q.items():
            m = tuple(sorted(k + l)); r[m] = r.get(m, 0) + a*b
    return {k: a for k, a in r.items() if a}
def ub(i): return 1 if i % 2 else T - 1
def pmax(p):
    s = 0
    for k, a in p.items():
        if a > 0:
            for i in k: a *= ub(i)
            s += a
    return s
def asconst(p):
    if not p: return 0
    if len(p) == 1 and () in p: return p[()]
    return None
def fz(p): return frozenset(p.items())

class Sym:
    def __init__(self, args, rd, atoms=(), nohint=False, maxk=10, rs=()):
        # args: list of (reg, len, shift, wr)
        self.args = args; self.rd = rd
        self.nv = 2; self.words = []; self.facts = []; self.pidx = {}; self.defs = {}; self.eqs = {}
        self.regs = {r: ('init', r) for r in REGS}
        self.mem = OrderedDict()
        for b, (r, n, sh, wr) in reversed(list(enumerate(args))): self.regs[r] = ('ptr', b, 0)
        for b, (r, n, sh, wr) in enumerate(args):
            for j in range(n): self.mem[(b, (8*j - 8*sh) % T)] = [wr, None]
        self.inputs = []
        self.low = {}       # fresh variable -> (index of its low word)
        for b in rd:
            r, n, sh, wr = args[b]
            l = []
            for j in range(n):
                self.mem[(b, (8*j - 8*sh) % T)][1] = ('num', vr(self.nv))
                self.log(vr(self.nv)); l.append(len(self.words)-1); self.nv += 2
            self.inputs.append(l)
        self.rs = rs
        for r in rs:
            self.regs[r] = ('num', vr(self.nv))
            self.log(vr(self.nv)); self.inputs.append([len(self.words)-1]); self.nv += 2
        self.cf = self.of = self.zf = None
        self.hints = []; self.pc = 0; self.atoms = set(atoms); self.snap = {}; self.wat = {}
        self.nohint = nohint; self.maxk = maxk; self.usedhint = None
    # words
    def log(self, *ps):
        for p in ps:
            self.pidx.setdefault(fz(p), len(self.words)); self.words.append(p)
        return len(self.words) - len(ps)
    def idx(self, p):
        f = fz(p)
        for i, q in enumerate(self.words):
            if len(q) == len(p) and fz(q) == f: return i
        raise Exception('no word for %s' % p)
    def node(self, p):
        """A polynomial as a combination of words: {key: coefficient}; key () for constants, (i,) for words."""
        n = asconst(p)
        if n is not None: return {(): n} if n else {}
        i = self.pidx.get(fz(p))
        if i is not None: return {(i,): 1}
        return None
    def simple(self, i):
        w = self.words[i]
        return all(a >= 0 for a in w.values()) and len(w) <= 1
    def nmax(self, key, a):
        m = a
        for i in key: m *= min(pmax(self.words[i]), T - 1)
        return m
    def eq(self, i, ns):
        if self.pidx[fz(self.words[i])] == i and None not in ns: self.eqs[i] = padd(padd(ns[0], ns[1]), ns[2])
    def small(self, nodes, sign, bound):
        """Advice that shows that the sum of nodes is less than bound."""
        if self.nohint or any(n is None for n in nodes): return None
        S = {}
        for n in nodes: S = padd(S, n)
        for k in range(0, self.maxk):
            w = T**k; E = smul(w, S)
            for _ in range(400):
                tot = sum(self.nmax(key, a) for key, a in E.items() if a > 0)
                if tot < w*bound:
                    l = []
                    for key, a in sorted(E.items()):
                        if len(key) != 1: continue
                        if a < 0: l.append((key[0], -a))
                        elif not self.simple(key[0]): l.append((key[0], -a))
                    return w, l
                best = None
                for key, a in E.items():
                    if len(key) == 1 and (key[0] in self.eqs or key[0] in self.defs and a % T == 0):
                        if best is None or key[0] > best: best = key[0]
                if best is None: break
                a = E[(best,)]
                E = padd(E, {(best,): -a})
                E = padd(E, smul(a, self.eqs[best]) if best in self.eqs else smul(a // T, self.defs[best]))
        return None
    def hint(self, w, l):
        n = len(self.words); self.usedhint = (w, [(n - 1 - i, c) for i, c in l])
    def add(self, a, b, c):
        S = padd(padd(a, b), c)
        n = asconst(S)
        if n is not None:
            assert n >= 0
            p, q = con(n % T), con(n // T)
            i = self.log(p, q); return p, q, i
        ns = [self.node(x) for x in (a, b, c)]
        if pmax(S) < T:
            i = self.log(S, {}); self.eq(i, ns); return S, {}, i
        h = self.small(ns, 1, T)
        if h is not None:
            self.hint(*h); i = self.log(S, {}); self.eq(i, ns); return S, {}, i
        v = self.nv + 1; self.nv += 2
        r = psub(S, {(v,): T}); i = self.log(r, vr(v)); self.low[v] = (i, 1)
        if None not in ns: self.defs[i+1] = padd(padd(padd(ns[0], ns[1]), ns[2]), {(i,): -1})
        return r, vr(v), i
    def sub(self, a, b, c):
        E = psub(a, b); D = psub(E, c)
        n = asconst(D)
        if n is not None:
            if n >= 0: p, q = con(n), {}
            else: p, q = con(T + n), con(1)
            i = self.log(p, q); return p, q, i
        if not E:
            p = smul(T-1, c); i = self.log(p, c); return p, c, i
        if pmax(smul(-1, D)) == 0:
            i = self.log(D, {}); return D, {}, i
        ns = [self.node(x) for x in (a, b, c)]
        h = self.small([None if n is None else (smul(-1, n) if j == 0 else n) for j, n in enumerate(ns)], 1, 1)
        if h is not None:
            self.hint(*h); i = self.log(D, {}); return D, {}, i
        v = self.nv + 1; self.nv += 2
        r = padd(D, {(v,): T}); i = self.log(r, vr(v)); self.low[v] = (i, -1)
        if None not in ns: self.defs[i+1] = padd(psub(psub({(i,): 1}, ns[0]), smul(-1, ns[1])), ns[2])
        return r, vr(v), i
    def prod(self, a, b):
        x, y = asconst(a), asconst(b)
        if x is not None: return smul(x, b)
        if y is not None: return smul(y, a)
        if lin(a) and lin(b): return pmul(a, b)
        return None
    def mul(self, a, b):
        P = self.prod(a, b)
        if P is None: raise Exception('pc %d: product of degree > 2' % self.pc)
        if pmax(P) < T:
            i = self.log(P, {}); return P, {}, i
        v = self.nv; self.nv += 2
        r = psub(P, {(v,): T}); i = self.log(r, vr(v)); self.low[v] = (i, 1)
        na, nb = self.node(a), self.node(b)
        if na is not None and nb is not None: self.defs[i+1] = padd(pmul(na, nb), {(i,): -1})
        return r, vr(v), i
    def new(self, f):
        v = vr(self.nv); self.nv += 2
        self.log(v); self.facts.append(f(v)); return v
    def atom(self, p):
        if self.pc in self.atoms:
            return self.new(lambda v: ('eq', v, p))
        return p
    # operands
    def key(self, m):
        assert m[2] is None and m[1] is not None, m
        r = self.regs[m[1]]
        assert r[0] == 'ptr', (self.pc, m, r)
        return (r[1], (r[2] + m[3]) % T)
    def val(self, o):
        if o[0] in ('reg', 'r'): return self.regs[o[1]]
        if o[0] == 'imm': return ('num', con(o[1]))
        c = self.mem[self.key(o)]
        assert c[1] is not None, (self.pc, o)
        return c[1]
    def num(self, o):
        v = self.val(o)
        if v[0] != 'num': raise Exception('pc %d: %s is %s' % (self.pc, o, v))
        return v[1]
    def put(self, d, v):
        if d[0] in ('reg', 'r'): self.regs[d[1]] = v
        else:
            c = self.mem[self.key(d)]; assert c[0], (self.pc, d); c[1] = v
    def mask(self, p):
        it = sorted(p.items())
        if len(it) == 1 and len(it[0][0]) == 1 and it[0][0][0] % 2 and it[0][1] == T-1: return vr(it[0][0][0])
        if len(it) == 2 and it[0][0] == () and it[0][1] == T-1 and len(it[1][0]) == 1 and it[1][0][0] % 2 and it[1][1] == -(T-1):
            return {(): 1, it[1][0]: -1}
        return None
    def logic(self, op, a, b):
        x, y = asconst(a), asconst(b)
        f = {'and': lambda x, y: x & y, 'or': lambda x, y: x | y, 'xor': lambda x, y: x ^ y}[op]
        if x is not None and y is not None: return con(f(x, y))
        if op == 'and':
            if x == 0 or y == 0: return {}
            for s, t in ((a, b), (b, a)):
                q = self.mask(s)
                if q is not None:
                    p = self.prod(t, q)
                    if p is not None: return p
        return self.new(lambda v: (op, v, a, b))
    def shr(self, a, k):
        for f in reversed(self.facts):
            if f[0] == 'shr' and f[3] == k and f[2] == a: return f[1]
        q = self.new(lambda v: ('shr', v, a, k))
        self.log(smul(2**k, q), smul(2**(64-k), psub(a, smul(2**k, q))))
        return q
    def shl(self, a, k):
        q = self.shr(a, 64-k)
        return smul(2**k, psub(a, smul(2**(64-k), q)))
    def sel(self, kind, c, a, b):
        if kind == 'sel':
            x = asconst(c)
            if x == 0: return b
            if x == 1: return a
        return self.new(lambda v: (kind, v, c, a, b))
    def step(self, op, A):
        same = len(A) == 2 and A[0][0] in ('reg','r') and A[1][0] in ('reg','r') and A[0][1] == A[1][1]
        R = lambda r: ('r', r)
        if op == 'nop': return
        if op == 'mov': self.put(A[0], self.val(A[1])); return
        if op == 'mov32':
            p = self.num(A[1]); assert pmax(p) < 2**32; self.put(A[0], ('num', p)); return
        if op == 'lea':
            m = A[1]; assert m[2] is None
            r = self.regs[m[1]]
            if r[0] == 'ptr': self.put(A[0], ('ptr', r[1], (r[2]+m[3]) % T))
            else:
                n = asconst(r[1]); assert n is not None, self.pc
                self.put(A[0], ('num', con((n + m[3]) % T)))
            return
        if op in ('add', 'sub') and self.val(A[0])[0] == 'ptr':
            assert A[1][0] == 'imm'
            v = self.val(A[0]); self.cf = self.of = self.zf = None
            self.put(A[0], ('ptr', v[1], (v[2] + (A[1][1] if op == 'add' else -A[1][1])) % T)); return
        if op in ('add', 'adc', 'sub', 'sbb', 'neg', 'inc', 'dec'):
            keep = False; cf0 = self.cf
            if op == 'add': r = self.add(self.num(A[0]), self.num(A[1]), {})
            elif op == 'adc': r = self.add(self.num(A[0]), self.num(A[1]), self.cf)
            elif op == 'sub': r = self.sub(self.num(A[0]), self.num(A[1]), {})
            elif op == 'sbb':
                r = self.sub({}, {}, self.cf) if same else self.sub(self.num(A[0]), self.num(A[1]), self.cf)
            elif op == 'neg': r = self.sub({}, self.num(A[0]), {})
            elif op == 'inc': r = self.add(self.num(A[0]), con(1), {}); keep = True
            elif op == 'dec': r = self.sub(self.num(A[0]), con(1), {}); keep = True
            p, q, i = r; self.wat[self.pc] = i
            p = self.atom(p)
            self.cf = cf0 if keep else q; self.of = None; self.zf = p
            self.put(A[0], ('num', p)); return
        if op == 'cmp':
            p, q, i = self.sub(self.num(A[0]), self.num(A[1]), {}); self.wat[self.pc] = i
            self.cf = q; self.of = None; self.zf = p; return
        if op in ('and', 'or', 'xor'):
            if op == 'xor' and same: p = {}
            else: p = self.logic(op, self.num(A[0]), self.num(A[1]))
            self.cf = {}; self.of = {}; self.zf = p; self.put(A[0], ('num', p)); return
        if op == 'test':
            assert same; self.cf = {}; self.of = {}; self.zf = self.num(A[0]); return
        if op == 'not': self.put(A[0], ('num', psub(con(T-1), self.num(A[0])))); return
        if op == 'mul':
            p, q, i = self.mul(self.num(R('rax')), self.num(A[0])); self.wat[self.pc] = i
            self.regs['rax'] = ('num', p); self.regs['rdx'] = ('num', q); self.cf = self.of = self.zf = None; return
        if op == 'imul':
            p, q, i = self.mul(self.num(A[0]), self.num(A[1])); self.wat[self.pc] = i
            p = self.atom(p)
            self.put(A[0], ('num', p)); self.cf = self.of = self.zf = None; return
        if op == 'mulx':
            p, q, i = self.mul(self.num(R('rdx')), self.num(A[2])); self.wat[self.pc] = i
            p = self.atom(p)
            self.put(A[1], ('num', p)); self.put(A[0], ('num', q)); return
        if op in ('adcx', 'adox'):
            c = self.cf if op == 'adcx' else self.of
            p, q, i = self.add(self.num(A[0]), self.num(A[1]), c); self.wat[self.pc] = i
            p = self.atom(p); self.put(A[0], ('num', p))
            if op == 'adcx': self.cf = q
            else: self.of = q
            return
        if op in ('shl', 'shr', 'shld', 'shrd'):
            k = A[-1][1] % 64; assert k
            a = self.num(A[0])
            if op == 'shl': p = self.shl(a, k)
            elif op == 'shr': p = self.shr(a, k)
            elif op == 'shld': p = self.shl(a, k); p = padd(p, self.shr(self.num(A[1]), 64-k))
            else: p = self.shl(self.num(A[1]), 64-k); p = padd(p, self.shr(a, k))
            p = self.atom(p)
            self.cf = self.of = None; self.zf = p; self.put(A[0], ('num', p)); return
        if op == 'adc32':
            a, b = self.num(A[0]), self.num(A[1]); assert pmax(a)+pmax(b)+1 < 2**32
            p = padd(padd(a, b), self.cf); self.put(A[0], ('num', p)); self.cf = {}; self.of = self.zf = None; return
        if op == 'cmov':
            c = A[0][1]; a, b = self.num(A[1]), self.num(A[2])
            if c == 'cy': p = self.sel('sel', self.cf, b, a)
            elif c == 'nc': p = self.sel('sel', self.cf, a, b)
            elif c == 'zr': p = self.sel('selz', self.zf, b, a)
            elif c == 'nz': p = self.sel('selz', self.zf, a, b)
            elif c == 'ab': p = self.sel('selz', self.zf, a, self.sel('sel', self.cf, a, b))
            self.put(A[1], ('num', p)); return
        if op == 'push':
            r = self.regs['rsp']; o = (r[2] - 8) % T; v = self.regs[A[0][1]]
            self.regs['rsp'] = ('ptr', r[1], o); c = self.mem[(r[1], o)]; assert c[0]; c[1] = v; return
        if op == 'pop':
            r = self.regs['rsp']; v = self.mem[(r[1], r[2])][1]; assert v is not None
            self.regs['rsp'] = ('ptr', r[1], (r[2]+8) % T); self.regs[A[0][1]] = v; return
        raise Exception('pc %d: %s' % (self.pc, op))
    def mac(self, kind, n1, n2, nout, uses, places):
        """A field operation in one step."""
        (r0, d0), (r1, d1), (r2, d2) = places
        take = lambda r, d, n: [self.num(('mem', r, None, (d + 8*j) % T)) for j in range(n)]
        xs, ys = take(r1, d1, n1), take(r2, d2, n2)
        keys = [self.key(('mem', r0, None, (d0 + 8*j) % T)) for j in range(nout)]
        for r in uses: self.regs[r] = ('empty',)
        self.cf = self.of = self.zf = None
        zs = []
        for k in keys:
            v = vr(self.nv); self.nv += 2
            self.log(v); zs.append(v); assert self.mem[k][0]; self.mem[k][1] = ('num', v)
        self.facts.append(('mac', kind, xs, ys, zs))
        return [self.idx(p) for p in xs], [self.idx(p) for p in ys], [self.idx(p) for p in zs]
    def runsegs(self, prog, segs):
        """segs: ('raw', n) or ('op', n, arguments of mac).  Returns the advice for each piece and the words of each operation."""
        pc = 0; out = []
        for s in segs:
            if s[0] == 'raw':
                self.hints = []
                if len(s) > 2:
                    n, (p0, p1, p2) = s[2]
                    take = lambda q: [self.idx(self.num(('mem', q[0], None, (q[1] + 8*j) % T))) for j in range(n)]
                    xy = take(p1), take(p2)
                for i in range(s[1]):
                    self.pc = pc + i; self.usedhint = None
                    self.step(*prog[pc + i])
                    at = self.pc in self.atoms
                    if self.usedhint or at:
                        w, l = self.usedhint or (0, [])
                        self.hints.append((i, w, l, at))
                    self.shot()
                pc += s[1]; out.append(self.hints if len(s) == 2 else (self.hints, (*xy, take(p0))))
            else:
                out.append(self.mac(*s[2])); pc += s[1]
        assert pc == len(prog)
        return out
    def shot(self):
        self.snap[self.pc] = {r: v[1] for r, v in self.regs.items() if v[0] == 'num'}
        self.snap[self.pc]['cf'] = self.cf; self.snap[self.pc]['zf'] = self.zf
    def run(self, prog, upto=None):
        for pc, (op, A) in enumerate(prog):
            if upto is not None and pc >= upto: break
            self.pc = pc; self.usedhint = None
            self.step(op, A)
            at = pc in self.atoms
            if self.usedhint or at:
                w, l = self.usedhint or (0, [])
                self.hints.append((pc, w, l, at))
            self.snap[pc] = {r: v[1] for r, v in self.regs.items() if v[0] == 'num'}
            self.snap[pc]['cf'] = self.cf; self.snap[pc]['zf'] = self.zf
        return self
    def out(self, b):
        r, n, sh, wr = self.args[b]
        return [self.idx(self.mem[(b, (8*j - 8*sh) % T)][1][1]) for j in range(n)]
    def at(self, pc, *regs):
        return [self.idx(self.snap[pc][r]) for r in regs]
    # evaluation of a relation
    def vec(self, l):
        p = {}
        for k, i in enumerate(l): p = padd(p, smul(T**k, self.words[i]))
        return p
    def rel(self, ts):
        p = {}
        for t in ts:
            if t[0] == 'one': q = con(t[1])
            elif t[0] == 'lin': q = smul(t[1], self.vec(t[2]))
            else: q = smul(t[1], pmul(self.vec(t[2]), self.vec(t[3])))
            p = padd(p, q)
        return p

def lean_list(l): return '[' + ', '.join(str(x) for x in l) + ']'
def lean_int(c): return str(c) if c >= 0 else '(%d)' % c
def lean_term(t):
    if t[0] == 'one': return '.one %s' % lean_int(t[1])
    if t[0] == 'lin': return '.lin %s %s' % (lean_int(t[1]), lean_list(t[2]))
    return '.mul %s %s %s' % (lean_int(t[1]), lean_list(t[2]), lean_list(t[3]))
def lean_hints(hs):
    return '[' + ',\n  '.join('(%d, ⟨%d, [%s], %s⟩)' % (pc, w, ', '.join('(%d, %s)' % (i, lean_int(c)) for i, c in l), 'true' if at else 'false') for pc, w, l, at in hs) + ']'
def lean_args(args): return '[' + ', '.join('⟨.%s, %d, %d, %s⟩' % (r, n, sh, 'true' if wr else 'false') for r, n, sh, wr in args) + ']'
