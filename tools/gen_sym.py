"""Writes the advice and the claims for the symbolic executor (lean/Verif/Proof/X86/Sym*Data.lean).

For each routine: names for lists of words of the run, and relations between the numbers that have these words as digits.
All of it is checked by the Lean kernel."""
import os, sys
sys.path.insert(0, os.path.dirname(__file__))
from symgen import *
ROOT = os.path.join(os.path.dirname(__file__), '..')
M = os.path.join(ROOT, 'lean/Verif/Model/AsmX86/')
p256 = 2**256 - 2**224 + 2**192 + 2**96 - 1
n256 = 0xffffffff00000000ffffffffffffffffbce6faada7179e84f3b9cac2fc632551
p384 = 2**384 - 2**128 - 2**96 + 2**32 - 1
n384 = 0xffffffffffffffffffffffffffffffffffffffffffffffffc7634d81f4372ddf581a0db248b0a77aecec196accc52973
C = 0xffffffff00000001

st = lambda n: ('rsp', n, n, True)
o = lambda n: ('rdi', n, 0, True)
i1 = lambda n: ('rsi', n, 0, False)
i2 = lambda n: ('rdx', n, 0, False)

def li(c): return hex(c) if c >= 0 else '(-%s)' % hex(-c)

class R:
    """A routine with named lists of words."""
    def __init__(self, ns, file, prog, args, rd, **k):
        self.ns, self.prog = ns, prog
        self.P = parse(M + file, prog)
        self.s = Sym(args, rd, **k).run(self.P)
        self.names = {}; self.claims = []; self.bits = []; self.steps = []
        self.text = open(M + file).read()
    def name(self, n, l):
        self.names[n] = l if isinstance(l, int) else list(l); return l
    def at(self, n, pc, *regs):
        l = self.s.at(pc, *regs); return self.name(n, l[0] if len(l) == 1 else l)
    def carry(self, n, pc): self.bits.append(n); return self.name(n, self.s.wat[pc] + 1)
    def L(self, n): return [self.names[n]] if isinstance(self.names[n], int) else self.names[n]
    def T(self, n): return '[%s]' % n if isinstance(self.names[n], int) else n
    def rel(self, *ts):
        tt = []
        for t in ts:
            if t[0] == 'one': tt.append(t)
            elif t[0] == 'lin': tt.append(('lin', t[1], self.L(t[2])))
            else: tt.append(('mul', t[1], self.L(t[2]), self.L(t[3])))
        r = self.s.rel(tt)
        if r:
            print(self.ns, 'relation fails', len(r)); show(self, r); raise SystemExit(1)
        def f(t):
            if t[0] == 'one': return '.one %s' % li(t[1])
            if t[0] == 'lin': return '.lin %s %s' % (li(t[1]), self.T(t[2]))
            return '.mul %s %s %s' % (li(t[1]), self.T(t[2]), self.T(t[3]))
        self.claims.append('.rel [%s]' % ', '.join(f(t) for t in ts))
    def w(self, n): return self.names[n]
    def find_steps(self, lo=0, hi=10**9):
        """The six steps of a reduction modulo p384."""
        s = self.s; P = self.P; st = []
        for pc, (op, A) in enumerate(P):
            if lo <= pc < hi and op == 'shl' and A[0] == ('reg', 'rdx') and A[1][1] == 32 and P[pc+1][0] == 'add':
                d = s.idx(s.snap[pc-1][P[pc-1][1][1][1]]); w = s.idx(s.snap[pc+1]['rdx'])
                m = next(q for q in range(pc, len(P)) if P[q][0] == 'mulx')
                f = [f for f in s.facts if f[0] == 'shr' and f[2] == s.words[d] and f[3] == 32]
                t = (w, d, s.idx(f[0][1]), s.wat[pc+1] + 1, s.wat[m] + 1, s.wat[m])
                assert not s.rel([('lin', 1, [w]), ('lin', -(2**32+1), [d]), ('lin', T, [t[2]]), ('lin', T, [t[3]])])
                assert not s.rel([('lin', C, [w]), ('lin', -T, [t[4]]), ('lin', -1, [t[5]])])
                st.append(t)
        assert len(st) == 6
        self.steps += st
        self.name('M', [t[0] for t in st]); self.name('E', [t[1] for t in st]); self.name('L', [t[5] for t in st])
    def andc(self, d, a, n): self.claims.append('.andc %s %s %s' % (d, a, li(n)))
    def or_(self, d, a, b): self.claims.append('.or %s %s %s' % (d, a, b))
    def sel(self, d, c, a, b): self.claims.append('.sel %s %s %s %s' % (d, c, a, b))
    def selz(self, d, z, a, b): self.claims.append('.selz %s %s %s %s' % (d, z, a, b))
    def le(self, i, n): self.claims.append('.le %s %s' % (i, li(n)))
    def out(self, b, n): self.claims.append('.out %d %s' % (b, n))
    def lean(self):
        r = '\nnamespace %s\n' % self.ns
        for n in self.bits: self.le(n, 1)
        for n, l in self.names.items(): r += ('def %s : Nat := %d\n' % (n, l) if isinstance(l, int) else 'def %s : List Nat := %s\n' % (n, lean_list(l)))
        r += 'def hints : List (Nat × Hint) := %s\n' % lean_hints(self.s.hints)
        if self.steps:
            r += 'def steps : List Step := [\n  %s]\n' % ',\n  '.join('⟨%d, %d, %d, %d, %d, %d⟩' % t for t in self.steps)
        r += 'def claims : List Claim := %s[\n  %s]\n' % ('steps.flatMap Step.claims ++ ' if self.steps else '', ',\n  '.join(self.claims))
        r += 'set_option maxRecDepth 100000 in\n'
        r += 'theorem verified : verify %s %s hints %s claims = true := by decide +kernel\n' % (lean_args(self.s.args), lean_list(self.s.rd), self.prog)
        r += 'end %s\n' % self.ns
        return r

def show(R, r):
    s = R.s
    pcof = {i: pc for pc, i in s.wat.items()}
    for k, a in sorted(r.items())[:20]:
        v = k[-1] if k else None; i = s.low.get(v); pc = pcof.get(i[0]) if i else None
        print('  ', k, hex(a), pc, R.P[pc] if pc is not None else [f[0] for f in s.facts if v is not None and f[1] == vr(v)])

def write(mod, imports, rs):
    t = ''.join('import %s\n' % i for i in ['Verif.Proof.X86.SymUse'] + imports)
    t += '\n/-! Generated by tools/gen_sym.py: advice and claims for the symbolic executor, checked by the kernel. -/\n'
    t += 'namespace Verif.X86.Sym\nopen Verif Verif.X86 Verif.X86.Asm\n'
    t += ''.join(r.lean() for r in rs) + '\nend Verif.X86.Sym\n'
    f = os.path.join(ROOT, 'lean/Verif/Proof/X86/%s.lean' % mod)
    if not os.path.exists(f) or open(f).read() != t: open(f, 'w').write(t)

def io(r, *ins):
    for n, l in zip(ins, r.s.inputs): r.name(n, l)

# ---- P-256
def add256():
    r = R('AddP256', 'P256.lean', 'bignumAddP256', [st(0), o(4), i1(4), i2(4)], [2, 3])
    io(r, 'X', 'Y')
    r.at('U', 16, 'rax', 'rcx', 'r8', 'r9'); r.at('D', 17, 'r11'); r.carry('b', 17)
    r.at('A1', 18, 'r10'); r.at('A2', 19, 'rdx'); r.name('Z', r.s.out(1)); r.carry('c', 26)
    r.rel(('lin', 1, 'U'), ('lin', 2**256, 'D'), ('lin', -2**320, 'b'), ('lin', -1, 'X'), ('lin', -1, 'Y'), ('one', p256))
    r.rel(('lin', 1, 'Z'), ('lin', 2**256, 'c'), ('lin', -1, 'U'), ('lin', -1, 'D'), ('lin', -2**64, 'A1'), ('lin', -2**192, 'A2'))
    r.andc('A1', 'D', 0xffffffff); r.andc('A2', 'D', C); r.out(1, 'Z')
    return r
def neg256():
    r = R('NegP256', 'P256.lean', 'bignumNegP256', [st(0), o(4), i1(4)], [2])
    io(r, 'X')
    r.at('O', 9, 'r11'); r.carry('b', 10); r.at('N', 10, 'r11'); r.name('Z', r.s.out(1)); r.carry('c', 20)
    x = r.L('X'); a, = r.s.at(4, 'r10'); d, = r.s.at(8, 'r11')
    r.or_(a, x[0], x[1]); r.or_(d, x[2], x[3]); r.or_('O', d, a)
    r.rel(('lin', 1, 'N'), ('lin', 1, 'O'), ('lin', -2**64, 'b'))
    r.rel(('lin', 1, 'Z'), ('lin', -2**256, 'c'), ('lin', -p256, 'b'), ('lin', 1, 'X'))
    r.out(1, 'Z')
    return r
def modn256():
    r = R('ModN256', 'P256.lean', 'bignumModN256', [st(0), o(4), i1(4)], [2])
    io(r, 'X')
    r.at('U', 11, 'rdx', 'rcx', 'r8', 'r9'); r.carry('c', 11); r.name('Z', r.s.out(1)); r.carry('b', 23)
    r.rel(('lin', 1, 'U'), ('lin', 2**256, 'c'), ('lin', -1, 'X'), ('one', -(2**256 - n256)))
    r.rel(('lin', 1, 'Z'), ('lin', -2**256, 'b'), ('lin', -1, 'U'), ('one', 2**256 - n256), ('lin', -(2**256 - n256), 'c'))
    r.out(1, 'Z')
    return r
def demont256():
    r = R('DemontP256', 'P256.lean', 'bignumDemontP256', [st(1), o(4), i1(4)], [2])
    io(r, 'X')
    r.name('M', [r.s.idx(r.s.snap[pc][q]) for pc, q in ((9, 'r8'), (12, 'r9'), (26, 'r10'), (29, 'r11'))])
    r.name('Z', r.s.out(1))
    r.rel(('lin', 2**256, 'Z'), ('lin', -p256, 'M'), ('lin', -1, 'X'))
    r.out(1, 'Z')
    return r
def tomont256():
    r = R('TomontP256', 'P256.lean', 'bignumTomontP256', [st(4), o(4), i1(4)], [2])
    io(r, 'X')
    r.name('M', [r.s.idx(r.s.snap[pc][q]) for pc, q in ((32, 'r8'), (35, 'r9'), (84, 'r10'), (87, 'r11'))])
    r.at('V', 99, 'r12', 'r13', 'r14', 'r15'); r.at('t', 99, 'r8')
    r.name('U', [r.s.wat[pc] for pc in (103, 105, 107, 109)])
    r.at('D', 111, 'rax'); r.carry('b', 111); r.at('A1', 112, 'rdx'); r.at('A2', 113, 'rcx')
    r.name('Z', r.s.out(1)); r.carry('c', 117)
    r.rel(('lin', 2**256, 'V'), ('lin', 2**512, 't'), ('lin', -p256, 'M'), ('lin', -(2**512 % p256), 'X'))
    r.rel(('lin', 1, 'U'), ('lin', 2**256, 'D'), ('lin', -2**320, 'b'), ('one', -(p256-1)), ('lin', 1, 'V'), ('lin', 2**256, 't'))
    r.rel(('lin', 1, 'Z'), ('lin', -2**256, 'c'), ('lin', -1, 'V'), ('lin', 1, 'D'), ('lin', 2**64, 'A1'), ('lin', 2**192, 'A2'))
    r.andc('A1', 'D', 0xffffffff); r.andc('A2', 'D', C); r.out(1, 'Z')
    return r
def mont256(ns, prog, args, rd, ms, pv, regs, pcs, sregs, pc0, top):
    """Montgomery multiplication or squaring."""
    r = R(ns, 'P256.lean', prog, args, rd)
    io(r, 'X', 'Y')
    r.name('M', [r.s.idx(r.s.snap[pc][q]) for pc, q in ms])
    r.at('V', pv, *regs); r.at('t', pv, 'r8')
    r.at('U', pcs, *sregs); r.at('D', pcs, 'rax'); r.carry('c', pcs)
    r.name('Z', r.s.out(1))
    y = 'Y' if len(rd) == 2 else 'X'
    r.rel(('lin', 2**256, 'V'), ('lin', 2**512, 't'), ('lin', -p256, 'M'), ('mul', -1, 'X', y))
    r.rel(('lin', 1, 'U'), ('lin', 2**256, 'D'), ('lin', 2**320, 'c'), ('one', -(2**320-p256)), ('lin', -1, 'V'), ('lin', -2**256, 't'))
    r.sel('Z', 'c', 'U', 'V'); r.out(1, 'Z')
    return r
def montmul256():
    return mont256('MontmulP256', 'bignumMontmulP256', [st(5), o(4), i1(4), i2(4)], [2, 3],
        [(34,'r8'),(37,'r9'),(85,'r10'),(88,'r11')], 101, ['r12','r13','r14','r15'], 111, ['rcx','rdx','r9','r11'], 0, 0)
def montsqr256():
    return mont256('MontsqrP256', 'bignumMontsqrP256', [st(6), o(4), i1(4)], [2],
        [(50,'r8'),(53,'r9'),(73,'r10'),(76,'r11')], 88, ['r12','r13','r14','r15'], 98, ['rcx','rdx','rbp','r11'], 0, 0)

# ---- P-384
def add384():
    r = R('AddP384', 'P384.lean', 'bignumAddP384', [st(0), o(6), i1(6), i2(6)], [2, 3])
    io(r, 'X', 'Y')
    r.at('U', 22, 'rax', 'rcx', 'r8', 'r9', 'r10', 'r11'); r.at('D', 23, 'rdx'); r.carry('k', 23)
    r.at('A', 24, 'rdx'); r.at('S', 26, 'rsi'); r.carry('b1', 26); r.at('A2', 32, 'rdx')
    r.carry('b2', 29); r.name('N', r.s.wat[33]); r.carry('b3', 33)
    r.name('Z', r.s.out(1)); r.carry('c', 40)
    r.rel(('lin', 1, 'U'), ('lin', 2**384, 'D'), ('lin', 2**448, 'k'), ('lin', -1, 'X'), ('lin', -1, 'Y'), ('one', -(2**448 - p384)))
    r.rel(('lin', 1, 'S'), ('lin', 1, 'A'), ('lin', -2**64, 'b1'))
    r.rel(('lin', 1, 'N'), ('lin', 2**64 - 1, 'b2'), ('lin', -2**64, 'b3'))
    r.rel(('lin', 1, 'Z'), ('lin', -2**384, 'c'), ('lin', -1, 'U'), ('lin', 1, 'S'), ('lin', 2**64, 'A'), ('lin', 2**128, 'A2'), ('lin', -2**128, 'b2'), ('lin', 2**128, 'b3'))
    r.andc('A', 'D', 0xffffffff); r.claims.append('.and A2 A S'); r.out(1, 'Z')
    return r
def neg384():
    r = R('NegP384', 'P384.lean', 'bignumNegP384', [st(0), o(6), i1(6)], [2])
    io(r, 'X')
    x = r.L('X'); a, = r.s.at(2, 'rax'); b, = r.s.at(4, 'rcx'); c, = r.s.at(6, 'rdx'); d, = r.s.at(7, 'rax')
    r.at('O', 8, 'rax'); r.at('N', 9, 'rax'); r.carry('b', 9); r.name('Z', r.s.out(1)); r.carry('c', 24)
    r.or_(a, x[0], x[1]); r.or_(b, x[2], x[3]); r.or_(c, x[4], x[5]); r.or_(d, a, b); r.or_('O', d, c)
    r.rel(('lin', 1, 'N'), ('lin', 1, 'O'), ('lin', -2**64, 'b'))
    r.rel(('lin', 1, 'Z'), ('lin', -2**384, 'c'), ('lin', -p384, 'b'), ('lin', 1, 'X'))
    r.out(1, 'Z')
    return r
def modn384():
    r = R('ModN384', 'P384.lean', 'bignumModN384', [st(0), o(6), i1(6)], [2])
    io(r, 'X')
    q = 2**384 - n384
    r.at('U', 13, 'rdx', 'rcx', 'r8', 'r9', 'r10', 'r11'); r.carry('c', 13); r.name('Z', r.s.out(1))
    r.carry('b1', 17); r.name('N1', r.s.wat[22]); r.carry('b2', 22)
    r.carry('b3', 23); r.name('N2', r.s.wat[28]); r.carry('b4', 28); r.carry('b', 35)
    r.rel(('lin', 1, 'U'), ('lin', 2**384, 'c'), ('lin', -1, 'X'), ('one', -q))
    r.rel(('lin', 1, 'N1'), ('lin', 2**64 - 1, 'b1'), ('lin', -2**64, 'b2'))
    r.rel(('lin', 1, 'N2'), ('lin', 2**64 - 1, 'b3'), ('lin', -2**64, 'b4'))
    r.rel(('lin', 1, 'Z'), ('lin', -2**384, 'b'), ('lin', -1, 'U'), ('one', q), ('lin', -q, 'c'),
        ('lin', -2**64, 'b1'), ('lin', 2**64, 'b2'), ('lin', -2**128, 'b3'), ('lin', 2**128, 'b4'))
    r.out(1, 'Z')
    return r
def demont384():
    r = R('DemontP384', 'P384.lean', 'bignumDemontP384', [st(2), o(6), i1(6)], [2])
    io(r, 'X'); r.find_steps()
    r.name('Z', r.s.out(1))
    r.rel(('lin', 2**384, 'Z'), ('lin', -p384, 'M'), ('lin', -1, 'L'), ('lin', 1, 'E'), ('lin', -1, 'X'))
    r.out(1, 'Z')
    return r
def tomont384():
    r = R('TomontP384', 'P384.lean', 'bignumTomontP384', [st(5), o(6), i1(6)], [2])
    io(r, 'X'); r.find_steps()
    r.at('V', 215, 'r14', 'r15', 'r8', 'r9', 'r10', 'r11'); r.at('t', 215, 'r12')
    r.name('U', [r.s.wat[pc] for pc in (220, 222, 224, 226, 228, 230)]); r.at('D', 231, 'r12'); r.carry('c', 231)
    r.at('N', 232, 'r12'); r.carry('b', 232)
    r.at('A1', 233, 'rdx'); r.at('A2', 234, 'rcx'); r.at('A3', 235, 'rsi')
    r.name('Z', r.s.out(1)); r.carry('e', 241)
    r.rel(('lin', 2**384, 'V'), ('lin', 2**768, 't'), ('lin', -p384, 'M'), ('lin', -1, 'L'), ('lin', 1, 'E'), ('lin', -(2**768 % p384), 'X'))
    r.rel(('lin', 1, 'U'), ('lin', 2**384, 'D'), ('lin', 2**448, 'c'), ('one', -(2**384-p384)), ('lin', -1, 'V'), ('lin', -2**384, 't'))
    r.rel(('lin', 1, 'N'), ('lin', 1, 'D'), ('lin', -2**64, 'b'))
    r.rel(('lin', 1, 'Z'), ('lin', 2**384, 'e'), ('lin', -1, 'V'), ('lin', -1, 'A1'), ('lin', -2**64, 'A2'), ('lin', -2**128, 'A3'))
    r.andc('A1', 'N', C); r.andc('A2', 'N', 0xffffffff); r.andc('A3', 'N', 1); r.out(1, 'Z')
    return r
def mont384(ns, prog, args, rd, pv, regs, top, pcs, sregs, stop):
    r = R(ns, 'P384.lean', prog, args, rd)
    io(r, 'X', 'Y'); r.find_steps()
    r.at('V', pv, *regs); r.at('t', pv, top)
    r.at('U', pcs, *sregs); r.at('D', pcs, stop); r.carry('c', pcs)
    r.name('Z', r.s.out(1))
    y = 'Y' if len(rd) == 2 else 'X'
    r.rel(('lin', 2**384, 'V'), ('lin', 2**768, 't'), ('lin', -p384, 'M'), ('lin', -1, 'L'), ('lin', 1, 'E'), ('mul', -1, 'X', y))
    r.rel(('lin', 1, 'U'), ('lin', 2**384, 'D'), ('lin', 2**448, 'c'), ('one', -(2**384-p384)), ('lin', -1, 'V'), ('lin', -2**384, 't'))
    r.selz('Z', 'D', 'V', 'U'); r.out(1, 'Z')
    return r
def montmul384():
    return mont384('MontmulP384', 'bignumMontmulP384', [st(6), o(6), i1(6), i2(6)], [2, 3],
        245, ['r14','r15','r8','r9','r10','r11'], 'r12', 258, ['rax','rbx','rcx','rdx','rbp','r13'], 'r12')
def montsqr384():
    return mont384('MontsqrP384', 'bignumMontsqrP384', [st(6), o(6), i1(6)], [2],
        211, ['r14','r15','rcx','rbx','rbp','rsi'], 'r8', 224, ['rax','r9','r10','r11','r12','r13'], 'r8')

# ---- RSA
def kmul16():
    r = R('Kmul1632', 'Rsa.lean', 'bignumKmul1632', [st(6), o(32), i1(16), i2(16)], [2, 3])
    io(r, 'X', 'Y'); r.name('Z', r.s.out(1))
    r.rel(('lin', 1, 'Z'), ('mul', -1, 'X', 'Y')); r.out(1, 'Z')
    return r
def ksqr16():
    r = R('Ksqr1632', 'Rsa.lean', 'bignumKsqr1632', [st(6), o(32), i1(16)], [2])
    io(r, 'X'); r.name('Z', r.s.out(1)); r.carry('c', 611)
    r.rel(('lin', 1, 'Z'), ('lin', 2**2048, 'c'), ('mul', -1, 'X', 'X')); r.out(1, 'Z')
    return r

# ---- bignum_emontredc_8n: its three stretches without jumps
R8 = ['r8', 'r9', 'r10', 'r11', 'r12', 'r13', 'r14', 'r15']
class Part(R):
    def __init__(self, ns, prog, P, args, rd, rs, **k):
        self.ns, self.prog, self.P = ns, prog, P
        self.s = Sym(args, rd, rs=rs, **k).run(P)
        self.names = {}; self.claims = []; self.bits = []; self.rows = []
    def reg(self, l, n): self.claims.append('.reg [%s] %s' % (', '.join('.' + r for r in l), n))
    def lean(self):
        r = '\nnamespace %s\n' % self.ns
        for n in self.bits: self.le(n, 1)
        for n, l in self.names.items(): r += ('def %s : Nat := %d\n' % (n, l) if isinstance(l, int) else 'def %s : List Nat := %s\n' % (n, lean_list(l)))
        r += 'def hints : List (Nat × Hint) := %s\n' % lean_hints(self.s.hints)
        if self.rows:
            r += 'def rows : List Row := [\n  %s]\n' % ',\n  '.join('⟨%s⟩' % ', '.join(lean_list(x) if isinstance(x, list) else str(x) for x in t) for t in self.rows)
        r += 'def claims : List Claim := %s[\n  %s]\n' % ('rows.flatMap (Row.claims M w) ++ ' if self.rows else '', ',\n  '.join(self.claims))
        r += 'set_option maxRecDepth 100000 in\n'
        r += 'theorem verified : verifyR %s %s [%s] hints %s claims = true := by decide +kernel\n' % (
            lean_args(self.s.args), lean_list(self.s.rd), ', '.join('.' + x for x in self.s.rs), self.prog)
        return r + 'end %s\n' % self.ns
def emA():
    P = parse(M + 'Rsa.lean', 'bignumEmontredc8n')[17:257]
    start = [0] + [37 + 29 * i for i in range(7)]
    qs = [20 - 17] + [x + 2 for x in start[1:]]
    lo = [23 - 17] + [x + 4 for x in start[1:]]
    nx = [28 - 17] + [x + 8 for x in start[1:]]
    end = [x - 1 for x in start[1:]] + [239]
    r = Part('EmA', 'emA', P, [('rsi', 8, 0, True), ('rdi', 8, 0, False)], [0, 1], ['rcx'], atoms=qs + nx, nohint=True)
    s = r.s
    io(r, 'Z', 'M'); r.name('w', s.inputs[2][0])
    A = list(s.inputs[0]); Q = []
    for i in range(8):
        q, = s.at(qs[i], 'rdx'); Q.append(q)
        b, = s.at(nx[i], R8[(i + 1) % 8])
        B = [s.wat[nx[i]]] + s.at(end[i], *[R8[(i + 2 + j) % 8] for j in range(7)])
        t = (A, s.wat[qs[i]], q, s.wat[qs[i]] + 1, s.wat[lo[i]], s.wat[lo[i]] + 1, s.wat[lo[i] + 1], s.wat[lo[i] + 1] + 1,
             s.wat[end[i] - 1] + 1, s.wat[end[i]] + 1, B, b)
        A, q0, q, h, l, hi, L, c, v1, v2, B, b = t
        m = s.inputs[1]
        def chk(ts):
            x = s.rel(ts)
            if x: print('row', i, ts); show(r, x); raise SystemExit(1)
        chk([('lin', 1, [q0]), ('lin', T, [h]), ('mul', -1, A[:1], s.inputs[2])])
        chk([('lin', 1, [l]), ('lin', T, [hi]), ('mul', -1, [q], m[:1])])
        chk([('lin', 1, [L]), ('lin', T, [c]), ('lin', -1, A[:1]), ('lin', -1, [l])])
        chk([('lin', 1, A), ('mul', 1, [q], m), ('lin', T**8 - 1, [L]), ('lin', -T, B), ('lin', -T**9, [v1]), ('lin', -T**9, [v2])])
        r.rows.append(t)
        A = [b] + B[1:]
    r.name('Q', Q); r.name('R', A)
    assert s.out(0) == Q and s.at(239, *R8) == A
    r.out(0, 'Q'); r.reg(R8, 'R')
    return r
def emB():
    P = parse(M + 'Rsa.lean', 'bignumEmontredc8n')[264:504]
    r = Part('EmB', 'emB', P, [('rbp', 8, 0, True), ('rdi', 8, 0, False), ('rsi', 8, 0, False)], [0, 1, 2], R8)
    s = r.s
    io(r, 'Z', 'M', 'Q'); r.name('R', [x[0] for x in s.inputs[3:]])
    r.name('Z1', s.out(0)); r.name('R1', s.at(239, *R8))
    r.rel(('lin', 1, 'R'), ('lin', 1, 'Z'), ('mul', 1, 'Q', 'M'), ('lin', -1, 'Z1'), ('lin', -T**8, 'R1'))
    r.out(0, 'Z1'); r.reg(R8, 'R1')
    return r
def emC():
    P = parse(M + 'Rsa.lean', 'bignumEmontredc8n')[509:520]
    P = [(op, [('mem', 'rbp', None, a[3]) if a[0] == 'mem' else a for a in A]) for op, A in P]
    r = Part('EmC', 'emC', P, [('rbp', 8, 2**61 - 8, True)], [0], ['rbx'] + R8)
    s = r.s
    io(r, 'Z', 'c'); r.names['c'] = s.inputs[1][0]; r.name('R', [x[0] for x in s.inputs[2:]])
    r.name('N', s.wat[0]); r.name('b', s.wat[0] + 1); r.name('Z1', s.out(0)); r.name('d', s.wat[8] + 1)
    r.rel(('lin', 1, 'N'), ('lin', 1, 'c'), ('lin', -T, 'b'))
    r.rel(('lin', 1, 'Z1'), ('lin', T**8, 'd'), ('lin', -1, 'Z'), ('lin', -1, 'R'), ('lin', -1, 'b'))
    r.out(0, 'Z1'); r.reg(['rax'], '[d]')
    return r
def maddN():
    P = parse(M + 'N25519.lean', 'bignumMaddN25519')[12:72]
    r = Part('Madd', 'maddProd', P, [('rsi', 4, 0, False), ('rcx', 4, 0, False)], [0, 1], R8[:4])
    s = r.s
    io(r, 'X', 'Y'); r.name('C', [x[0] for x in s.inputs[2:]])
    r.name('R', s.at(59, *R8))
    r.rel(('lin', 1, 'C'), ('mul', 1, 'X', 'Y'), ('lin', -1, 'R'))
    r.reg(R8, 'R')
    return r

if __name__ == '__main__':
    write('SymN25519', ['Verif.Proof.X86.SymN25519Base'], [maddN()])
    write('SymRsa', ['Verif.Model.AsmX86.Rsa'], [kmul16(), ksqr16()])
    write('SymEm', ['Verif.Proof.X86.SymEmBase'], [emA(), emB(), emC()])
    write('SymP256', ['Verif.Model.AsmX86.P256'], [add256(), neg256(), modn256(), demont256(), tomont256(), montmul256(), montsqr256()])
    write('SymP384', ['Verif.Model.AsmX86.P384'], [add384(), neg384(), modn384(), demont384(), tomont384(), montmul384(), montsqr384()])
