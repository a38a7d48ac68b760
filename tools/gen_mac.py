"""Writes the programs of the field operations of the point routines, with advice and claims for the symbolic executor
(lean/Verif/Proof/X86/SymMac256.lean and SymMac384.lean)."""
import os, sys
sys.path.insert(0, os.path.dirname(__file__))
import gen_point as GP
from gen_sym import *

def lw(n): return '0x%x#64' % n if n > 9 else '%d#64' % n
def lopd(o):
    if o[0] == 'reg': return '(.reg .%s)' % o[1]
    if o[0] == 'imm': return '(.imm %s)' % lw(o[1])
    if o[0] == 'mem': return '(.mem ⟨some .%s, none, %s⟩)' % (o[1], lw(o[3]))
    if o[0] == 'r': return '.%s' % o[1]
    raise Exception(o)
def lins(op, A):
    if op == 'lea': return '.lea .%s ⟨some .%s, none, %s⟩' % (A[0][1], A[1][1], lw(A[1][3]))
    return '.%s %s' % (op, ' '.join(lopd(a) for a in A))

class Op(R):
    """A field operation."""
    def __init__(self, ns, bits, kind, code, outs, uses, **k):
        self.ns, self.P, self.prog = ns, code, 'body'
        n = bits // 64; self.n1 = n; self.n2 = 0 if 'sqr' in kind else n
        self.kind = GP.KINDS[kind] + (16 if bits == 384 else 0); self.outs = outs; self.uses = uses
        self.s = Sym([('rsp', self.n1 + self.n2 + 1, 0, True)], [0], **k).run(code)
        self.names = {}; self.claims = []; self.bits = []; self.steps = []
        self.name('X', range(n))
        if self.n2: self.name('Y', range(n, 2*n))
    def result(self):
        self.name('Z', self.s.at(len(self.P) - 1, *self.outs))
    def lean(self):
        self.claims.append('.reg outs Z')
        t = R.lean(self)
        d = 'def body : Prog := [\n  %s]\n' % ',\n  '.join(lins(*i) for i in self.P)
        d += 'def outs : List Reg := [%s]\n' % ', '.join('.' + r for r in self.outs)
        h = '\nnamespace %s\n' % self.ns
        t = t.replace(h, h + d)
        e = 'end %s\n' % self.ns
        m = 'def mac : Mac := ⟨%d, %d, %d, body, outs, [%s]⟩\n' % (self.kind, self.n1, self.n2, ', '.join('.' + r for r in self.uses))
        return t.replace(e, m + e)

def only(bits, kind):
    return [v for v in T.values() if v[0] == bits and v[1] == kind]

def mont(ns, v, ms, pv, pcs, sregs, td='rax'):
    r = Op(ns, *v[:5])
    r.name('M', [r.s.idx(r.s.snap[pc][q]) for pc, q in ms])
    r.at('V', pv, 'r12', 'r13', 'r14', 'r15'); r.at('t', pv, 'r8')
    r.at('U', pcs, *sregs); r.at('D', pcs, td); r.carry('c', pcs)
    r.result()
    y = 'Y' if r.n2 else 'X'
    r.rel(('lin', 2**256, 'V'), ('lin', 2**512, 't'), ('lin', -p256, 'M'), ('mul', -1, 'X', y))
    r.rel(('lin', 1, 'U'), ('lin', 2**256, 'D'), ('lin', 2**320, 'c'), ('one', -(2**320-p256)), ('lin', -1, 'V'), ('lin', -2**256, 't'))
    r.sel('Z', 'c', 'U', 'V')
    return r
def amont(ns, v):
    r = Op(ns, *v[:5])
    r.name('M', [r.s.idx(r.s.snap[pc][q]) for pc, q in [(43,'r8'),(46,'r9'),(66,'r10'),(69,'r11')]])
    r.at('V', 81, 'r12', 'r13', 'r14', 'r15'); r.at('t', 81, 'r8')
    r.at('K', 89, 'r8', 'rdx', 'rax', 'r11')
    r.result(); r.carry('c', 93)
    r.rel(('lin', 2**256, 'V'), ('lin', 2**512, 't'), ('lin', -p256, 'M'), ('mul', -1, 'X', 'X'))
    r.rel(('lin', 1, 'Z'), ('lin', 2**256, 'c'), ('lin', -1, 'V'), ('lin', -1, 'K'))
    k = 2**256 - p256
    for j in range(4): r.claims.append('.selzc %d t 0 %s' % (r.names['K'][j], li(k >> (64*j) & (T64-1))))
    return r
T64 = 2**64
def sub(ns, v):
    r = Op(ns, *v[:5])
    r.at('U', 7, 'rax', 'rcx', 'r8', 'r9'); r.carry('b', 7); r.at('S', 12, 'rdx'); r.carry('d', 12)
    r.result(); r.carry('c', 16)
    r.rel(('lin', 1, 'U'), ('lin', -2**256, 'b'), ('lin', -1, 'X'), ('lin', 1, 'Y'))
    r.rel(('lin', 1, 'S'), ('lin', 2**32-1, 'b'), ('lin', -2**64, 'd'))
    r.rel(('lin', 1, 'Z'), ('lin', 2**256, 'c'), ('lin', -1, 'U'), ('lin', -(2**64-1), 'b'), ('lin', -2**64*(2**32-1), 'b'), ('lin', -2**192, 'S'))
    return r
def weakadd(ns, v):
    r = Op(ns, *v[:5])
    r.at('U', 7, 'rax', 'rcx', 'r8', 'r9'); r.carry('b', 7); r.at('S', 12, 'rdx'); r.carry('d', 12)
    r.result(); r.carry('c', 16)
    r.rel(('lin', 1, 'U'), ('lin', 2**256, 'b'), ('lin', -1, 'X'), ('lin', -1, 'Y'))
    r.rel(('lin', 1, 'S'), ('lin', 2**32-1, 'b'), ('lin', -2**64, 'd'))
    r.rel(('lin', 1, 'Z'), ('lin', -2**256, 'c'), ('lin', -1, 'U'), ('lin', 2**64-1, 'b'), ('lin', 2**64*(2**32-1), 'b'), ('lin', 2**192, 'S'))
    return r
def add(ns, v):
    r = Op(ns, *v[:5])
    r.at('U', 15, 'rax', 'rcx', 'r8', 'r9'); r.at('D', 16, 'r11'); r.carry('b', 16)
    r.at('A1', 17, 'r10'); r.at('A2', 18, 'rdx'); r.result(); r.carry('c', 22)
    r.rel(('lin', 1, 'U'), ('lin', 2**256, 'D'), ('lin', -2**320, 'b'), ('lin', -1, 'X'), ('lin', -1, 'Y'), ('one', p256))
    r.rel(('lin', 1, 'Z'), ('lin', 2**256, 'c'), ('lin', -1, 'U'), ('lin', -1, 'D'), ('lin', -2**64, 'A1'), ('lin', -2**192, 'A2'))
    r.andc('A1', 'D', 0xffffffff); r.andc('A2', 'D', C)
    return r
def cmsub(ns, v, pn, pq, A, B, cs):
    """A x - B y: the estimate q of the quotient, the difference, and the correction."""
    r = Op(ns, *v[:5]); n = r.n1
    if pn is not None:
        r.at('N', pn, 'r8', 'r9', 'r10', 'r11'); r.carry('n', pn)
        r.rel(('lin', 1, 'N'), ('lin', -2**256, 'n'), ('lin', 1, 'Y'), ('one', -p256))
    r.at('E', pq, 'r8', 'r9', 'r10', 'r11'); r.at('q', pq, 'rdx')
    for nm, pc, sg in cs: r.carry(nm, pc)
    r.rel(('lin', 1, 'E'), ('lin', 2**256, 'q'), ('lin', -A, 'X'), ('one', -2**256), ('lin', B, 'Y') if pn is None else ('lin', -B, 'N'),
        *[('lin', sg * 2**320, nm) for nm, pc, sg in cs])
    e = len(r.P) - 1
    r.at('U', e-10, 'r8', 'r9', 'r10', 'r11'); r.at('D', e-8, 'rdx'); r.carry('b1', e-9); r.carry('b2', e-8)
    r.rel(('lin', 1, 'U'), ('lin', 2**256, 'D'), ('lin', -1, 'E'), ('lin', -2**256, 'q'), ('one', 2**256), ('lin', p256, 'q'),
        ('lin', -2**320, 'b1'), ('lin', -2**320, 'b2'))
    r.result(); r.at('A', e-6, 'rax'); r.at('S', e-4, 'rcx'); r.carry('d', e-4); r.carry('c', e)
    r.rel(('lin', 1, 'S'), ('lin', 1, 'A'), ('lin', -2**64, 'd'))
    r.rel(('lin', 1, 'Z'), ('lin', -1, 'U'), ('lin', -1, 'D'), ('lin', -2**64, 'A'), ('lin', -2**192, 'S'), ('lin', 2**256, 'c'))
    r.andc('A', 'D', 0xffffffff)
    return r

# ---- P-384
def mont3(ns, v, pv, regs, top, pcs, sregs):
    r = Op(ns, *v[:5]); r.find_steps()
    r.at('V', pv, *regs); r.at('t', pv, top)
    r.at('U', pcs, *sregs); r.at('D', pcs, top); r.carry('c', pcs)
    r.result()
    y = 'Y' if r.n2 else 'X'
    r.rel(('lin', 2**384, 'V'), ('lin', 2**768, 't'), ('lin', -p384, 'M'), ('lin', -1, 'L'), ('lin', 1, 'E'), ('mul', -1, 'X', y))
    r.rel(('lin', 1, 'U'), ('lin', 2**384, 'D'), ('lin', 2**448, 'c'), ('one', -(2**384-p384)), ('lin', -1, 'V'), ('lin', -2**384, 't'))
    r.selz('Z', 'D', 'V', 'U')
    return r
def amont3(ns, v):
    r = Op(ns, *v[:5]); r.find_steps()
    r.at('V', 202, 'r14', 'r15', 'rcx', 'rbx', 'rbp', 'rsi'); r.carry('t', 202)
    r.at('K', 209, 'rax', 'r9', 'r10')
    r.result(); r.carry('c', 215)
    r.rel(('lin', 2**384, 'V'), ('lin', 2**768, 't'), ('lin', -p384, 'M'), ('lin', -1, 'L'), ('lin', 1, 'E'), ('mul', -1, 'X', 'X'))
    r.rel(('lin', 1, 'Z'), ('lin', 2**384, 'c'), ('lin', -1, 'V'), ('lin', -1, 'K'))
    k = 2**384 - p384
    for j in range(3): r.claims.append('.selc %d t %s 0' % (r.names['K'][j], li(k >> (64*j) & (T64-1))))
    return r
def weakadd3(ns, v):
    r = Op(ns, *v[:5])
    r.at('U', 11, 'rax', 'rcx', 'r8', 'r9', 'r10', 'r11'); r.carry('b', 11); r.at('S', 18, 'rbp'); r.carry('d', 18)
    r.result(); r.carry('c', 24)
    r.rel(('lin', 1, 'U'), ('lin', 2**384, 'b'), ('lin', -1, 'X'), ('lin', -1, 'Y'))
    r.rel(('lin', 1, 'S'), ('lin', 2**32-1, 'b'), ('lin', -2**64, 'd'))
    r.rel(('lin', 1, 'Z'), ('lin', 2**384, 'c'), ('lin', -1, 'U'), ('lin', -1, 'S'), ('lin', -2**64*(2**32-1), 'b'), ('lin', -2**128, 'b'))
    return r
def add3(ns, v):
    r = Op(ns, *v[:5])
    r.at('U', 21, 'rax', 'rcx', 'r8', 'r9', 'r10', 'r11'); r.at('D', 22, 'rdx'); r.carry('k', 22)
    r.at('A2', 24, 'rbx'); r.at('A', 25, 'rdx'); r.at('S', 27, 'rbp'); r.carry('b1', 27)
    r.result(); r.carry('c', 33)
    r.rel(('lin', 1, 'U'), ('lin', 2**384, 'D'), ('lin', 2**448, 'k'), ('lin', -1, 'X'), ('lin', -1, 'Y'), ('one', -(2**448 - p384)))
    r.rel(('lin', 1, 'S'), ('lin', 1, 'A'), ('lin', -2**64, 'b1'))
    r.rel(('lin', 1, 'Z'), ('lin', -2**384, 'c'), ('lin', -1, 'U'), ('lin', 1, 'S'), ('lin', 2**64, 'A'), ('lin', 2**128, 'A2'))
    r.andc('A', 'D', 0xffffffff); r.andc('A2', 'D', 1)
    return r
def cmsub3(ns, v, pn, pq, A, B, cs):
    r = Op(ns, *v[:5])
    G = ['r8', 'r9', 'r10', 'r11', 'r12', 'r13']
    if pn is not None:
        r.at('N', pn, *G); r.carry('n', pn)
        r.rel(('lin', 1, 'N'), ('lin', -2**384, 'n'), ('lin', 1, 'Y'), ('one', -p384))
    r.at('E', pq, *G); r.at('q', pq, 'rdx')
    for nm, pc, sg in cs: r.carry(nm, pc)
    r.rel(('lin', 1, 'E'), ('lin', 2**384, 'q'), ('lin', -A, 'X'), ('one', -2**384), ('lin', B, 'Y') if pn is None else ('lin', -B, 'N'),
        *[('lin', sg * 2**448, nm) for nm, pc, sg in cs])
    e = len(r.P) - 1
    r.at('U', e-13, *G); r.at('D', e-11, 'rcx'); r.carry('b1', e-11)
    r.rel(('lin', 1, 'U'), ('lin', 2**384, 'D'), ('lin', -1, 'E'), ('one', 2**384), ('lin', -(2**384-p384), 'q'), ('lin', -2**448, 'b1'))
    r.result(); r.at('A', e-8, 'rdx'); r.at('S', e-7, 'rax'); r.carry('d', e-7); r.at('A2', e-6, 'rcx'); r.carry('c', e)
    r.rel(('lin', 1, 'S'), ('lin', 1, 'A'), ('lin', -2**64, 'd'))
    r.rel(('lin', 1, 'Z'), ('lin', -2**384, 'c'), ('lin', -1, 'U'), ('lin', 1, 'S'), ('lin', 2**64, 'A'), ('lin', 2**128, 'A2'))
    r.andc('A', 'D', 0xffffffff); r.andc('A2', 'D', 1)
    return r

def writem(mod, rs):
    t = 'import Verif.Proof.X86.SymMac\nimport Verif.Proof.X86.SymUse\n\n'
    t += '/-! Generated by tools/gen_mac.py: the field operations of the point routines, with advice and claims checked by the kernel. -/\n'
    t += 'namespace Verif.X86.Sym\nopen Verif Verif.X86\n'
    t += ''.join(r.lean() for r in rs) + '\nend Verif.X86.Sym\n'
    f = os.path.join(ROOT, 'lean/Verif/Proof/X86/%s.lean' % mod)
    if not os.path.exists(f) or open(f).read() != t: open(f, 'w').write(t)

if __name__ == '__main__':
    T, use = GP.bodies()
    def f(bits, kind, i=0): return only(bits, kind)[i]
    rs = [mont('Mul256', f(256, 'montmul'), [(27,'r8'),(30,'r9'),(78,'r10'),(81,'r11')], 94, 104, ['rcx','rdx','r9','r11']),
      mont('Sqr256', f(256, 'montsqr'), [(43,'r8'),(46,'r9'),(66,'r10'),(69,'r11')], 81, 91, ['rbx','rdx','rcx','r11']),
      mont('Sqs256', f(256, 'montsqr', 1), [(43,'r8'),(46,'r9'),(66,'r10'),(69,'r11')], 81, 91, ['rcx','rdx','rbp','r11']),
      amont('Ams256', f(256, 'amontsqr')), sub('Sub256', f(256, 'sub')), weakadd('Wad256', f(256, 'weakadd')), add('Add256', f(256, 'add'))]
    for ns, kd, pn, pq, A, B, cs in (('Cms256', 'cmsub', 7, 32, 12, 9, []), ('Cmf256', 'cmsub41', None, 15, 4, 1, [('k1', 10, 1), ('k2', 15, -1)]),
            ('Cmt256', 'cmsub38', 7, 28, 3, 8, [('k1', 27, 1), ('k2', 28, 1)])):
        rs.append(cmsub(ns, f(256, kd), pn, pq, A, B, cs))
    writem('SymMac256', rs)
    rs = [mont3('Mul384', f(384, 'montmul'), 237, ['r14','r15','r8','r9','r10','r11'], 'r12', 250, ['rax','rbx','rcx','rdx','rbp','r13'])]
    for ns, i, l in (('Sqr384', 0, 'rsi'), ('Sqs384', 1, 'rdi')):
        rs.append(mont3(ns, f(384, 'montsqr', i), 204, ['r14','r15','rcx','rbx','rbp',l], 'r8', 217, ['rax','r9','r10','r11','r12','r13']))
    rs += [amont3('Ams384', f(384, 'amontsqr')), weakadd3('Wad384', f(384, 'weakadd')), add3('Add384', f(384, 'add'))]
    for ns, kd, pn, pq, A, B, cs in (('Cms384', 'cmsub', 11, 45, 12, 9, []), ('Cmf384', 'cmsub41', None, 21, 4, 1, [('k1', 14, 1), ('k2', 21, -1)]), ('Cmt384', 'cmsub38', 11, 41, 3, 8, [('k0', 20, 1), ('k1', 40, 1), ('k2', 41, 1)])):
        rs.append(cmsub3(ns, f(384, kd), pn, pq, A, B, cs))
    writem('SymMac384', rs)
