"""Writes how the point routines are made of field operations, and what their last part selects
(lean/Verif/Proof/X86/SymPoint256.lean and SymPoint384.lean)."""
import os, sys
sys.path.insert(0, os.path.dirname(__file__))
import gen_mac as GM
import gen_point as GP
from gen_sym import *

OPS = {'montmul': 'mul', 'montsqr': 'sqr', 'amontsqr': 'amo', 'sub': 'sub', 'add': 'add', 'weakadd': 'wad', 'cmsub': 'c129', 'cmsub41': 'c41', 'cmsub38': 'c38'}

class Plan(R):
    def __init__(self, ns, file, prog, args, rd, names, T, use):
        """names: key of use -> index in the table"""
        self.ns, self.prog, self.file = ns, prog, file
        F = self.F = GP.File(file); self.P = F.prog; self.n = F.n
        keys = list(names)
        segs = []; self.segtxt = []
        self.raws = raws = lambda s: s[0] == 'op' and F.bits == 384 and s[1] == 'sub'
        for s in F.segs:
            if s[0] == 'raw': segs.append(('raw', s[1]))
            elif raws(s): segs.append(('raw', s[2], (self.n, s[3])))
            else:
                k = use[(file, s[1])]; v = T[k]; n2 = 0 if 'sqr' in s[1] else self.n
                segs.append(('op', s[2], (GP.KINDS[s[1]] + (16 if F.bits == 384 else 0), self.n, n2, self.n, v[4], s[3])))
        self.s = Sym(args, rd)
        out = self.s.runsegs(self.P, segs)
        self.names = {}; self.claims = []; self.bits = []; self.steps = []; self.mac = []
        pc = 0; self.subs = {}
        for s, o in zip(F.segs, out):
            if raws(s):
                self.segtxt.append('.raw %d %s' % (s[2], lean_hints(o[0]))); self.subs[len(self.mac)] = pc; self.mac.append((s[1], o[1])); pc += s[2]; continue
            pc += s[1] if s[0] == 'raw' else s[2]
            if s[0] == 'raw': self.segtxt.append('.raw %d %s' % (s[1], lean_hints(o)))
            else:
                k = use[(file, s[1])]
                pl = ' '.join('(.%s, %s)' % (r, GM.lw(d % T64)) for r, d in s[3])
                self.segtxt.append('.op %d %d %s' % (names[k], s[2], pl))
                self.mac.append((s[1], o))
        for i, (k, (x, y, z)) in enumerate(self.mac): self.name('z%d' % i, z)
        for i, b in self.subs.items(): self.sub384(i, b)
    def sub384(self, i, b):
        """The claims for a difference modulo p384 that begins at b."""
        r = self; q = r.P[b + 13][1][0][1]; n = lambda x: 's%d%s' % (i, x)
        r.name(n('X'), r.mac[i][1][0]); r.name(n('Y'), r.mac[i][1][1])
        r.at(n('U'), b + 11, 'rax', 'rdx', 'r8', 'r9', 'r10', 'r11'); r.carry(n('b'), b + 11)
        r.at(n('S'), b + 16, q); r.name(n('d'), r.s.wat[b + 16] + 1); r.at(n('A'), b + 22, 'rcx'); r.carry(n('e'), b + 19)
        r.name(n('N'), r.s.wat[b + 23]); r.carry(n('f'), b + 23); r.name(n('c'), r.s.wat[b + 30] + 1)
        r.rel(('lin', 1, n('U')), ('lin', 1, n('Y')), ('lin', -1, n('X')), ('lin', -2**384, n('b')))
        r.rel(('lin', 1, n('S')), ('lin', 2**32-1, n('b')), ('lin', -2**64, n('d')))
        r.rel(('lin', 1, n('N')), ('lin', 2**64-1, n('e')), ('lin', -2**64, n('f')))
        r.rel(('lin', 1, 'z%d' % i), ('lin', 1, n('S')), ('lin', 2**64*(2**32-1), n('b')), ('lin', 2**128, n('A')), ('lin', 2**128, n('f')),
            ('lin', -1, n('U')), ('lin', -2**384, n('c')), ('lin', -2**128, n('e')))
        r.claims.append('.andk %s 0xffffffff %s %s' % (n('A'), n('b'), n('S')))
    def lean(self):
        mac = []
        for i, (k, (x, y, z)) in enumerate(self.mac):
            if i not in self.subs: mac.append('.mac %d %s %s z%d' % (GP.KINDS[k] + (16 if self.F.bits == 384 else 0), lean_list(x), lean_list(y), i))
        for n in self.bits: self.le(n, 1)
        r = '\nnamespace %s\n' % self.ns
        for n, l in self.names.items(): r += ('def %s : Nat := %d\n' % (n, l) if isinstance(l, int) else 'def %s : List Nat := %s\n' % (n, lean_list(l)))
        r += 'def segs : List Seg := [\n  %s]\n' % ',\n  '.join(self.segtxt)
        r += 'def claims : List Claim := [\n  %s]\n' % ',\n  '.join(mac + self.claims)
        r += 'set_option maxRecDepth 100000 in\n'
        r += 'theorem verified : verifySegs table%d %s %s segs %s claims = true := by decide +kernel\n' % (self.F.bits, lean_args(self.s.args), lean_list(self.s.rd), self.prog)
        r += 'end %s\n' % self.ns
        return r
T64 = 2**64

def jadd256(names, T, use):
    r = Plan('Jadd256', 'p256_montjadd', 'Asm.p256Montjadd', [st(34), o(12), i1(12), i2(12)], [2, 3], names, T, use)
    s = r.s; b = 1906
    z1 = [8, 9, 10, 11]; z2 = [20, 21, 22, 23]
    for j, zz, e in ((1, z1, 0), (2, z2, 11)):
        reg = 'rax' if j == 1 else 'rbx'
        a, = s.at(b + e + 6, reg); d, = s.at(b + e + 7, 'rdx')
        r.at('O%d' % j, b + e + 8, reg); r.carry('n%d' % j, b + e + 9); r.at('N%d' % j, b + e + 9, reg)
        r.or_(a, zz[0], zz[2]); r.or_(d, zz[1], zz[3]); r.or_('O%d' % j, a, d)
        r.rel(('lin', 1, 'N%d' % j), ('lin', 1, 'O%d' % j), ('lin', -2**64, 'n%d' % j))
    r.name('D', s.wat[1928]); r.carry('v', 1928)
    r.rel(('lin', 1, 'D'), ('lin', -(2**64-1), 'n2'), ('lin', 2**64-1, 'n1'), ('lin', -2**64, 'v'))
    f = {}
    def fact(kind, dst): return next(x for x in s.facts if x[0] == kind and x[1] == dst)
    out = s.out(1)
    fin = {'x': r.mac[17][1][2], 'y': r.mac[22][1][2], 'z': r.mac[20][1][2]}
    for c, k in (('x', 0), ('y', 4)):
        C1 = []; C2 = []
        for j in range(4):
            w = s.words[out[k + j]]; x = fact('selz', w)
            C1.append(s.idx(x[3])); C2.append(s.idx(x[4]))
        r.name('c' + c, C1); r.name('d' + c, C2); r.name('o' + c, out[k:k+4])
        r.claims.append('.sel c%s v %s %s' % (c, lean_list(range(k, k+4)), lean_list(fin[c])))
        r.claims.append('.sel d%s v c%s %s' % (c, c, lean_list(range(12+k, 12+k+4))))
        r.claims.append('.selz o%s D c%s d%s' % (c, c, c))
    C1 = [s.idx(fact('selz', s.words[i])[4]) for i in out[8:]]
    r.name('cz', C1); r.name('oz', out[8:])
    r.claims.append('.sel cz v %s %s' % (lean_list(z1), lean_list(z2)))
    r.claims.append('.selz oz D %s cz' % lean_list(fin['z']))
    r.claims.append('.out 1 (ox ++ (oy ++ oz))')
    r.tail = 'g1 g2 g3 r1 g4 g5 g6 r2 rD x1 x2 x3 y1 y2 y3 z1 z2 ho l1 l2 l3'.split()
    r.or1 = ['g3', 'g1', 'g2']; r.or2 = ['g6', 'g4', 'g5']
    return r

def jmix256(names, T, use):
    r = Plan('Jmix256', 'p256_montjmixadd', 'Asm.p256Montjmixadd', [st(30), o(12), i1(12), i2(8)], [2, 3], names, T, use)
    s = r.s; b = 1356
    a, = s.at(b + 2, 'rax'); d, = s.at(b + 3, 'rdx'); r.at('O', b + 4, 'rax')
    r.or_(a, 8, 10); r.or_(d, 9, 11); r.or_('O', a, d)
    out = s.out(1)
    fin = {'x': r.mac[13][1][2], 'y': r.mac[17][1][2], 'z': r.mac[12][1][2]}
    for c, k in (('x', 0), ('y', 4)):
        r.name('o' + c, out[k:k+4])
        r.claims.append('.selz o%s O %s %s' % (c, lean_list(range(12+k, 12+k+4)), lean_list(fin[c])))
    r.name('oz', out[8:])
    one = 2**256 % p256
    for j in range(4): r.claims.append('.selzw %d O %s %d' % (out[8 + j], li(one >> (64*j) & (T64-1)), fin['z'][j]))
    r.claims.append('.out 1 (ox ++ (oy ++ oz))')
    r.tail = 'g1 g2 g3 x3 y3 k0 k1 k2 k3 ho'.split(); r.or1 = ['g3', 'g1', 'g2']
    return r

def jdbl256(names, T, use):
    r = Plan('Jdbl256', 'p256_montjdouble', 'Asm.p256Montjdouble', [st(30), o(12), i1(12)], [2], names, T, use)
    r.claims.append('.out 1 (z14 ++ (z15 ++ z13))'); r.tail = ['ho']
    return r

def jadd384(names, T, use):
    r = Plan('Jadd384', 'p384_montjadd', 'Asm.p384Montjadd', [st(50), o(18), i1(18), i2(18)], [2, 3], names, T, use)
    s = r.s; b = 4295
    z1 = list(range(12, 18)); z2 = list(range(30, 36))
    a, = s.at(b + 9, 'rax'); d, = s.at(b + 10, 'rdx'); a2, = s.at(b + 11, 'rax'); d2, = s.at(b + 12, 'rdx'); r.at('O2', b + 13, 'rax')
    r.or_(a, z2[0], z2[2]); r.or_(d, z2[1], z2[3]); r.or_(a2, a, z2[4]); r.or_(d2, d, z2[5]); r.or_('O2', a2, d2)
    r.carry('n2', b + 14); r.at('N2', b + 14, 'rax')
    r.rel(('lin', 1, 'N2'), ('lin', 1, 'O2'), ('lin', -2**64, 'n2'))
    a, = s.at(b + 29, 'r12'); d, = s.at(b + 30, 'r14'); e, = s.at(b + 31, 'rdx'); a2, = s.at(b + 32, 'r12'); r.at('O1', b + 33, 'rdx')
    r.or_(a, z1[0], z1[1]); r.or_(d, z1[2], z1[3]); r.or_(e, z1[4], z1[5]); r.or_(a2, a, d); r.or_('O1', e, a2)
    r.carry('n1', b + 34); r.at('N1', b + 34, 'rdx')
    r.rel(('lin', 1, 'N1'), ('lin', 1, 'O1'), ('lin', -2**64, 'n1'))
    r.name('D', s.wat[b + 36]); r.carry('v', b + 36)
    r.rel(('lin', 1, 'D'), ('lin', -(2**64-1), 'n2'), ('lin', 2**64-1, 'n1'), ('lin', -2**64, 'v'))
    def fact(kind, dst): return next(x for x in s.facts if x[0] == kind and x[1] == dst)
    out = s.out(1)
    fin = {'x': r.mac[17][1][2], 'y': r.mac[22][1][2], 'z': r.mac[20][1][2]}
    for c, k in (('x', 0), ('y', 6)):
        C1 = []; C2 = []
        for j in range(6):
            w = s.words[out[k + j]]; x = fact('selz', w)
            C1.append(s.idx(x[3])); C2.append(s.idx(x[4]))
        r.name('c' + c, C1); r.name('d' + c, C2); r.name('o' + c, out[k:k+6])
        r.claims.append('.sel c%s v %s %s' % (c, lean_list(range(k, k+6)), lean_list(fin[c])))
        r.claims.append('.sel d%s v c%s %s' % (c, c, lean_list(range(18+k, 18+k+6))))
        r.claims.append('.selz o%s D c%s d%s' % (c, c, c))
    C1 = [s.idx(fact('selz', s.words[i])[4]) for i in out[12:]]
    r.name('cz', C1); r.name('oz', out[12:])
    r.claims.append('.selzk cz 0xffffffffffffffff n2 %s %s' % (lean_list(z1), lean_list(z2)))
    r.claims.append('.selz oz D %s cz' % lean_list(fin['z']))
    r.claims.append('.out 1 (ox ++ (oy ++ oz))')
    r.tail = 'g1 g2 g3 g4 g5 r2 g6 g7 g8 g9 g10 r1 rD x1 x2 x3 y1 y2 y3 z1 z2 ho'.split()
    r.les = 'l2 l1 l3'.split()
    r.or2 = ['g5', 'g3', 'g1', 'g4', 'g2']; r.or1 = ['g10', 'g8', 'g9', 'g6', 'g7']
    return r

def jdbl384(names, T, use):
    r = Plan('Jdbl384', 'p384_montjdouble', 'Asm.p384Montjdouble', [st(49), o(18), i1(18)], [2], names, T, use)
    r.claims.append('.out 1 (z14 ++ (z15 ++ z12))'); r.tail = ['ho']
    return r

def writep(bits, imports, rs, order):
    t = ''.join('import %s\n' % i for i in imports)
    t += '\n/-! Generated by tools/gen_plan.py: the point routines as field operations, checked by the kernel. -/\n'
    t += 'namespace Verif.X86.Sym\nopen Verif Verif.X86\n'
    t += '\n/-- The field operations. -/\ndef table%d : List Mac := [%s]\n' % (bits, ', '.join(n + '.mac' for n in order))
    t += 'theorem table%d_ok : ∀ M ∈ table%d, M.Ok := by\n  simp only [table%d, List.forall_mem_cons]\n  exact ⟨%s, by simp⟩\n' % (bits, bits, bits, ', '.join(n + '.ok' for n in order))
    t += ''.join(r.lean() for r in rs) + '\nend Verif.X86.Sym\n'
    f = os.path.join(ROOT, 'lean/Verif/Proof/X86/SymPoint%d.lean' % bits)
    if not os.path.exists(f) or open(f).read() != t: open(f, 'w').write(t)

def index(T, bits):
    """The field operations in the order of the table, with the names of gen_mac.py."""
    nm = {'montmul': ['Mul'], 'montsqr': ['Sqr', 'Sqs'], 'amontsqr': ['Ams'], 'sub': ['Sub', 'Sus'], 'weakadd': ['Wad'], 'add': ['Add'], 'cmsub': ['Cms'], 'cmsub41': ['Cmf'], 'cmsub38': ['Cmt']}
    order = []; names = {}
    for kind, ns in nm.items():
        if bits == 384 and kind == 'sub': continue
        for i, k in enumerate([k for k in T if k[0] == bits and k[1] == kind]):
            names[k] = len(order); order.append('%s%d' % (ns[i], bits))
    return order, names

def proof(r, ins):
    """The steps of the proof: each operation gives an element of the model."""
    H = dict(ins); t = ''; bits = r.F.bits
    for i, (k, (x, y, z)) in enumerate(r.mac):
        hx, cx = H[tuple(x)]; a = hx
        if k == 'montmul' and cx == 'Ex': a = '(%s.cg F.lt)' % hx
        args = [a]
        if y: hy, cy = H[tuple(y)]; assert cy == 'Ex'; args.append(hy)
        if k != 'montmul': assert cx == 'Ex'
        if i in r.subs:
            args.append('(sub384_op hb rfl rfl lb{0} le{0} lf{0} r{0} s{0} t{0} u{0} a{0})'.format(i))
        else: args.append('(mac%d (by decide) c%d)' % (bits, i))
        cz = 'Ex'
        if k in ('amontsqr', 'weakadd'): cz = 'Cg'; args.append('(vw_lt%d hb _ rfl)' % r.n)
        t += '  have v%d := F.%s %s\n' % (i, OPS[k], ' '.join(args))
        H[tuple(z)] = ('v%d' % i, cz)
    return t

def head(r, thm, vars, res, prog, st):
    '''The start of a proof.  vars: (name, kind)'''
    n = r.n; b = r.F.bits; R = r.F.bits
    allw = [(q, c) for q, kind in vars for c in ('xyz' if kind == 'Jac' else 'xy')]
    ins = {}; lines = ''
    for m, (q, c) in enumerate(allw):
        idx = list(range(m * n, m * n + n)); ins[tuple(idx)] = (q + c, 'Ex')
        u = ' ++ '.join('eltWords %s.%s' % x for x in allw[:m]) or '[]'
        v = ' ++ '.join('eltWords %s.%s' % x for x in allw[m+1:]) or '[]'
        lines += ('  have %s%s : Ex P%d (vw W %s) %s.%s := in_ex (k := %d) hi (%s) (%s) (by simp only [jacWords, affWords, List.append_assoc, List.nil_append, List.append_nil])\n    (by simp [eltWords]) h%s.%s\n'
            % (q, c, b, lean_list(idx), q, c, m * n, u, v, q[1], c))
    regs = {'p1': 'rsi', 'p2': 'rdx'}
    blocks = '[stackBlock s %d, outBlock s.rdi %d, %s]' % (st, 3 * n, ', '.join('inBlock s.%s (%sWords %s)' % (regs[q], k.lower(), q) for q, k in vars))
    cs = '⟨%s⟩' % ', '.join(['c%d' % i for i in range(len(r.mac)) if i not in r.subs] + ['%s%d' % (q, i) for i in r.subs for q in 'rstua'] + r.tail +
        ['l%s%d' % (q, i) for i in r.subs for q in 'bef'] + getattr(r, 'les', []) + ['-'])
    t = '''
theorem {ns}.ok {{f : FieldAsm {n}}} (hf : f.Ok P{b}) (s : St) {vs} {hs}
    (h : Ready s {blocks}) :
    Runs {prog} s fun s' => Holds s'.mem s.rdi (jacWords ({res})) ∧
      Untouched {blocks} s s' := by
  have F : FOk f P{b} R{b} := ⟨hf, fok{b}.1, fok{b}.2.1, fok{b}.2.2⟩
  obtain ⟨s', W, hr, hu, hb, hi, hc⟩ := callSegs{k} table{b}_ok {ns}.verified {ls} h
  refine ⟨_, s', hr, ?_, hu⟩
{lines}  simp only [{ns}.claims, List.forall_mem_cons, Claim.Holds{rv}] at hc
  obtain {cs} := hc
{steps}'''.format(ns=r.ns, n=n, b=b, vs=' '.join('(%s : %s %d)' % (q, k, n) for q, k in vars), hs=' '.join('(h%s : %sRed P%d %s)' % (q[1], k, b, q) for q, k in vars),
        blocks=blocks, prog=prog, res=res, k=len(vars), ls=' '.join('(%sWords_length %s)' % (k.lower(), q) for q, k in vars), lines=lines, cs=cs, steps=proof(r, ins), rv='' if r.subs else ', relValue, Term.value, vw_one')
    return t

def zero(r, j, hyps, idx):
    'The disjunction is zero if and only if the number is.'
    O = r.ns + '.O' + j
    return '''  have e{j} : W {O} = 0 ↔ vw W {idx} = 0 := by
    rw [{hy}]
    simp only [Nat.or_eq_zero_iff, vw, two64]
    omega
'''.format(j=j, O=O, idx=lean_list(idx), hy=', '.join(hyps))

def jadd_thm(r, prog, st, fin):
    n = r.n
    t = head(r, 'montjadd', [('p1', 'Jac'), ('p2', 'Jac')], 'montjadd f p1 p2', prog, st)
    t += zero(r, '1', r.or1, range(2*n, 3*n)) + zero(r, '2', r.or2, range(5*n, 6*n))
    if r.subs: t += '  simp only [relValue, Term.value, vw_one] at r1 r2 rD\n'
    for nm, g, e in (('t1', 'N1 O1 n1', 'r1'), ('t2', 'N2 O2 n2', 'r2')):
        A = ['W %s.%s' % (r.ns, q) for q in g.split()]
        t += '  have %s : %s + %s = 18446744073709551616 * %s := by zify; linarith only [%s]\n' % (nm, *A, e)
    t += '  have tD : W {0}.D + 18446744073709551615 * W {0}.n1 = 18446744073709551615 * W {0}.n2 + 18446744073709551616 * W {0}.v := by zify; linarith only [rD]\n'.format(r.ns)
    t += '''  obtain ⟨hx, hy, hz⟩ := jadd_end%s p1x p1y p1z p2x p2y p2z v%d v%d v%d e1 e2 (hb _) (hb _) (hb _) (hb _) (hb _) l1 l2 l3
    t1 t2 tD x1 x2 x3 y1 y2 y3 z1 z2
  exact out_jac (k := %d) hb rfl ho rfl rfl rfl hx hy hz
''' % ('k' if n == 6 else '', fin[0], fin[1], fin[2], 3*n)
    return t
def jdbl_thm(r, prog, st, fin):
    t = head(r, 'montjdouble', [('p1', 'Jac')], 'montjdouble f p1', prog, st)
    t += '  exact out_jac (k := %d) hb rfl ho rfl rfl rfl v%d.eq v%d.eq v%d.eq\n' % (3*r.n, *fin)
    return t
def jmix_thm(r, prog, st, fin):
    n = r.n
    t = head(r, 'montjmixadd', [('p1', 'Jac'), ('p2', 'Aff')], 'montjmixadd f one256 p1 p2', prog, st)
    t += zero(r, '', r.or1, range(2*n, 3*n))
    t += '''  have hz : vw W Jmix256.oz = if W Jmix256.O = 0 then one256.toNat else vw W %s := by
    simp only [Jmix256.oz, vw, two64, k0, k1, k2, k3]
    split <;> rfl
''' % lean_list(r.mac[fin[2]][1][2])
    t += '''  obtain ⟨hx, hy, hz⟩ := jmix_end p1z p2x p2y v%d v%d v%d e x3 y3 hz
  exact out_jac (k := %d) hb rfl ho rfl rfl rfl hx hy hz
''' % (*fin, 3*n)
    return t

def writeproof(bits, ts, pre):
    n = bits // 64
    t = '''import Verif.Proof.X86.SymPoint%d
import Verif.Proof.X86.PointUse
import Verif.Proof.X86.FieldP%d

/-! Generated by tools/gen_plan.py: the point routines of P-%d compute what the model says, operation by operation. -/
namespace Verif.X86.Sym
open Verif Verif.X86 Verif.Ec

set_option linter.unusedSimpArgs false

local notation "P%d" => Spec.Nist.p%d.p
local notation "R%d" => %s

theorem mac%d {k a b z : Nat} (hk : k < 16) (h : macSpec %s a b z) : opSpec P%d R%d k a b z := by
  rw [macSpec, if_%s] at h
  %s
''' % (bits, bits, bits, bits, bits, bits, '2 ^ 256' if bits == 256 else hex(2**384), bits, 'k' if bits == 256 else '(k + 16)', bits, bits, 'pos hk' if bits == 256 else 'neg (by omega), Nat.add_sub_cancel, r384', 'exact h')
    t += pre + ''.join(ts) + '\nend Verif.X86.Sym\n'
    f = os.path.join(ROOT, 'lean/Verif/Proof/X86/PointP%d.lean' % bits)
    if not os.path.exists(f) or open(f).read() != t: open(f, 'w').write(t)

if __name__ == '__main__':
    T, use = GP.bodies()
    order, names = index(T, 256)
    a, d, m = jadd256(names, T, use), jdbl256(names, T, use), jmix256(names, T, use)
    writep(256, ['Verif.Proof.X86.Mac256', 'Verif.Model.AsmX86.P256Point'], [a, d, m], order)
    writeproof(256, [jadd_thm(a, 'Asm.p256Montjadd', 34, (17, 22, 20)), jdbl_thm(d, 'Asm.p256Montjdouble', 30, (14, 15, 13)),
        jmix_thm(m, 'Asm.p256Montjmixadd', 30, (13, 17, 12))], '''
theorem fok256 : 2 ^ (64 * 4) = R256 ∧ Nat.gcd P256 R256 = 1 ∧ P256 < R256 := by decide

/-- One in Montgomery form, p256_montjmixadd.rs:571-579. -/
def one256 : Elt 4 := 0xfffffffeffffffffffffffffffffffff000000000000000000000001
''')
    order, names = index(T, 384)
    a, d = jadd384(names, T, use), jdbl384(names, T, use)
    writep(384, ['Verif.Proof.X86.Mac384', 'Verif.Model.AsmX86.P384Add', 'Verif.Model.AsmX86.P384Double'], [a, d], order)
    writeproof(384, [jadd_thm(a, 'Asm.p384Montjadd', 50, (17, 22, 20)), jdbl_thm(d, 'Asm.p384Montjdouble', 49, (14, 15, 12))], '''
theorem fok384 : 2 ^ (64 * 6) = R384 ∧ Nat.gcd P384 R384 = 1 ∧ P384 < R384 := by
  refine ⟨r384, ?_, ?_⟩ <;> decide
''')
