"""The field operations in the point routines: their programs, and the places of their operands at each use."""
import os, re, sys
sys.path.insert(0, os.path.dirname(__file__))
import gen_asm as G
import symgen as S

KINDS = {'montmul': 0, 'montsqr': 1, 'amontsqr': 2, 'sub': 3, 'add': 4, 'weakadd': 5, 'cmsub': 6, 'cmsub41': 7, 'cmsub38': 8}
P0 = 0x70000

def lines_of(t):
    return [x for x in (re.sub(r'\s+', ' ', l.strip()) for l in re.split(r'[\n;]', t)) if x]

def ins(l): return S.parse_ins(G.instr(l, None, {}))

def place(x, macros):
    m = ins('mov rax, [%s]' % G.ev(x, macros, {}))[1][1]
    assert m[2] is None
    return m[1], m[3]

class File:
    def __init__(self, name):
        src = G.strip_comments(open(G.REPO + name + '.rs').read())
        self.name = name; self.macros = G.macros_of(src)
        self.bits = 384 if '384' in name else 256; self.n = self.bits // 64
        m = re.search(r'asm!\(', src); e = G.close(src, m.end() - 1, '(', ')')
        self.segs = []; pc = 0; self.prog = []
        for a in G.split_args(src[m.end():e]):
            if not re.match(r'"|\w+!\(', a): continue
            ls = lines_of(G.ev(a, self.macros, {}))
            mm = re.match(r'(\w+)_p(256|384)!\((.*)\)$', a, re.S)
            if mm:
                args = G.split_args(mm.group(3)); k = mm.group(1)
                if k == 'cmsub': assert args[1] == '"12"' and args[3] == '"9"'; args = [args[0], args[2], args[4]]
                pl = [place(x, self.macros) for x in args]
                if len(pl) == 2: pl.append(pl[1])
                self.segs.append(('op', k, len(ls), pl))
            elif self.segs and self.segs[-1][0] == 'raw': self.segs[-1][1] += len(ls)
            else: self.segs.append(['raw', len(ls)])
            self.prog += [ins(l) for l in ls]
    def body(self, k):
        """The operation on operands at the stack pointer, and the registers of the result."""
        n = self.n; n2 = 0 if 'sqr' in k else n
        ps, b = self.macros['%s_p%d' % (k, self.bits)]
        env = {'P0': '"rsp + %d"' % P0, 'P1': '"rsp + 0"', 'P2': '"rsp + %d"' % (8*n), 'C': '"12"', 'D': '"9"', '__parent': {}}
        assert all(p in env for p in ps), ps
        out = []; outs = {}; code = []
        L = [ins(l) for l in lines_of(G.ev(b, self.macros, env))]
        isp0 = lambda o: o[0] == 'mem' and o[1] == 'rsp' and P0 <= o[3] < P0 + 8*n
        for i, (op, A) in enumerate(L):
            if op == 'mov' and isp0(A[0]):
                d = A[0][3] - P0
                later = [j for j in range(i+1, len(L)) if any(isp0(o) and o[3] == A[0][3] for o in L[j][1])]
                rd = later and not (L[later[0]][0] == 'mov' and isp0(L[later[0]][1][0]))
                if rd:
                    code.append((op, [('mem', 'rsp', None, 8*(n+n2)), A[1]])); sp = d; assert d == 0
                else: outs[d//8] = A[1][1]
            else:
                assert not isp0(A[0]) or op not in ('mov',), (k, op, A)
                B = [('mem', 'rsp', None, 8*(n+n2)) if isp0(o) else o for o in A]
                code.append((op, B))
        assert sorted(outs) == list(range(n)), (k, outs)
        return code, [outs[j] for j in range(n)]

def wr(op, A):
    if op in ('cmp', 'test', 'nop'): return []
    if op in ('mul', 'imul1'): return ['rax', 'rdx']
    if op == 'mulx': return [A[0][1], A[1][1]]
    if op == 'cmov': return [A[1][1]]
    return [A[0][1]] if A[0][0] in ('reg', 'r') else []

FILES = ['p256_montjadd', 'p256_montjdouble', 'p256_montjmixadd', 'p384_montjadd', 'p384_montjdouble']

def bodies():
    """Distinct operations: key -> (bits, kind, code, outs, uses)."""
    T = {}
    use = {}
    for f in FILES:
        F = File(f)
        for s in F.segs:
            if s[0] == 'op' and (f, s[1]) not in use:
                code, outs = F.body(s[1]); key = (F.bits, s[1], repr(code))
                if key not in T: T[key] = (F.bits, s[1], code, outs, sorted({r for i in code for r in wr(*i)}, key=S.REGS.index), f)
                use[(f, s[1])] = key
    return T, use

if __name__ == '__main__':
    T, use = bodies()
    for k, (bits, kind, code, outs, uses, f) in T.items(): print(bits, kind, len(code), outs, uses, f)
    for f in FILES:
        F = File(f); print(f, len(F.prog), [(s[0], s[1]) if s[0]=='raw' else s[1] for s in F.segs])
