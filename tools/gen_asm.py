#!/usr/bin/env python3
"""Translate the `asm!` blocks of /repo/graviola/src/low/x86_64/bignum_*.rs into lists of instructions of Verif.X86.

usage: gen_asm.py            rewrites lean/Verif/Model/AsmX86/*.lean

The translation expands the register and `Label!` macros of each file, resolves numeric local labels to positions in the
program, and maps each line to one constructor of `Instr`.  It stops on anything it does not know.
"""
import os, re, sys

REPO = '/repo/graviola/src/low/x86_64/'
OUT = os.path.join(os.path.dirname(os.path.abspath(__file__)), '../lean/Verif/Model/AsmX86/')


def strip_comments(s):
    out, i, ins = [], 0, False
    while i < len(s):
        c = s[i]
        if c == '"':
            ins = not ins
        if not ins and s.startswith('//', i):
            j = s.find('\n', i)
            i = len(s) if j < 0 else j
            continue
        if not ins and s.startswith('/*', i):
            j = s.index('*/', i) + 2
            out.append('\n' * s.count('\n', i, j))
            i = j
            continue
        out.append(c)
        i += 1
    return ''.join(out)


def close(s, i, o, c):
    d, ins = 0, False
    while i < len(s):
        ch = s[i]
        if ch == '"':
            ins = not ins
        elif not ins:
            if ch == o:
                d += 1
            elif ch == c:
                d -= 1
                if d == 0:
                    return i
        i += 1
    raise ValueError('unbalanced')


def split_args(s):
    out, d, cur, ins = [], 0, '', False
    for ch in s:
        if ch == '"':
            ins = not ins
        if not ins:
            if ch in '([{':
                d += 1
            if ch in ')]}':
                d -= 1
            if ch == ',' and d == 0:
                out.append(cur.strip())
                cur = ''
                continue
        cur += ch
    if cur.strip():
        out.append(cur.strip())
    return out


def macros_of(src):
    macros = {}
    for m in re.finditer(r'macro_rules!\s+(\w+)\s*\{', src):
        e = close(src, m.end() - 1, '{', '}')
        body = src[m.end():e].strip()
        am = re.match(r'\(((?:[^()]|\([^()]*\))*)\)\s*=>\s*\{', body)
        b0 = am.end() - 1
        b1 = close(body, b0, '{', '}')
        macros[m.group(1)] = (re.findall(r'\$(\w+):\w+', am.group(1)), body[b0 + 1:b1].strip())
    return macros


def ev(s, macros, env):
    s, out, i = s.strip(), '', 0
    while i < len(s):
        if s[i].isspace() or s[i] in ',;':
            i += 1
            continue
        if s[i] == '"':
            j = s.index('"', i + 1)
            out += s[i + 1:j].replace('\\n', '\n').replace('\\t', '\t')
            i = j + 1
            continue
        if s[i] == '$':
            m = re.match(r'\$(\w+)', s[i:])
            out += ev(env[m.group(1)], macros, env.get('__parent', {}))
            i += m.end()
            continue
        m = re.match(r'(\w+)!\s*\(', s[i:])
        if m:
            o = i + m.end() - 1
            e = close(s, o, '(', ')')
            inner, name = s[o + 1:e], m.group(1)
            if name == 'Label':
                a = split_args(inner)
                out += '@' + a[1] + ({'After': 'f', 'Before': 'b'}[a[2]] if len(a) > 2 else '')
            elif name == 'stringify':
                out += inner.strip()
            elif name in ('Q', 'concat'):
                out += ev(inner, macros, env)
            else:
                ps, body = macros[name]
                ne = dict(zip(ps, split_args(inner)))
                ne['__parent'] = env
                out += ev(body, macros, ne)
            i = e + 1
            continue
        m = re.match(r'-?\w+', s[i:])
        if not m:
            raise ValueError('cannot expand %r' % s[i:i + 40])
        out += m.group(0)
        i += m.end()
    return out


def expand(path):
    """the lines of the only asm! block, its operands, its first and last source line"""
    src = strip_comments(open(path).read())
    macros = macros_of(src)
    ms = list(re.finditer(r'asm!\(', src))
    assert len(ms) == 1, (path, len(ms))
    m = ms[0]
    e = close(src, m.end() - 1, '(', ')')
    lines, ops = [], []
    for a in split_args(src[m.end():e]):
        if re.match(r'"|\w+!\(', a):
            for l in re.split(r'[\n;]', ev(a, macros, {})):
                l = re.sub(r'\s+', ' ', l.strip())
                if l:
                    lines.append(l)
        else:
            ops.append(re.sub(r'\s+', ' ', a))
    return lines, ops, src.count('\n', 0, m.start()) + 1, src.count('\n', 0, e) + 1


R64 = 'rax rbx rcx rdx rsi rdi rbp rsp r8 r9 r10 r11 r12 r13 r14 r15'.split()
R32 = dict(zip('eax ebx ecx edx esi edi ebp esp r8d r9d r10d r11d r12d r13d r14d r15d'.split(), R64))


def num(x):
    x = x.strip()
    if not re.fullmatch(r'[-+*() 0-9a-fA-Fx]+', x) or re.search(r'(?<![0-9a-fA-Fx])[a-fA-Fx]', x):
        raise ValueError('number %r' % x)
    return eval(x)


def w(n):
    n %= 2 ** 64
    return '0x%x#64' % n if n > 4096 else '%d#64' % n


def addr(x):
    x = re.sub(r'^QWORD PTR\s*', '', x)
    assert x[0] == '[' and x[-1] == ']', x
    body = x[1:-1]
    terms, cur, d = [], '', 0
    for ch in body:
        if ch == '(':
            d += 1
        if ch == ')':
            d -= 1
        if ch in '+-' and d == 0:
            terms.append(cur)
            cur = '-' if ch == '-' else ''
            continue
        cur += ch
    terms.append(cur)
    base, idx, disp = None, None, 0
    for t in (t.strip() for t in terms):
        if not t:
            continue
        if t in R64:
            if base is None:
                base = t
            else:
                assert idx is None, x
                idx = (t, 1)
            continue
        p = [q.strip() for q in t.split('*')]
        rs = [q for q in p if q in R64]
        if rs:
            assert len(p) == 2 and idx is None, x
            idx = (rs[0], num([q for q in p if q not in R64][0]))
            continue
        disp += num(t)
    return '⟨%s, %s, %s⟩' % ('some .' + base if base else 'none',
                             'some (.%s, %d#64)' % idx if idx else 'none', w(disp))


def opd(x):
    if x in R64:
        return '(.reg .%s)' % x
    if '[' in x:
        return '(.mem %s)' % addr(x)
    return '(.imm %s)' % w(num(x))


COND = {'c': 'cy', 'b': 'cy', 'nc': 'nc', 'ae': 'nc', 'z': 'zr', 'e': 'zr', 'nz': 'nz', 'ne': 'nz',
        'be': 'be', 'a': 'ab', 'nbe': 'ab', 's': 'sg', 'ns': 'ns'}


def instr(l, target, syms=None):
    syms = {} if syms is None else syms
    mn, _, rest = l.partition(' ')
    a = split_args(rest)
    if mn == 'endbr64':
        return '.nop'
    if mn == 'jmp':
        return '.jmp %d' % target(a[0])
    if mn[0] == 'j':
        return '.jcc .%s %d' % (COND[mn[1:]], target(a[0]))
    if mn.startswith('cmov'):
        return '.cmov .%s .%s %s' % (COND[mn[4:]], reg(a[0]), opd(a[1]))
    if mn in ('push', 'pop'):
        return '.%s .%s' % (mn, reg(a[0]))
    if mn == 'movabs':
        mn = 'mov'
    if mn == 'mov' and a[0] in R32:
        if a[1] in R32:
            return '.mov32 .%s .%s' % (R32[a[0]], R32[a[1]])
        n = num(a[1])
        return '.mov (.reg .%s) (.imm %s)' % (R32[a[0]], w(n % 2 ** 32))
    if mn == 'xor' and a[0] in R32:
        assert a[0] == a[1], l
        return '.xor (.reg .%s) (.reg .%s)' % (R32[a[0]], R32[a[0]])
    if mn == 'adc' and a[0] in R32:
        return '.adc32 .%s .%s' % (R32[a[0]], R32[a[1]])
    if mn == 'lea' and 'rip' in a[1]:
        m = re.fullmatch(r'\[rip \+ \{(\w+)\}\]', a[1])
        return '.leaSym .%s %d' % (reg(a[0]), syms.setdefault(m.group(1), len(syms)))
    if mn == 'call':
        return '.call %d' % target(a[0])
    if mn == 'ret':
        return '.ret'
    if mn == 'xchg':
        return '.xchg .%s .%s' % (reg(a[0]), reg(a[1]))
    if mn in ('rol', 'ror', 'bts', 'btc'):
        return '.%s .%s %s' % (mn, reg(a[0]), w(num(a[1])))
    if mn == 'imul' and len(a) == 1:
        return '.imul1 %s' % opd(a[0])
    if mn == 'imul' and len(a) == 3:
        return '.imul3 .%s %s %s' % (reg(a[0]), opd(a[1]), w(num(a[2])))
    if mn == 'lea':
        return '.lea .%s %s' % (reg(a[0]), addr(a[1]))
    if mn in ('mov', 'add', 'adc', 'sub', 'sbb', 'cmp', 'and', 'or', 'xor', 'test'):
        assert len(a) == 2, l
        return '.%s %s %s' % (mn, opd(a[0]), opd(a[1]))
    if mn in ('shl', 'shr', 'sar'):
        n = '(.reg .rcx)' if a[1] == 'cl' else opd(a[1])
        return '.%s %s %s' % (mn, opd(a[0]), n)
    if mn in ('shld', 'shrd'):
        n = '(.reg .rcx)' if a[2] == 'cl' else opd(a[2])
        return '.%s %s .%s %s' % (mn, opd(a[0]), reg(a[1]), n)
    if mn in ('not', 'neg', 'inc', 'dec', 'mul'):
        assert len(a) == 1, l
        return '.%s %s' % (mn, opd(a[0]))
    if mn in ('imul', 'adcx', 'adox', 'bsf', 'bsr'):
        assert len(a) == 2, l
        return '.%s .%s %s' % (mn, reg(a[0]), opd(a[1]))
    if mn == 'mulx':
        return '.mulx .%s .%s %s' % (reg(a[0]), reg(a[1]), opd(a[2]))
    if mn == 'bt':
        return '.bt %s %s' % (opd(a[0]), w(num(a[1])))
    if mn == 'btr':
        return '.btr .%s %s' % (reg(a[0]), w(num(a[1])))
    raise ValueError('instruction %r' % l)


def reg(x):
    assert x in R64, x
    return x


def yreg(x, k='ymm'):
    m = re.fullmatch(k + r'(\d+)', x)
    return int(m.group(1))


def vopd(x):
    return '(.m %s)' % addr(x) if '[' in x else '(.y %d)' % yreg(x)


def vinstr(l, target, syms=None):
    """The machine with vector registers."""
    mn, _, rest = l.partition(' ')
    a = split_args(rest)
    if mn in ('vmovd', 'movd'):
        return '.%s %d .%s' % (mn, yreg(a[0], 'xmm'), R32[a[1]])
    if mn[0] != 'v':
        return '.sc (%s)' % instr(l, target, syms)
    if mn == 'vmovdqu':
        return '.st %s %d' % (addr(a[0]), yreg(a[1])) if '[' in a[0] else '.mov %d %s' % (yreg(a[0]), vopd(a[1]))
    if mn == 'vmovdqa':
        return '.stA %s %d' % (addr(a[0]), yreg(a[1])) if '[' in a[0] else '.movA %d %s' % (yreg(a[0]), vopd(a[1]))
    if mn == 'vpbroadcastd':
        return '.pbroadcastd %d %d' % (yreg(a[0]), yreg(a[1], 'xmm'))
    if mn in ('vpblendw', 'vpblendd'):
        return '.%s %d %d %s %d' % (mn[1:], yreg(a[0]), yreg(a[1]), vopd(a[2]), num(a[3]))
    if mn == 'vmovsldup':
        return '.movsldup %d %s' % (yreg(a[0]), vopd(a[1]))
    if mn == 'vpermq':
        return '.permq %d %s %d' % (yreg(a[0]), vopd(a[1]), num(a[2]))
    if mn in ('vpxor', 'vpor', 'vpand', 'vpandn', 'vpaddw', 'vpsubw', 'vpmullw', 'vpmulhw', 'vpermd', 'vpshufb', 'vpunpcklqdq', 'vpunpckhqdq'):
        assert len(a) == 3, l
        return '.%s %d %d %s' % (mn[1:], yreg(a[0]), yreg(a[1]), vopd(a[2]))
    if mn in ('vpsrlq', 'vpsllq', 'vpsraw', 'vpsrlw', 'vpsllw', 'vpsrld', 'vpslld'):
        return '.%s %d %d %d' % (mn[1:], yreg(a[0]), yreg(a[1]), num(a[2]))
    if mn == 'vpbroadcastq':
        return '.pbroadcastq %d %s' % (yreg(a[0]), addr(a[1]))
    if mn == 'vperm2i128':
        return '.perm2i128 %d %d %s %d' % (yreg(a[0]), yreg(a[1]), vopd(a[2]), num(a[3]))
    if mn == 'vmovq':
        return '.movqSt %s %d' % (addr(a[0]), yreg(a[1], 'xmm')) if '[' in a[0] else '.movqLd %d %s' % (yreg(a[0], 'xmm'), addr(a[1]))
    if mn == 'vmovhpd':
        return '.movhpdSt %s %d' % (addr(a[0]), yreg(a[1], 'xmm'))
    if mn == 'vpinsrq':
        return '.pinsrq %d %d %s %d' % (yreg(a[0], 'xmm'), yreg(a[1], 'xmm'), addr(a[2]), num(a[3]))
    if mn == 'vinserti128':
        return '.inserti128 %d %d %d %d' % (yreg(a[0]), yreg(a[1]), yreg(a[2], 'xmm'), num(a[3]))
    if mn == 'vextracti128':
        return '.extracti128 %d %d %d' % (yreg(a[0], 'xmm'), yreg(a[1]), num(a[2]))
    raise ValueError('instruction %r' % l)


def binstr(l, target, syms=None):
    """The machine with memory as bytes."""
    mn, _, rest = l.partition(' ')
    a = split_args(rest)
    x = lambda r: yreg(r, 'xmm')
    if mn == 'movq':
        return '.movqM %d %s' % (x(a[0]), addr(a[1])) if '[' in a[1] else '.movqR %d .%s' % (x(a[0]), reg(a[1]))
    if mn == 'pinsrq':
        return '.pinsrqR %d .%s %d' % (x(a[0]), reg(a[1]), num(a[2]))
    if mn == 'pinsrd':
        return '.pinsrdM %d %s %d' % (x(a[0]), addr(a[1]), num(a[2]))
    if mn in ('pshufb', 'movdqa', 'pand', 'pcmpgtw'):
        return '.%s %d %d' % (mn, x(a[0]), x(a[1]))
    if mn == 'psrlw':
        return '.psrlw %d %d' % (x(a[0]), num(a[1]))
    if mn == 'pblendw':
        return '.pblendw %d %d %d' % (x(a[0]), x(a[1]), num(a[2]))
    if mn == 'pmovmskb':
        return '.pmovmskb .%s %d' % (R32[a[0]], x(a[1]))
    if mn == 'pext':
        return '.pext .%s .%s .%s' % (reg(a[0]), reg(a[1]), reg(a[2]))
    if mn == 'popcnt':
        return '.popcnt .%s .%s' % (reg(a[0]), reg(a[1]))
    if mn == 'movdqu':
        return '.movdquSt %s %d' % (addr(a[0]), x(a[1])) if '[' in a[0] else '.movdquLd %d %s' % (x(a[0]), addr(a[1]))
    if l == 'repz movsb':
        return '.repMovsb'
    assert '[' not in l and mn not in ('push', 'pop', 'call', 'ret'), l
    return '.sc (%s)' % instr(l, target, syms)


def program(path, instr=instr):
    lines, ops, l0, l1 = expand(path)
    code, labels = [], []
    for l in lines:
        m = re.fullmatch(r'@(\d+):', l)
        if m:
            labels.append((m.group(1), len(code)))
        else:
            code.append(l)
    out, syms = [], {}
    for pc, l in enumerate(code):
        def target(x):
            m = re.fullmatch(r'@(\d+)([fb])', x)
            c = [p for (n, p) in labels if n == m.group(1)]
            return min(p for p in c if p > pc) if m.group(2) == 'f' else max(p for p in c if p <= pc)
        out.append(instr(l, target, syms))
    return code, out, ops, l0, l1


def camel(n):
    p = n.split('_')
    return p[0] + ''.join(x[:1].upper() + x[1:] for x in p[1:])


# Lean module -> source files
GROUPS = {
    'Words': ['bignum_mux', 'bignum_eq', 'bignum_cmp_lt', 'bignum_digitsize', 'bignum_bitsize', 'bignum_ctz', 'bignum_add',
              'bignum_modadd', 'bignum_modsub', 'bignum_optsub', 'bignum_shr_small', 'bignum_copy_row_from_table'],
    'Mont': ['bignum_negmodinv', 'bignum_mul', 'bignum_demont', 'bignum_montmul', 'bignum_montsqr', 'bignum_montredc'],
    'Rsa': ['bignum_emontredc_8n', 'bignum_kmul_16_32', 'bignum_ksqr_16_32', 'bignum_montifier', 'bignum_modinv',
            'bignum_coprime'],
    'P256': ['bignum_add_p256', 'bignum_neg_p256', 'bignum_mod_n256', 'bignum_demont_p256', 'bignum_tomont_p256',
             'bignum_montmul_p256', 'bignum_montsqr_p256', 'bignum_inv_p256'],
    'P384': ['bignum_add_p384', 'bignum_neg_p384', 'bignum_mod_n384', 'bignum_demont_p384', 'bignum_tomont_p384',
             'bignum_montmul_p384', 'bignum_montsqr_p384', 'bignum_inv_p384'],
    'P256Point': ['p256_montjadd', 'p256_montjdouble', 'p256_montjmixadd'],
    'P384Add': ['p384_montjadd'],
    'P384Double': ['p384_montjdouble'],
    'N25519': ['bignum_neg_p25519', 'bignum_mod_n25519', 'bignum_madd_n25519'],
    'X25519': ['curve25519_x25519'],
    'X25519Base': ['curve25519_x25519base'],
    'Ed25519Base': ['edwards25519_scalarmulbase'],
    'Keccak': ['sha3_keccak_f1600'],
    'Keccak4': ['sha3_keccak4_f1600_alt'],
    'MlKem': ['mlkem_ntt', 'mlkem_intt', 'mlkem_basemul_k3', 'mlkem_mulcache_compute', 'mlkem_reduce', 'mlkem_tomont',
              'mlkem_unpack', 'mlkem_tobytes', 'mlkem_frombytes'],
    'MlKemRej': ['mlkem_rej_uniform_vartime'],
}

# those of the machine with vector registers
VEC = ['Keccak4', 'MlKem']
# those of the machine with memory as bytes
BYTE = ['MlKemRej']


def reglist(path, instr=instr):
    """The registers that the operands of a block say may change."""
    ops = program(path, instr)[2]
    rs = [m.group(1) for x in ops for m in [re.match(r'(?:lat)?(?:in)?(?:lat)?out\("(\w+)"\)', x)] if m]
    assert all(r in R64 or r.startswith('ymm') or r.startswith('xmm') or r.startswith('zmm') for r in rs), rs
    return [r for r in rs if r in R64]


def main():
    os.makedirs(OUT, exist_ok=True)
    for g, files in GROUPS.items():
        vec, byt = g in VEC, g in BYTE
        ins = vinstr if vec else binstr if byt else instr
        o = ['import Verif.Model.X86' + ('Vec' if vec else 'Byte' if byt else ''), '', '/-!',
             'Generated by tools/gen_asm.py from `graviola/src/low/x86_64`: the `asm!` blocks as lists of instructions.',
             'The comment at the end of a line gives its position; jump targets are positions.', '-/',
             'namespace Verif.X86.Asm', 'open Verif.X86', '']
        for f in files:
            code, prog, ops, l0, l1 = program(REPO + f + '.rs', ins)
            o.append('/-- low/x86_64/%s.rs:%d-%d.  Operands: %s. -/' % (f, l0, l1, '; '.join(x for x in ops if not x.startswith('options'))))
            o.append('def %s : %s := [' % (camel(f), 'VProg' if vec else 'BProg' if byt else 'Prog'))
            for i, (c, p) in enumerate(zip(code, prog)):
                o.append('  %s%s -- %d: %s' % (p, ',' if i + 1 < len(prog) else ']', i, c))
            o.append('')
            o.append('/-- The registers that the operands of %s.rs:%d-%d say may change. -/' % (f, l0, l1))
            o.append('def %sRegs : List Reg := [%s]' % (camel(f), ', '.join('.' + r for r in reglist(REPO + f + '.rs', ins))))
            o.append('')
        o.append('end Verif.X86.Asm')
        open(OUT + g + '.lean', 'w').write('\n'.join(o) + '\n')


if __name__ == '__main__':
    main()
