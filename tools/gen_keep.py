#!/usr/bin/env python3
"""Compute what lean/Verif/Proof/X86/Keep.lean needs to check that a program restores the registers it saves: the abstract state
at each jump target, and the words of the frame used for saving.  The output is checked by Lean, so nothing here is trusted.

usage: gen_keep.py           rewrites lean/Verif/Proof/X86/KeepData.lean
"""
import os, re, sys
sys.path.insert(0, os.path.dirname(os.path.abspath(__file__)))
import gen_asm as g
from gen_ct import tok, addr

OUT = os.path.join(os.path.dirname(os.path.abspath(__file__)), '../lean/Verif/Proof/X86/KeepData.lean')
R = g.R64
M = 2 ** 64
OPD = 'mov add adc sub sbb and or xor not neg inc dec shl shr sar shld shrd'.split()
NONE = 'nop cmp test bt jmp jcc'.split()


def analyse(path, regs):
    code, prog, ops, l0, l1 = g.program(path)
    n = len(prog)
    st = {0: (frozenset(R), 0, frozenset())}
    work = [0]
    frame = set()
    while work:
        pc = work.pop()
        if pc >= n:
            continue
        K, sp, sv = st[pc]
        K, sv = set(K), set(sv)
        t = tok(prog[pc])
        m = t[0][1:]
        succ = [pc + 1]
        if m == 'jmp':
            succ = [int(t[1])]
        elif m == 'jcc':
            succ = [pc + 1, int(t[2])]
        elif m in ('add', 'sub') and t[1] == '(.reg .rsp)':
            k = int(re.search(r'(\w+)#64', t[2]).group(1), 0)
            sp = (sp + (k if m == 'add' else -k)) % M
        elif m == 'push':
            r = t[1][1:]
            sp = (sp - 8) % M
            sv = {x for x in sv if x[0] != sp}
            if r in K and r not in regs:
                sv.add((sp, r))
                frame.add(sp)
        elif m == 'pop':
            r = t[1][1:]
            if (sp, r) in sv:
                K.add(r)
            else:
                K.discard(r)
            sp = (sp + 8) % M
        else:
            if m in OPD:
                if t[1].startswith('(.reg'):
                    K.discard(t[1][7:-1])
                else:
                    b, i, d = addr(t[1])
                    if b == 'rsp' and i is None:
                        sv = {x for x in sv if x[0] != (sp + d) % M}
            elif m in ('mul', 'imul1'):
                K -= {'rax', 'rdx'}
            elif m in ('mulx', 'xchg'):
                K -= {t[1][1:], t[2][1:]}
            elif m == 'cmov':
                K.discard(t[2][1:])
            elif m not in NONE:
                K.discard(t[1][1:])
            assert 'rsp' in K, code[pc]
        new = (frozenset(K), sp, frozenset(sv))
        for q in succ:
            if q not in st:
                st[q] = new
                work.append(q)
            else:
                o = st[q]
                assert o[1] == sp, code[pc]
                mt = (o[0] & new[0], sp, o[2] & new[2])
                if mt != o:
                    st[q] = mt
                    work.append(q)
    K, sp, sv = st[n]
    assert sp == 0
    assert set(R) - set(regs) <= K, (path, set(R) - set(regs) - K)
    tg = sorted({int(t) for p in prog for t in re.findall(r'^\.j(?:mp|cc \.\w+) (\d+)', p)})
    return [(t, st[t]) for t in tg if t < n and t in st], sorted(frame)


def lean_kp(x):
    K, sp, sv = x
    return '⟨0x%x, %s, [%s]⟩' % (sum(1 << R.index(r) for r in K), g.w(sp), ', '.join('(%s, .%s)' % (g.w(o), r) for o, r in sorted(sv)))


def main():
    o = ['import Verif.Proof.X86.Keep', '', '/-!',
         'Generated by tools/gen_keep.py: for each program of `Model/AsmX86` the abstract states at jump targets.  Checked in',
         '`Props/SavedRegs.lean`.', '-/', 'namespace Verif.X86.Keep', 'open Verif Verif.X86', '']
    table = []
    for grp, files in g.GROUPS.items():
        for f in files:
            n = g.camel(f)
            regs = g.reglist(g.REPO + f + '.rs')
            ann, fr = analyse(g.REPO + f + '.rs', regs)
            o.append('def %sAnn : List (Nat × Kp) := [' % n + ',\n  '.join('(%d, %s)' % (t, lean_kp(x)) for t, x in ann) + ']')
            o.append('')
            table.append((grp, n, fr))
    o.append('end Verif.X86.Keep')
    open(OUT, 'w').write('\n'.join(o) + '\n')
    for grp, n, fr in table:
        print(grp, n, [x - M for x in fr])


if __name__ == '__main__':
    main()
