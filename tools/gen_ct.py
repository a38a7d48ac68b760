#!/usr/bin/env python3
"""Compute what lean/Verif/Proof/X86/Ct.lean needs to check a program: the public registers, the words of the frame that hold
public values, and the abstract state at each jump target.  The output is checked by Lean, so nothing here is trusted.

usage: gen_ct.py             rewrites lean/Verif/Proof/X86/CtData.lean
"""
import os, re, sys
sys.path.insert(0, os.path.dirname(os.path.abspath(__file__)))
import gen_asm as g

OUT = os.path.join(os.path.dirname(os.path.abspath(__file__)), '../lean/Verif/Proof/X86/CtData.lean')
FL = ['cf', 'zf', 'sf', 'of']
# operands that are numbers and not secret, beside pointers and lengths
PUBLIC = {'bignum_montredc': ['r9'], 'bignum_shr_small': ['r8'], 'bignum_copy_row_from_table': ['rdx', 'rcx']}


def tok(s):
    return re.findall(r'\(\.mem ⟨[^⟩]*⟩\)|⟨[^⟩]*⟩|\(\.reg \.\w+\)|\(\.imm [^)]*\)|[^ ()]+', s)


def addr(t):
    m = re.search(r'⟨(.*)⟩', t).group(1)
    m = re.match(r'(none|some \.(\w+)), (none|some \(\.(\w+), (\d+)#64\)), (\S+)#64', m)
    return (m.group(2), m.group(4), int(m.group(6), 0))


def analyse(path,extra=(),frame=None):
    code,prog,ops,l0,l1=g.program(path)
    pub={'rsp'}
    for o in ops:
        m=re.match(r'in(?:out)?\("(\w+)"\)\s*(.*)',o)
        if m and re.search(r'\.len\(\)|as_ptr|as_mut_ptr', m.group(2)): pub.add(m.group(1))
    pub|=set(PUBLIC.get(os.path.basename(path)[:-3],[]))
    init=sorted(pub); st={0:(frozenset(pub)|{x+'d' for x in FL},0,frozenset())}
    work=[0]; viol={}
    ts=[tok(p) for p in prog]
    n=len(prog)
    while work:
        pc=work.pop()
        if pc>=n: continue
        P,sp,sl=st[pc]; P=set(P); sl=set(sl)
        t=ts[pc]; mn=t[0]
        succ=[pc+1]
        def apub(a):
            b,i,d=a
            return (b is None or b in P) and (i is None or i in P)
        def val(x):
            if x.startswith('(.reg'): return x[7:-1] in P
            if x.startswith('(.imm'): return True
            a=addr(x)
            if not apub(a): viol.setdefault(pc,'addr '+code[pc])
            if a[0]=='rsp' and a[1] is None: return (sp+a[2])%2**64 in sl
            return False
        def put(x,v):
            nonlocal sp
            if x.startswith('(.reg'):
                r=x[7:-1]
                if r=='rsp':
                    viol.setdefault(pc,'rsp '+code[pc]); return
                P.discard(r); 
                if v: P.add(r)
            else:
                a=addr(x)
                if not apub(a): viol.setdefault(pc,'addr '+code[pc])
                if a[0]=='rsp' and a[1] is None:
                    o=(sp+a[2])%2**64
                    sl.discard(o)
                    if v and (frame is None or o in frame): sl.add(o)
        def fl(v,which=FL):
            for f in which:
                P.discard(f); P.add(f+'d')
                if v: P.add(f)
        def cond(c):
            c=c[1:]
            return {'cy':['cf'],'nc':['cf'],'zr':['zf'],'nz':['zf'],'be':['cf','zf'],'ab':['cf','zf'],'sg':['sf'],'ns':['sf']}[c]
        m=mn[1:]
        if m=='nop': pass
        elif m=='jmp': succ=[int(t[1])]
        elif m=='jcc':
            if not all(f in P for f in cond(t[1])): viol.setdefault(pc,'branch '+code[pc])
            succ=[pc+1,int(t[2])]
        elif m=='mov': put(t[1],val(t[2]))
        elif m=='mov32': put('(.reg %s)'%t[1],t[2][1:] in P)
        elif m=='lea': put('(.reg %s)'%t[1],apub(addr(t[2])))
        elif m in('add','sub') and t[1]=='(.reg .rsp)':
            k=int(re.search(r'(\w+)#64',t[2]).group(1),0)
            sp=(sp+(k if m=='add' else -k))%2**64; fl(True)
        elif m in('add','sub','and','or','xor','adc','sbb'):
            v=val(t[1]) and val(t[2])
            val(t[2])
            if m in('xor','sub') and t[1]==t[2]: v=True
            if m in('adc','sbb'):
                v=v and 'cf' in P
                if 'cfd' not in P: viol.setdefault(pc,'undef '+code[pc])
            if m=='sbb' and t[1]==t[2]: v='cf' in P
            fl(v); put(t[1],v)
        elif m in('cmp','test'): 
            a=val(t[1]);b=val(t[2]);fl(a and b)
        elif m=='not': put(t[1],val(t[1]))
        elif m in('neg',): v=val(t[1]);fl(v);put(t[1],v)
        elif m in('inc','dec'): v=val(t[1]);fl(v,['zf','sf','of']);put(t[1],v)
        elif m in('mul','imul1'): v=val(t[1]) and 'rax' in P; fl(v,['cf','of']); fl(True,['zf','sf']); put('(.reg .rax)',v);put('(.reg .rdx)',v)
        elif m=='imul3': v=val(t[2]); fl(v,['cf','of']); fl(True,['zf','sf']); put('(.reg %s)'%t[1],v)
        elif m=='imul': v=val(t[2]) and t[1][1:] in P; fl(v,['cf','of']); fl(True,['zf','sf']); put('(.reg %s)'%t[1],v)
        elif m=='mulx': v=val(t[3]) and 'rdx' in P; put('(.reg %s)'%t[1],v);put('(.reg %s)'%t[2],v)
        elif m in('adcx','adox'):
            f='cf' if m=='adcx' else 'of'
            if f+'d' not in P: viol.setdefault(pc,'undef '+code[pc])
            v=val(t[2]) and t[1][1:] in P and f in P; fl(v,[f]); put('(.reg %s)'%t[1],v)
        elif m in('shl','shr','sar','shld','shrd'):
            c=t[-1]
            v=val(t[1]) and (m not in('shld','shrd') or t[2][1:] in P)
            if not val(c):
                if not t[1].startswith('(.reg'): viol.setdefault(pc,'shift '+code[pc])
                for f in FL: P.discard(f); P.discard(f+'d')
                put(t[1],False)
            else:
                if not v:
                    for f in ['cf','zf','sf']: P.discard(f)
                put(t[1],v)
        elif m in('bsf','bsr'): v=val(t[2]); fl(v,['zf']); fl(True,['cf','sf','of']); put('(.reg %s)'%t[1],False)
        elif m=='bt': v=val(t[1]); fl(v,['cf']); fl(True,['sf','of'])
        elif m in('btr','bts','btc'): v=t[1][1:] in P; fl(v,['cf']); fl(True,['sf','of']); put('(.reg %s)'%t[1],v)
        elif m=='cmov':
            v=val(t[3]) and t[2][1:] in P and all(f in P for f in cond(t[1]))
            if not all(f+'d' in P for f in cond(t[1])): viol.setdefault(pc,'undef '+code[pc])
            put('(.reg %s)'%t[2],v)
        elif m=='adc32':
            if 'cfd' not in P: viol.setdefault(pc,'undef '+code[pc])
            v=t[1][1:] in P and t[2][1:] in P and 'cf' in P; fl(v,['cf']); fl(True,['zf','sf','of']); put('(.reg %s)'%t[1],v)
        elif m in('rol','ror'):
            v=t[1][1:] in P; fl(v,['cf']); fl(True,['of']); put('(.reg %s)'%t[1],v)
        elif m=='xchg':
            v=t[1][1:] in P; w=t[2][1:] in P; put('(.reg %s)'%t[1],w); put('(.reg %s)'%t[2],v)
        elif m=='leaSym': put('(.reg %s)'%t[1],True)
        elif m=='push':
            sp=(sp-8)%2**64
            sl.discard(sp)
            if t[1][1:] in P and (frame is None or sp in frame): sl.add(sp)
        elif m=='pop':
            v=sp in sl; sp=(sp+8)%2**64; put('(.reg %s)'%t[1],v)
        else: raise ValueError(m)
        new=(frozenset(P),sp,frozenset(sl))
        for q in succ:
            if q not in st: st[q]=new; work.append(q)
            else:
                o=st[q]
                if o[1]!=new[1]: viol.setdefault(pc,'sp mismatch')
                mt=(o[0]&new[0],o[1],o[2]&new[2])
                if mt!=o: st[q]=mt; work.append(q)
    return viol,st,prog,code,init
def minimal(p,extra=()):
    r=analyse(p,extra)
    if r[0]: return r,[]
    fr=set(o for x in r[1].values() for o in x[2])
    if not analyse(p,extra,frame=set())[0]: fr=set()
    for o in sorted(fr):
        if not analyse(p,extra,frame=fr-{o})[0]: fr=fr-{o}
    return analyse(p,extra,frame=fr),sorted(fr)

R = g.R64


def lean_fl(P, f):
    return '.pub' if f in P else '.sec' if f + 'd' in P else '.unk'


def lean_ab(x):
    P, sp, sl = x
    m = sum(1 << R.index(r) for r in P if r in R and r != 'rsp')
    return '⟨0x%x, %s, %s, [%s]⟩' % (m, ', '.join(lean_fl(P, f) for f in FL), g.w(sp), ', '.join(g.w(o) for o in sorted(sl)))


def main():
    o = ['import Verif.Proof.X86.Ct', '', '/-!', 'Generated by tools/gen_ct.py: for each program of `Model/AsmX86` the abstract states at jump','targets.  Checked in `Props/ConstTime.lean`.', '-/', 'namespace Verif.X86.Ct', 'open Verif Verif.X86', '']
    for grp, files in g.GROUPS.items():
        for f in files:
            (v, st, prog, code, init), fr = minimal(g.REPO + f + '.rs')
            if v:
                print('not constant time:', f, list(v.items())[:3])
                continue
            tg = sorted({int(t) for p in prog for t in re.findall(r'^\.j(?:mp|cc \.\w+) (\d+)', p)})
            n = g.camel(f)
            o.append('-- %s: public %s, frame %s' % (f, ' '.join(init), [x - 2 ** 64 for x in fr]))
            o.append('def %sAnn : List (Nat × Ab) := [' % n + ',\n  '.join('(%d, %s)' % (t, lean_ab(st[t])) for t in tg if t < len(prog)) + ']')
            o.append('')
    o.append('end Verif.X86.Ct')
    open(OUT, 'w').write('\n'.join(o) + '\n')


if __name__ == '__main__':
    main()
