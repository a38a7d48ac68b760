#!/usr/bin/env python3
"""Write lean/Verif/Model/MlKemRejTable.lean from the table in /repo/graviola/src/low/x86_64/mlkem.rs."""
import os, re
SRC = '/repo/graviola/src/low/x86_64/mlkem.rs'
OUT = os.path.join(os.path.dirname(os.path.abspath(__file__)), '../lean/Verif/Model/MlKemRejTable.lean')
src = open(SRC).read()
m = re.search(r'const MLKEM_REJ_UNIFORM_TABLE: \[i8; 4096\] = \[(.*?)\n\];', src, re.S)
l0, l1 = src.count('\n', 0, m.start()) + 1, src.count('\n', 0, m.end()) + 1
v = [int(x) for x in re.findall(r'-?\d+', re.sub(r'//.*', '', m.group(1)))]
assert len(v) == 4096
rows = [v[16 * i:16 * i + 16] for i in range(256)]
o = ['import Verif.Base.Words', '', '/-! Generated by tools/gen_rej.py: the table of the rejection sampler of ML-KEM. -/', 'namespace Verif.MlKem.X86', 'open Verif', '',
     '/-- low/x86_64/mlkem.rs:%d-%d, `MLKEM_REJ_UNIFORM_TABLE`, sixteen entries to a row; the entry -1 is written 255. -/' % (l0, l1),
     'def rejRows : List (List Nat) := [']
for i, r in enumerate(rows):
    o.append('  [%s]%s' % (', '.join(str(x % 256) for x in r), ',' if i < 255 else ']'))
o += ['', '/-- Byte `j` of row `m`. -/', 'def rejByte (m j : Nat) : Byte := BitVec.ofNat 8 ((rejRows.getD m []).getD j 0)',
      '/-- The table as bytes. -/', 'def rejTable : Bytes := (List.range 4096).map fun i => rejByte (i / 16) (i % 16)', '', 'end Verif.MlKem.X86', '']
open(OUT, 'w').write('\n'.join(o))
