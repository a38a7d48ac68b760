#!/usr/bin/env python3
"""Write Model/P256Precomp.lean and Model/P384Precomp.lean from the tables in /repo (numbers copied, words joined)."""
import re
R = "/repo/graviola/src/mid/"
D = "/verif/lean/Verif/Model/"
def num(ws):
    return sum(w << (64 * i) for i, w in enumerate(ws))
s = open(R + "p256/precomp.rs").read()
ws = [int(x, 16) for x in re.findall(r"0x([0-9a-fA-F_]+)", s.split("= [", 1)[1])]
assert len(ws) == 37 * 512
o = """import Verif.Model.Ec

/-!
`CURVE_GENERATOR_PRECOMP_W7`, graviola/src/mid/p256/precomp.rs:5-19061, as 37 rows of 64 pairs of coordinates; the four words of a
coordinate are joined into one number.  Written by tools/gen_precomp.py.
-/
namespace Verif.Ec.P256Precomp

"""
for i in range(37):
    o += "/-- precomp.rs, \"1G..64G << %d\". -/\ndef row%d : List (Nat × Nat) := [\n" % (7 * i, i)
    pts = []
    for j in range(64):
        w = ws[512 * i + 8 * j:512 * i + 8 * j + 8]
        pts.append("  (0x%064x, 0x%064x)" % (num(w[:4]), num(w[4:])))
    o += ",\n".join(pts) + "]\n\n"
o += "/-- The rows. -/\ndef rows : List (List (Nat × Nat)) := [\n  " + ",\n  ".join(", ".join("row%d" % i for i in range(k, min(k + 10, 37))) for k in range(0, 37, 10)) + "]\n"
o += """
/-- The table. -/
def table : List (List (Aff 4)) := rows.map fun row => row.map fun t => ⟨BitVec.ofNat _ t.1, BitVec.ofNat _ t.2⟩

end Verif.Ec.P256Precomp
"""
open(D + "P256Precomp.lean", "w").write(o)
s = open(R + "p384/precomp.rs").read()
ws = [int(x, 16) for x in re.findall(r"0x([0-9a-fA-F_]+)", s.split("= [", 1)[1])]
assert len(ws) == 288
o = """import Verif.Model.Ec

/-!
`CURVE_GENERATOR_PRECOMP_W5`, graviola/src/mid/p384/precomp.rs:5-310, as 16 triples of coordinates; the six words of a coordinate
are joined into one number.  Written by tools/gen_precomp.py.
-/
namespace Verif.Ec.P384Precomp

/-- The coordinates. -/
def points : List (Nat × Nat × Nat) := [
"""
pts = []
for j in range(16):
    w = ws[18 * j:18 * j + 18]
    pts.append("  (0x%096x,\n   0x%096x,\n   0x%096x)" % (num(w[:6]), num(w[6:12]), num(w[12:])))
o += ",\n".join(pts) + "]\n"
o += """
/-- The table. -/
def table : List (Jac 6) := points.map fun t => ⟨BitVec.ofNat _ t.1, BitVec.ofNat _ t.2.1, BitVec.ofNat _ t.2.2⟩

end Verif.Ec.P384Precomp
"""
open(D + "P384Precomp.lean", "w").write(o)
