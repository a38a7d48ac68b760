import Verif.Proof.X86.Mac256
import Verif.Model.AsmX86.P256Point

/-! Generated by tools/gen_plan.py: the point routines as field operations, checked by the kernel. -/
namespace Verif.X86.Sym
open Verif Verif.X86

/-- The field operations. -/
def table256 : List Mac := [Mul256.mac, Sqr256.mac, Sqs256.mac, Ams256.mac, Sub256.mac, Wad256.mac, Add256.mac, Cms256.mac, Cmf256.mac, Cmt256.mac]
theorem table256_ok : ∀ M ∈ table256, M.Ok := by
  simp only [table256, List.forall_mem_cons]
  exact ⟨Mul256.ok, Sqr256.ok, Sqs256.ok, Ams256.ok, Sub256.ok, Wad256.ok, Add256.ok, Cms256.ok, Cmf256.ok, Cmt256.ok, by simp⟩

namespace Jadd256
def z0 : List Nat := [24, 25, 26, 27]
def z1 : List Nat := [28, 29, 30, 31]
def z2 : List Nat := [32, 33, 34, 35]
def z3 : List Nat := [36, 37, 38, 39]
def z4 : List Nat := [40, 41, 42, 43]
def z5 : List Nat := [44, 45, 46, 47]
def z6 : List Nat := [48, 49, 50, 51]
def z7 : List Nat := [52, 53, 54, 55]
def z8 : List Nat := [56, 57, 58, 59]
def z9 : List Nat := [60, 61, 62, 63]
def z10 : List Nat := [64, 65, 66, 67]
def z11 : List Nat := [68, 69, 70, 71]
def z12 : List Nat := [72, 73, 74, 75]
def z13 : List Nat := [76, 77, 78, 79]
def z14 : List Nat := [80, 81, 82, 83]
def z15 : List Nat := [84, 85, 86, 87]
def z16 : List Nat := [88, 89, 90, 91]
def z17 : List Nat := [92, 93, 94, 95]
def z18 : List Nat := [96, 97, 98, 99]
def z19 : List Nat := [100, 101, 102, 103]
def z20 : List Nat := [104, 105, 106, 107]
def z21 : List Nat := [108, 109, 110, 111]
def z22 : List Nat := [112, 113, 114, 115]
def O1 : Nat := 118
def n1 : Nat := 120
def N1 : Nat := 119
def O2 : Nat := 125
def n2 : Nat := 127
def N2 : Nat := 126
def D : Nat := 130
def v : Nat := 131
def cx : List Nat := [140, 143, 146, 149]
def dx : List Nat := [141, 144, 147, 150]
def ox : List Nat := [142, 145, 148, 151]
def cy : List Nat := [152, 155, 158, 161]
def dy : List Nat := [153, 156, 159, 162]
def oy : List Nat := [154, 157, 160, 163]
def cz : List Nat := [132, 133, 134, 135]
def oz : List Nat := [136, 137, 138, 139]
def segs : List Seg := [
  .raw 9 [],
  .op 3 98 (.rsp, 0#64) (.rsi, 0x40#64) (.rsi, 0x40#64),
  .op 3 98 (.rsp, 0xa0#64) (.rbp, 0x40#64) (.rbp, 0x40#64),
  .op 0 113 (.rsp, 0xc0#64) (.rbp, 0x40#64) (.rsi, 0x20#64),
  .op 0 113 (.rsp, 0x20#64) (.rsi, 0x40#64) (.rbp, 0x20#64),
  .op 0 113 (.rsp, 0x40#64) (.rsp, 0#64) (.rbp, 0#64),
  .op 0 113 (.rsp, 0x80#64) (.rsp, 0xa0#64) (.rsi, 0#64),
  .op 0 113 (.rsp, 0x20#64) (.rsp, 0#64) (.rsp, 0x20#64),
  .op 0 113 (.rsp, 0xc0#64) (.rsp, 0xa0#64) (.rsp, 0xc0#64),
  .op 4 21 (.rsp, 0xa0#64) (.rsp, 0x40#64) (.rsp, 0x80#64),
  .op 4 21 (.rsp, 0x20#64) (.rsp, 0x20#64) (.rsp, 0xc0#64),
  .op 3 98 (.rsp, 0x60#64) (.rsp, 0xa0#64) (.rsp, 0xa0#64),
  .op 1 100 (.rsp, 0#64) (.rsp, 0x20#64) (.rsp, 0x20#64),
  .op 0 113 (.rsp, 0x80#64) (.rsp, 0x60#64) (.rsp, 0x80#64),
  .op 0 113 (.rsp, 0x40#64) (.rsp, 0x60#64) (.rsp, 0x40#64),
  .op 4 21 (.rsp, 0#64) (.rsp, 0#64) (.rsp, 0x80#64),
  .op 4 21 (.rsp, 0x60#64) (.rsp, 0x40#64) (.rsp, 0x80#64),
  .op 0 113 (.rsp, 0xa0#64) (.rsp, 0xa0#64) (.rsi, 0x40#64),
  .op 4 21 (.rsp, 0#64) (.rsp, 0#64) (.rsp, 0x40#64),
  .op 4 21 (.rsp, 0x80#64) (.rsp, 0x80#64) (.rsp, 0#64),
  .op 0 113 (.rsp, 0x60#64) (.rsp, 0x60#64) (.rsp, 0xc0#64),
  .op 0 113 (.rsp, 0xa0#64) (.rsp, 0xa0#64) (.rbp, 0x40#64),
  .op 0 113 (.rsp, 0x80#64) (.rsp, 0x20#64) (.rsp, 0x80#64),
  .op 4 21 (.rsp, 0x80#64) (.rsp, 0x80#64) (.rsp, 0x60#64),
  .raw 74 []]
def claims : List Claim := [
  .mac 2 [8, 9, 10, 11] [] z0,
  .mac 2 [20, 21, 22, 23] [] z1,
  .mac 0 [20, 21, 22, 23] [4, 5, 6, 7] z2,
  .mac 0 [8, 9, 10, 11] [16, 17, 18, 19] z3,
  .mac 0 [24, 25, 26, 27] [12, 13, 14, 15] z4,
  .mac 0 [28, 29, 30, 31] [0, 1, 2, 3] z5,
  .mac 0 [24, 25, 26, 27] [36, 37, 38, 39] z6,
  .mac 0 [28, 29, 30, 31] [32, 33, 34, 35] z7,
  .mac 3 [40, 41, 42, 43] [44, 45, 46, 47] z8,
  .mac 3 [48, 49, 50, 51] [52, 53, 54, 55] z9,
  .mac 2 [56, 57, 58, 59] [] z10,
  .mac 1 [60, 61, 62, 63] [] z11,
  .mac 0 [64, 65, 66, 67] [44, 45, 46, 47] z12,
  .mac 0 [64, 65, 66, 67] [40, 41, 42, 43] z13,
  .mac 3 [68, 69, 70, 71] [72, 73, 74, 75] z14,
  .mac 3 [76, 77, 78, 79] [72, 73, 74, 75] z15,
  .mac 0 [56, 57, 58, 59] [8, 9, 10, 11] z16,
  .mac 3 [80, 81, 82, 83] [76, 77, 78, 79] z17,
  .mac 3 [72, 73, 74, 75] [92, 93, 94, 95] z18,
  .mac 0 [84, 85, 86, 87] [52, 53, 54, 55] z19,
  .mac 0 [88, 89, 90, 91] [20, 21, 22, 23] z20,
  .mac 0 [60, 61, 62, 63] [96, 97, 98, 99] z21,
  .mac 3 [108, 109, 110, 111] [100, 101, 102, 103] z22,
  .or 116 8 10,
  .or 117 9 11,
  .or O1 116 117,
  .rel [.lin 0x1 [N1], .lin 0x1 [O1], .lin (-0x10000000000000000) [n1]],
  .or 123 20 22,
  .or 124 21 23,
  .or O2 123 124,
  .rel [.lin 0x1 [N2], .lin 0x1 [O2], .lin (-0x10000000000000000) [n2]],
  .rel [.lin 0x1 [D], .lin (-0xffffffffffffffff) [n2], .lin 0xffffffffffffffff [n1], .lin (-0x10000000000000000) [v]],
  .sel cx v [0, 1, 2, 3] [92, 93, 94, 95],
  .sel dx v cx [12, 13, 14, 15],
  .selz ox D cx dx,
  .sel cy v [4, 5, 6, 7] [112, 113, 114, 115],
  .sel dy v cy [16, 17, 18, 19],
  .selz oy D cy dy,
  .sel cz v [8, 9, 10, 11] [20, 21, 22, 23],
  .selz oz D [104, 105, 106, 107] cz,
  .out 1 (ox ++ (oy ++ oz)),
  .le n1 0x1,
  .le n2 0x1,
  .le v 0x1]
set_option maxRecDepth 100000 in
theorem verified : verifySegs table256 [⟨.rsp, 34, 34, true⟩, ⟨.rdi, 12, 0, true⟩, ⟨.rsi, 12, 0, false⟩, ⟨.rdx, 12, 0, false⟩] [2, 3] segs Asm.p256Montjadd claims = true := by decide +kernel
end Jadd256

namespace Jdbl256
def z0 : List Nat := [12, 13, 14, 15]
def z1 : List Nat := [16, 17, 18, 19]
def z2 : List Nat := [20, 21, 22, 23]
def z3 : List Nat := [24, 25, 26, 27]
def z4 : List Nat := [28, 29, 30, 31]
def z5 : List Nat := [32, 33, 34, 35]
def z6 : List Nat := [36, 37, 38, 39]
def z7 : List Nat := [40, 41, 42, 43]
def z8 : List Nat := [44, 45, 46, 47]
def z9 : List Nat := [48, 49, 50, 51]
def z10 : List Nat := [52, 53, 54, 55]
def z11 : List Nat := [56, 57, 58, 59]
def z12 : List Nat := [60, 61, 62, 63]
def z13 : List Nat := [64, 65, 66, 67]
def z14 : List Nat := [68, 69, 70, 71]
def z15 : List Nat := [72, 73, 74, 75]
def segs : List Seg := [
  .raw 8 [],
  .op 2 100 (.rsp, 0#64) (.rsi, 0x40#64) (.rsi, 0x40#64),
  .op 2 100 (.rsp, 0x20#64) (.rsi, 0x20#64) (.rsi, 0x20#64),
  .op 4 21 (.rsp, 0x60#64) (.rsi, 0#64) (.rsp, 0#64),
  .op 5 21 (.rsp, 0x40#64) (.rsi, 0#64) (.rsp, 0#64),
  .op 0 113 (.rsp, 0x60#64) (.rsp, 0x40#64) (.rsp, 0x60#64),
  .op 6 27 (.rsp, 0x40#64) (.rsi, 0x20#64) (.rsi, 0x40#64),
  .op 0 113 (.rsp, 0x80#64) (.rsi, 0#64) (.rsp, 0x20#64),
  .op 2 100 (.rsp, 0xa0#64) (.rsp, 0x60#64) (.rsp, 0x60#64),
  .op 2 100 (.rsp, 0x40#64) (.rsp, 0x40#64) (.rsp, 0x40#64),
  .op 7 57 (.rsp, 0xa0#64) (.rsp, 0x80#64) (.rsp, 0xa0#64),
  .op 4 21 (.rsp, 0x40#64) (.rsp, 0x40#64) (.rsp, 0#64),
  .op 2 100 (.rsp, 0#64) (.rsp, 0x20#64) (.rsp, 0x20#64),
  .op 0 113 (.rsp, 0x60#64) (.rsp, 0xa0#64) (.rsp, 0x60#64),
  .op 4 21 (.rdi, 0x40#64) (.rsp, 0x40#64) (.rsp, 0x20#64),
  .op 8 40 (.rdi, 0#64) (.rsp, 0x80#64) (.rsp, 0xa0#64),
  .op 9 53 (.rdi, 0x20#64) (.rsp, 0x60#64) (.rsp, 0#64),
  .raw 7 []]
def claims : List Claim := [
  .mac 1 [8, 9, 10, 11] [] z0,
  .mac 1 [4, 5, 6, 7] [] z1,
  .mac 3 [0, 1, 2, 3] [12, 13, 14, 15] z2,
  .mac 5 [0, 1, 2, 3] [12, 13, 14, 15] z3,
  .mac 0 [24, 25, 26, 27] [20, 21, 22, 23] z4,
  .mac 4 [4, 5, 6, 7] [8, 9, 10, 11] z5,
  .mac 0 [0, 1, 2, 3] [16, 17, 18, 19] z6,
  .mac 1 [28, 29, 30, 31] [] z7,
  .mac 1 [32, 33, 34, 35] [] z8,
  .mac 6 [36, 37, 38, 39] [40, 41, 42, 43] z9,
  .mac 3 [44, 45, 46, 47] [12, 13, 14, 15] z10,
  .mac 1 [16, 17, 18, 19] [] z11,
  .mac 0 [48, 49, 50, 51] [28, 29, 30, 31] z12,
  .mac 3 [52, 53, 54, 55] [16, 17, 18, 19] z13,
  .mac 7 [36, 37, 38, 39] [48, 49, 50, 51] z14,
  .mac 8 [60, 61, 62, 63] [56, 57, 58, 59] z15,
  .out 1 (z14 ++ (z15 ++ z13))]
set_option maxRecDepth 100000 in
theorem verified : verifySegs table256 [⟨.rsp, 30, 30, true⟩, ⟨.rdi, 12, 0, true⟩, ⟨.rsi, 12, 0, false⟩] [2] segs Asm.p256Montjdouble claims = true := by decide +kernel
end Jdbl256

namespace Jmix256
def z0 : List Nat := [20, 21, 22, 23]
def z1 : List Nat := [24, 25, 26, 27]
def z2 : List Nat := [28, 29, 30, 31]
def z3 : List Nat := [32, 33, 34, 35]
def z4 : List Nat := [36, 37, 38, 39]
def z5 : List Nat := [40, 41, 42, 43]
def z6 : List Nat := [44, 45, 46, 47]
def z7 : List Nat := [48, 49, 50, 51]
def z8 : List Nat := [52, 53, 54, 55]
def z9 : List Nat := [56, 57, 58, 59]
def z10 : List Nat := [60, 61, 62, 63]
def z11 : List Nat := [64, 65, 66, 67]
def z12 : List Nat := [68, 69, 70, 71]
def z13 : List Nat := [72, 73, 74, 75]
def z14 : List Nat := [76, 77, 78, 79]
def z15 : List Nat := [80, 81, 82, 83]
def z16 : List Nat := [84, 85, 86, 87]
def z17 : List Nat := [88, 89, 90, 91]
def O : Nat := 94
def ox : List Nat := [95, 96, 97, 98]
def oy : List Nat := [99, 100, 101, 102]
def oz : List Nat := [103, 104, 105, 106]
def segs : List Seg := [
  .raw 9 [],
  .op 3 98 (.rsp, 0#64) (.rsi, 0x40#64) (.rsi, 0x40#64),
  .op 0 113 (.rsp, 0x20#64) (.rsi, 0x40#64) (.rbp, 0x20#64),
  .op 0 113 (.rsp, 0x40#64) (.rsp, 0#64) (.rbp, 0#64),
  .op 0 113 (.rsp, 0x20#64) (.rsp, 0#64) (.rsp, 0x20#64),
  .op 4 21 (.rsp, 0xa0#64) (.rsp, 0x40#64) (.rsi, 0#64),
  .op 4 21 (.rsp, 0x20#64) (.rsp, 0x20#64) (.rsi, 0x20#64),
  .op 3 98 (.rsp, 0x60#64) (.rsp, 0xa0#64) (.rsp, 0xa0#64),
  .op 1 100 (.rsp, 0#64) (.rsp, 0x20#64) (.rsp, 0x20#64),
  .op 0 113 (.rsp, 0x80#64) (.rsp, 0x60#64) (.rsi, 0#64),
  .op 0 113 (.rsp, 0x40#64) (.rsp, 0x60#64) (.rsp, 0x40#64),
  .op 4 21 (.rsp, 0#64) (.rsp, 0#64) (.rsp, 0x80#64),
  .op 4 21 (.rsp, 0x60#64) (.rsp, 0x40#64) (.rsp, 0x80#64),
  .op 0 113 (.rsp, 0xa0#64) (.rsp, 0xa0#64) (.rsi, 0x40#64),
  .op 4 21 (.rsp, 0#64) (.rsp, 0#64) (.rsp, 0x40#64),
  .op 4 21 (.rsp, 0x80#64) (.rsp, 0x80#64) (.rsp, 0#64),
  .op 0 113 (.rsp, 0x60#64) (.rsp, 0x60#64) (.rsi, 0x20#64),
  .op 0 113 (.rsp, 0x80#64) (.rsp, 0x20#64) (.rsp, 0x80#64),
  .op 4 21 (.rsp, 0x80#64) (.rsp, 0x80#64) (.rsp, 0x60#64),
  .raw 60 []]
def claims : List Claim := [
  .mac 2 [8, 9, 10, 11] [] z0,
  .mac 0 [8, 9, 10, 11] [16, 17, 18, 19] z1,
  .mac 0 [20, 21, 22, 23] [12, 13, 14, 15] z2,
  .mac 0 [20, 21, 22, 23] [24, 25, 26, 27] z3,
  .mac 3 [28, 29, 30, 31] [0, 1, 2, 3] z4,
  .mac 3 [32, 33, 34, 35] [4, 5, 6, 7] z5,
  .mac 2 [36, 37, 38, 39] [] z6,
  .mac 1 [40, 41, 42, 43] [] z7,
  .mac 0 [44, 45, 46, 47] [0, 1, 2, 3] z8,
  .mac 0 [44, 45, 46, 47] [28, 29, 30, 31] z9,
  .mac 3 [48, 49, 50, 51] [52, 53, 54, 55] z10,
  .mac 3 [56, 57, 58, 59] [52, 53, 54, 55] z11,
  .mac 0 [36, 37, 38, 39] [8, 9, 10, 11] z12,
  .mac 3 [60, 61, 62, 63] [56, 57, 58, 59] z13,
  .mac 3 [52, 53, 54, 55] [72, 73, 74, 75] z14,
  .mac 0 [64, 65, 66, 67] [4, 5, 6, 7] z15,
  .mac 0 [40, 41, 42, 43] [76, 77, 78, 79] z16,
  .mac 3 [84, 85, 86, 87] [80, 81, 82, 83] z17,
  .or 92 8 10,
  .or 93 9 11,
  .or O 92 93,
  .selz ox O [12, 13, 14, 15] [72, 73, 74, 75],
  .selz oy O [16, 17, 18, 19] [88, 89, 90, 91],
  .selzw 103 O 0x1 68,
  .selzw 104 O 0xffffffff00000000 69,
  .selzw 105 O 0xffffffffffffffff 70,
  .selzw 106 O 0xfffffffe 71,
  .out 1 (ox ++ (oy ++ oz))]
set_option maxRecDepth 100000 in
theorem verified : verifySegs table256 [⟨.rsp, 30, 30, true⟩, ⟨.rdi, 12, 0, true⟩, ⟨.rsi, 12, 0, false⟩, ⟨.rdx, 8, 0, false⟩] [2, 3] segs Asm.p256Montjmixadd claims = true := by decide +kernel
end Jmix256

end Verif.X86.Sym
