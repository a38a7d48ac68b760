import Verif.Proof.X86.Mac384
import Verif.Model.AsmX86.P384Add
import Verif.Model.AsmX86.P384Double

/-! Generated by tools/gen_plan.py: the point routines as field operations, checked by the kernel. -/
namespace Verif.X86.Sym
open Verif Verif.X86

/-- The field operations. -/
def table384 : List Mac := [Mul384.mac, Sqr384.mac, Sqs384.mac, Ams384.mac, Wad384.mac, Add384.mac, Cms384.mac, Cmf384.mac, Cmt384.mac]
theorem table384_ok : ∀ M ∈ table384, M.Ok := by
  simp only [table384, List.forall_mem_cons]
  exact ⟨Mul384.ok, Sqr384.ok, Sqs384.ok, Ams384.ok, Wad384.ok, Add384.ok, Cms384.ok, Cmf384.ok, Cmt384.ok, by simp⟩

namespace Jadd384
def z0 : List Nat := [36, 37, 38, 39, 40, 41]
def z1 : List Nat := [42, 43, 44, 45, 46, 47]
def z2 : List Nat := [48, 49, 50, 51, 52, 53]
def z3 : List Nat := [54, 55, 56, 57, 58, 59]
def z4 : List Nat := [60, 61, 62, 63, 64, 65]
def z5 : List Nat := [66, 67, 68, 69, 70, 71]
def z6 : List Nat := [72, 73, 74, 75, 76, 77]
def z7 : List Nat := [78, 79, 80, 81, 82, 83]
def z8 : List Nat := [100, 102, 109, 111, 113, 115]
def z9 : List Nat := [133, 135, 142, 144, 146, 148]
def z10 : List Nat := [150, 151, 152, 153, 154, 155]
def z11 : List Nat := [156, 157, 158, 159, 160, 161]
def z12 : List Nat := [162, 163, 164, 165, 166, 167]
def z13 : List Nat := [168, 169, 170, 171, 172, 173]
def z14 : List Nat := [190, 192, 199, 201, 203, 205]
def z15 : List Nat := [223, 225, 232, 234, 236, 238]
def z16 : List Nat := [240, 241, 242, 243, 244, 245]
def z17 : List Nat := [262, 264, 271, 273, 275, 277]
def z18 : List Nat := [295, 297, 304, 306, 308, 310]
def z19 : List Nat := [312, 313, 314, 315, 316, 317]
def z20 : List Nat := [318, 319, 320, 321, 322, 323]
def z21 : List Nat := [324, 325, 326, 327, 328, 329]
def z22 : List Nat := [346, 348, 355, 357, 359, 361]
def s8X : List Nat := [60, 61, 62, 63, 64, 65]
def s8Y : List Nat := [66, 67, 68, 69, 70, 71]
def s8U : List Nat := [84, 86, 88, 90, 92, 94]
def s8b : Nat := 95
def s8S : Nat := 98
def s8d : Nat := 99
def s8A : Nat := 106
def s8e : Nat := 103
def s8N : Nat := 107
def s8f : Nat := 108
def s8c : Nat := 116
def s9X : List Nat := [72, 73, 74, 75, 76, 77]
def s9Y : List Nat := [78, 79, 80, 81, 82, 83]
def s9U : List Nat := [117, 119, 121, 123, 125, 127]
def s9b : Nat := 128
def s9S : Nat := 131
def s9d : Nat := 132
def s9A : Nat := 139
def s9e : Nat := 136
def s9N : Nat := 140
def s9f : Nat := 141
def s9c : Nat := 149
def s14X : List Nat := [156, 157, 158, 159, 160, 161]
def s14Y : List Nat := [162, 163, 164, 165, 166, 167]
def s14U : List Nat := [174, 176, 178, 180, 182, 184]
def s14b : Nat := 185
def s14S : Nat := 188
def s14d : Nat := 189
def s14A : Nat := 196
def s14e : Nat := 193
def s14N : Nat := 197
def s14f : Nat := 198
def s14c : Nat := 206
def s15X : List Nat := [168, 169, 170, 171, 172, 173]
def s15Y : List Nat := [162, 163, 164, 165, 166, 167]
def s15U : List Nat := [207, 209, 211, 213, 215, 217]
def s15b : Nat := 218
def s15S : Nat := 221
def s15d : Nat := 222
def s15A : Nat := 229
def s15e : Nat := 226
def s15N : Nat := 230
def s15f : Nat := 231
def s15c : Nat := 239
def s17X : List Nat := [190, 192, 199, 201, 203, 205]
def s17Y : List Nat := [168, 169, 170, 171, 172, 173]
def s17U : List Nat := [246, 248, 250, 252, 254, 256]
def s17b : Nat := 257
def s17S : Nat := 260
def s17d : Nat := 261
def s17A : Nat := 268
def s17e : Nat := 265
def s17N : Nat := 269
def s17f : Nat := 270
def s17c : Nat := 278
def s18X : List Nat := [162, 163, 164, 165, 166, 167]
def s18Y : List Nat := [262, 264, 271, 273, 275, 277]
def s18U : List Nat := [279, 281, 283, 285, 287, 289]
def s18b : Nat := 290
def s18S : Nat := 293
def s18d : Nat := 294
def s18A : Nat := 301
def s18e : Nat := 298
def s18N : Nat := 302
def s18f : Nat := 303
def s18c : Nat := 311
def s22X : List Nat := [324, 325, 326, 327, 328, 329]
def s22Y : List Nat := [312, 313, 314, 315, 316, 317]
def s22U : List Nat := [330, 332, 334, 336, 338, 340]
def s22b : Nat := 341
def s22S : Nat := 344
def s22d : Nat := 345
def s22A : Nat := 352
def s22e : Nat := 349
def s22N : Nat := 353
def s22f : Nat := 354
def s22c : Nat := 362
def O2 : Nat := 367
def n2 : Nat := 369
def N2 : Nat := 368
def O1 : Nat := 382
def n1 : Nat := 384
def N1 : Nat := 383
def D : Nat := 387
def v : Nat := 388
def cx : List Nat := [395, 398, 401, 404, 407, 410]
def dx : List Nat := [396, 399, 402, 405, 408, 411]
def ox : List Nat := [397, 400, 403, 406, 409, 412]
def cy : List Nat := [413, 416, 419, 422, 425, 428]
def dy : List Nat := [414, 417, 420, 423, 426, 429]
def oy : List Nat := [415, 418, 421, 424, 427, 430]
def cz : List Nat := [372, 373, 374, 375, 376, 377]
def oz : List Nat := [389, 390, 391, 392, 393, 394]
def segs : List Seg := [
  .raw 10 [],
  .op 3 222 (.rsp, 0#64) (.rsi, 0x60#64) (.rsi, 0x60#64),
  .raw 1 [],
  .op 3 222 (.rsp, 0xf0#64) (.rsi, 0x60#64) (.rsi, 0x60#64),
  .raw 2 [],
  .op 0 263 (.rsp, 0x120#64) (.rcx, 0x60#64) (.rsi, 0x30#64),
  .raw 2 [],
  .op 0 263 (.rsp, 0x30#64) (.rsi, 0x60#64) (.rcx, 0x30#64),
  .raw 1 [],
  .op 0 263 (.rsp, 0x60#64) (.rsp, 0#64) (.rcx, 0#64),
  .raw 1 [],
  .op 0 263 (.rsp, 0xc0#64) (.rsp, 0xf0#64) (.rsi, 0#64),
  .op 0 263 (.rsp, 0x30#64) (.rsp, 0#64) (.rsp, 0x30#64),
  .op 0 263 (.rsp, 0x120#64) (.rsp, 0xf0#64) (.rsp, 0x120#64),
  .raw 32 [],
  .raw 32 [],
  .op 3 222 (.rsp, 0x90#64) (.rsp, 0xf0#64) (.rsp, 0xf0#64),
  .op 1 230 (.rsp, 0#64) (.rsp, 0x30#64) (.rsp, 0x30#64),
  .op 0 263 (.rsp, 0xc0#64) (.rsp, 0x90#64) (.rsp, 0xc0#64),
  .op 0 263 (.rsp, 0x60#64) (.rsp, 0x90#64) (.rsp, 0x60#64),
  .raw 32 [],
  .raw 32 [],
  .raw 1 [],
  .op 0 263 (.rsp, 0xf0#64) (.rsp, 0xf0#64) (.rsi, 0x60#64),
  .raw 32 [],
  .raw 32 [],
  .op 0 263 (.rsp, 0x90#64) (.rsp, 0x90#64) (.rsp, 0x120#64),
  .raw 1 [],
  .op 0 263 (.rsp, 0xf0#64) (.rsp, 0xf0#64) (.rcx, 0x60#64),
  .op 0 263 (.rsp, 0xc0#64) (.rsp, 0x30#64) (.rsp, 0xc0#64),
  .raw 32 [],
  .raw 118 []]
def claims : List Claim := [
  .mac 18 [12, 13, 14, 15, 16, 17] [] z0,
  .mac 18 [30, 31, 32, 33, 34, 35] [] z1,
  .mac 16 [30, 31, 32, 33, 34, 35] [6, 7, 8, 9, 10, 11] z2,
  .mac 16 [12, 13, 14, 15, 16, 17] [24, 25, 26, 27, 28, 29] z3,
  .mac 16 [36, 37, 38, 39, 40, 41] [18, 19, 20, 21, 22, 23] z4,
  .mac 16 [42, 43, 44, 45, 46, 47] [0, 1, 2, 3, 4, 5] z5,
  .mac 16 [36, 37, 38, 39, 40, 41] [54, 55, 56, 57, 58, 59] z6,
  .mac 16 [42, 43, 44, 45, 46, 47] [48, 49, 50, 51, 52, 53] z7,
  .mac 18 [100, 102, 109, 111, 113, 115] [] z10,
  .mac 17 [133, 135, 142, 144, 146, 148] [] z11,
  .mac 16 [150, 151, 152, 153, 154, 155] [66, 67, 68, 69, 70, 71] z12,
  .mac 16 [150, 151, 152, 153, 154, 155] [60, 61, 62, 63, 64, 65] z13,
  .mac 16 [100, 102, 109, 111, 113, 115] [12, 13, 14, 15, 16, 17] z16,
  .mac 16 [223, 225, 232, 234, 236, 238] [78, 79, 80, 81, 82, 83] z19,
  .mac 16 [240, 241, 242, 243, 244, 245] [30, 31, 32, 33, 34, 35] z20,
  .mac 16 [133, 135, 142, 144, 146, 148] [295, 297, 304, 306, 308, 310] z21,
  .rel [.lin 0x1 s8U, .lin 0x1 s8Y, .lin (-0x1) s8X, .lin (-0x1000000000000000000000000000000000000000000000000000000000000000000000000000000000000000000000000) [s8b]],
  .rel [.lin 0x1 [s8S], .lin 0xffffffff [s8b], .lin (-0x10000000000000000) [s8d]],
  .rel [.lin 0x1 [s8N], .lin 0xffffffffffffffff [s8e], .lin (-0x10000000000000000) [s8f]],
  .rel [.lin 0x1 z8, .lin 0x1 [s8S], .lin 0xffffffff0000000000000000 [s8b], .lin 0x100000000000000000000000000000000 [s8A], .lin 0x100000000000000000000000000000000 [s8f], .lin (-0x1) s8U, .lin (-0x1000000000000000000000000000000000000000000000000000000000000000000000000000000000000000000000000) [s8c], .lin (-0x100000000000000000000000000000000) [s8e]],
  .andk s8A 0xffffffff s8b s8S,
  .rel [.lin 0x1 s9U, .lin 0x1 s9Y, .lin (-0x1) s9X, .lin (-0x1000000000000000000000000000000000000000000000000000000000000000000000000000000000000000000000000) [s9b]],
  .rel [.lin 0x1 [s9S], .lin 0xffffffff [s9b], .lin (-0x10000000000000000) [s9d]],
  .rel [.lin 0x1 [s9N], .lin 0xffffffffffffffff [s9e], .lin (-0x10000000000000000) [s9f]],
  .rel [.lin 0x1 z9, .lin 0x1 [s9S], .lin 0xffffffff0000000000000000 [s9b], .lin 0x100000000000000000000000000000000 [s9A], .lin 0x100000000000000000000000000000000 [s9f], .lin (-0x1) s9U, .lin (-0x1000000000000000000000000000000000000000000000000000000000000000000000000000000000000000000000000) [s9c], .lin (-0x100000000000000000000000000000000) [s9e]],
  .andk s9A 0xffffffff s9b s9S,
  .rel [.lin 0x1 s14U, .lin 0x1 s14Y, .lin (-0x1) s14X, .lin (-0x1000000000000000000000000000000000000000000000000000000000000000000000000000000000000000000000000) [s14b]],
  .rel [.lin 0x1 [s14S], .lin 0xffffffff [s14b], .lin (-0x10000000000000000) [s14d]],
  .rel [.lin 0x1 [s14N], .lin 0xffffffffffffffff [s14e], .lin (-0x10000000000000000) [s14f]],
  .rel [.lin 0x1 z14, .lin 0x1 [s14S], .lin 0xffffffff0000000000000000 [s14b], .lin 0x100000000000000000000000000000000 [s14A], .lin 0x100000000000000000000000000000000 [s14f], .lin (-0x1) s14U, .lin (-0x1000000000000000000000000000000000000000000000000000000000000000000000000000000000000000000000000) [s14c], .lin (-0x100000000000000000000000000000000) [s14e]],
  .andk s14A 0xffffffff s14b s14S,
  .rel [.lin 0x1 s15U, .lin 0x1 s15Y, .lin (-0x1) s15X, .lin (-0x1000000000000000000000000000000000000000000000000000000000000000000000000000000000000000000000000) [s15b]],
  .rel [.lin 0x1 [s15S], .lin 0xffffffff [s15b], .lin (-0x10000000000000000) [s15d]],
  .rel [.lin 0x1 [s15N], .lin 0xffffffffffffffff [s15e], .lin (-0x10000000000000000) [s15f]],
  .rel [.lin 0x1 z15, .lin 0x1 [s15S], .lin 0xffffffff0000000000000000 [s15b], .lin 0x100000000000000000000000000000000 [s15A], .lin 0x100000000000000000000000000000000 [s15f], .lin (-0x1) s15U, .lin (-0x1000000000000000000000000000000000000000000000000000000000000000000000000000000000000000000000000) [s15c], .lin (-0x100000000000000000000000000000000) [s15e]],
  .andk s15A 0xffffffff s15b s15S,
  .rel [.lin 0x1 s17U, .lin 0x1 s17Y, .lin (-0x1) s17X, .lin (-0x1000000000000000000000000000000000000000000000000000000000000000000000000000000000000000000000000) [s17b]],
  .rel [.lin 0x1 [s17S], .lin 0xffffffff [s17b], .lin (-0x10000000000000000) [s17d]],
  .rel [.lin 0x1 [s17N], .lin 0xffffffffffffffff [s17e], .lin (-0x10000000000000000) [s17f]],
  .rel [.lin 0x1 z17, .lin 0x1 [s17S], .lin 0xffffffff0000000000000000 [s17b], .lin 0x100000000000000000000000000000000 [s17A], .lin 0x100000000000000000000000000000000 [s17f], .lin (-0x1) s17U, .lin (-0x1000000000000000000000000000000000000000000000000000000000000000000000000000000000000000000000000) [s17c], .lin (-0x100000000000000000000000000000000) [s17e]],
  .andk s17A 0xffffffff s17b s17S,
  .rel [.lin 0x1 s18U, .lin 0x1 s18Y, .lin (-0x1) s18X, .lin (-0x1000000000000000000000000000000000000000000000000000000000000000000000000000000000000000000000000) [s18b]],
  .rel [.lin 0x1 [s18S], .lin 0xffffffff [s18b], .lin (-0x10000000000000000) [s18d]],
  .rel [.lin 0x1 [s18N], .lin 0xffffffffffffffff [s18e], .lin (-0x10000000000000000) [s18f]],
  .rel [.lin 0x1 z18, .lin 0x1 [s18S], .lin 0xffffffff0000000000000000 [s18b], .lin 0x100000000000000000000000000000000 [s18A], .lin 0x100000000000000000000000000000000 [s18f], .lin (-0x1) s18U, .lin (-0x1000000000000000000000000000000000000000000000000000000000000000000000000000000000000000000000000) [s18c], .lin (-0x100000000000000000000000000000000) [s18e]],
  .andk s18A 0xffffffff s18b s18S,
  .rel [.lin 0x1 s22U, .lin 0x1 s22Y, .lin (-0x1) s22X, .lin (-0x1000000000000000000000000000000000000000000000000000000000000000000000000000000000000000000000000) [s22b]],
  .rel [.lin 0x1 [s22S], .lin 0xffffffff [s22b], .lin (-0x10000000000000000) [s22d]],
  .rel [.lin 0x1 [s22N], .lin 0xffffffffffffffff [s22e], .lin (-0x10000000000000000) [s22f]],
  .rel [.lin 0x1 z22, .lin 0x1 [s22S], .lin 0xffffffff0000000000000000 [s22b], .lin 0x100000000000000000000000000000000 [s22A], .lin 0x100000000000000000000000000000000 [s22f], .lin (-0x1) s22U, .lin (-0x1000000000000000000000000000000000000000000000000000000000000000000000000000000000000000000000000) [s22c], .lin (-0x100000000000000000000000000000000) [s22e]],
  .andk s22A 0xffffffff s22b s22S,
  .or 363 30 32,
  .or 364 31 33,
  .or 365 363 34,
  .or 366 364 35,
  .or O2 365 366,
  .rel [.lin 0x1 [N2], .lin 0x1 [O2], .lin (-0x10000000000000000) [n2]],
  .or 378 12 13,
  .or 379 14 15,
  .or 380 16 17,
  .or 381 378 379,
  .or O1 380 381,
  .rel [.lin 0x1 [N1], .lin 0x1 [O1], .lin (-0x10000000000000000) [n1]],
  .rel [.lin 0x1 [D], .lin (-0xffffffffffffffff) [n2], .lin 0xffffffffffffffff [n1], .lin (-0x10000000000000000) [v]],
  .sel cx v [0, 1, 2, 3, 4, 5] [262, 264, 271, 273, 275, 277],
  .sel dx v cx [18, 19, 20, 21, 22, 23],
  .selz ox D cx dx,
  .sel cy v [6, 7, 8, 9, 10, 11] [346, 348, 355, 357, 359, 361],
  .sel dy v cy [24, 25, 26, 27, 28, 29],
  .selz oy D cy dy,
  .selzk cz 0xffffffffffffffff n2 [12, 13, 14, 15, 16, 17] [30, 31, 32, 33, 34, 35],
  .selz oz D [318, 319, 320, 321, 322, 323] cz,
  .out 1 (ox ++ (oy ++ oz)),
  .le s8b 0x1,
  .le s8e 0x1,
  .le s8f 0x1,
  .le s9b 0x1,
  .le s9e 0x1,
  .le s9f 0x1,
  .le s14b 0x1,
  .le s14e 0x1,
  .le s14f 0x1,
  .le s15b 0x1,
  .le s15e 0x1,
  .le s15f 0x1,
  .le s17b 0x1,
  .le s17e 0x1,
  .le s17f 0x1,
  .le s18b 0x1,
  .le s18e 0x1,
  .le s18f 0x1,
  .le s22b 0x1,
  .le s22e 0x1,
  .le s22f 0x1,
  .le n2 0x1,
  .le n1 0x1,
  .le v 0x1]
set_option maxRecDepth 100000 in
theorem verified : verifySegs table384 [⟨.rsp, 50, 50, true⟩, ⟨.rdi, 18, 0, true⟩, ⟨.rsi, 18, 0, false⟩, ⟨.rdx, 18, 0, false⟩] [2, 3] segs Asm.p384Montjadd claims = true := by decide +kernel
end Jadd384

namespace Jdbl384
def z0 : List Nat := [18, 19, 20, 21, 22, 23]
def z1 : List Nat := [24, 25, 26, 27, 28, 29]
def z2 : List Nat := [30, 31, 32, 33, 34, 35]
def z3 : List Nat := [52, 54, 61, 63, 65, 67]
def z4 : List Nat := [69, 70, 71, 72, 73, 74]
def z5 : List Nat := [75, 76, 77, 78, 79, 80]
def z6 : List Nat := [81, 82, 83, 84, 85, 86]
def z7 : List Nat := [87, 88, 89, 90, 91, 92]
def z8 : List Nat := [93, 94, 95, 96, 97, 98]
def z9 : List Nat := [99, 100, 101, 102, 103, 104]
def z10 : List Nat := [121, 123, 130, 132, 134, 136]
def z11 : List Nat := [138, 139, 140, 141, 142, 143]
def z12 : List Nat := [160, 162, 169, 171, 173, 175]
def z13 : List Nat := [177, 178, 179, 180, 181, 182]
def z14 : List Nat := [183, 184, 185, 186, 187, 188]
def z15 : List Nat := [189, 190, 191, 192, 193, 194]
def s3X : List Nat := [0, 1, 2, 3, 4, 5]
def s3Y : List Nat := [18, 19, 20, 21, 22, 23]
def s3U : List Nat := [36, 38, 40, 42, 44, 46]
def s3b : Nat := 47
def s3S : Nat := 50
def s3d : Nat := 51
def s3A : Nat := 58
def s3e : Nat := 55
def s3N : Nat := 59
def s3f : Nat := 60
def s3c : Nat := 68
def s10X : List Nat := [93, 94, 95, 96, 97, 98]
def s10Y : List Nat := [18, 19, 20, 21, 22, 23]
def s10U : List Nat := [105, 107, 109, 111, 113, 115]
def s10b : Nat := 116
def s10S : Nat := 119
def s10d : Nat := 120
def s10A : Nat := 127
def s10e : Nat := 124
def s10N : Nat := 128
def s10f : Nat := 129
def s10c : Nat := 137
def s12X : List Nat := [121, 123, 130, 132, 134, 136]
def s12Y : List Nat := [24, 25, 26, 27, 28, 29]
def s12U : List Nat := [144, 146, 148, 150, 152, 154]
def s12b : Nat := 155
def s12S : Nat := 158
def s12d : Nat := 159
def s12A : Nat := 166
def s12e : Nat := 163
def s12N : Nat := 167
def s12f : Nat := 168
def s12c : Nat := 176
def segs : List Seg := [
  .raw 9 [],
  .op 2 230 (.rsp, 0#64) (.rsi, 0x60#64) (.rsi, 0x60#64),
  .op 2 230 (.rsp, 0x30#64) (.rsi, 0x30#64) (.rsi, 0x30#64),
  .op 4 31 (.rsp, 0xf0#64) (.rsi, 0#64) (.rsp, 0#64),
  .raw 32 [],
  .op 0 263 (.rsp, 0x60#64) (.rsp, 0xf0#64) (.rsp, 0xc0#64),
  .op 5 40 (.rsp, 0xf0#64) (.rsi, 0x30#64) (.rsi, 0x60#64),
  .op 2 230 (.rsp, 0x120#64) (.rsp, 0x60#64) (.rsp, 0x60#64),
  .op 0 263 (.rsp, 0x90#64) (.rsi, 0#64) (.rsp, 0x30#64),
  .op 2 230 (.rsp, 0xc0#64) (.rsp, 0xf0#64) (.rsp, 0xf0#64),
  .op 6 81 (.rsp, 0x120#64) (.rsp, 0x90#64) (.rsp, 0x120#64),
  .raw 32 [],
  .op 2 230 (.rsp, 0xc0#64) (.rsp, 0x30#64) (.rsp, 0x30#64),
  .raw 1 [],
  .raw 32 [],
  .op 0 263 (.rsp, 0xf0#64) (.rsp, 0x120#64) (.rsp, 0x60#64),
  .op 7 57 (.rdi, 0#64) (.rsp, 0x90#64) (.rsp, 0x120#64),
  .op 8 77 (.rdi, 0x30#64) (.rsp, 0xf0#64) (.rsp, 0xc0#64),
  .raw 7 []]
def claims : List Claim := [
  .mac 17 [12, 13, 14, 15, 16, 17] [] z0,
  .mac 17 [6, 7, 8, 9, 10, 11] [] z1,
  .mac 21 [0, 1, 2, 3, 4, 5] [18, 19, 20, 21, 22, 23] z2,
  .mac 16 [30, 31, 32, 33, 34, 35] [52, 54, 61, 63, 65, 67] z4,
  .mac 20 [6, 7, 8, 9, 10, 11] [12, 13, 14, 15, 16, 17] z5,
  .mac 17 [69, 70, 71, 72, 73, 74] [] z6,
  .mac 16 [0, 1, 2, 3, 4, 5] [24, 25, 26, 27, 28, 29] z7,
  .mac 17 [75, 76, 77, 78, 79, 80] [] z8,
  .mac 22 [87, 88, 89, 90, 91, 92] [81, 82, 83, 84, 85, 86] z9,
  .mac 17 [24, 25, 26, 27, 28, 29] [] z11,
  .mac 16 [99, 100, 101, 102, 103, 104] [69, 70, 71, 72, 73, 74] z13,
  .mac 23 [87, 88, 89, 90, 91, 92] [99, 100, 101, 102, 103, 104] z14,
  .mac 24 [177, 178, 179, 180, 181, 182] [138, 139, 140, 141, 142, 143] z15,
  .rel [.lin 0x1 s3U, .lin 0x1 s3Y, .lin (-0x1) s3X, .lin (-0x1000000000000000000000000000000000000000000000000000000000000000000000000000000000000000000000000) [s3b]],
  .rel [.lin 0x1 [s3S], .lin 0xffffffff [s3b], .lin (-0x10000000000000000) [s3d]],
  .rel [.lin 0x1 [s3N], .lin 0xffffffffffffffff [s3e], .lin (-0x10000000000000000) [s3f]],
  .rel [.lin 0x1 z3, .lin 0x1 [s3S], .lin 0xffffffff0000000000000000 [s3b], .lin 0x100000000000000000000000000000000 [s3A], .lin 0x100000000000000000000000000000000 [s3f], .lin (-0x1) s3U, .lin (-0x1000000000000000000000000000000000000000000000000000000000000000000000000000000000000000000000000) [s3c], .lin (-0x100000000000000000000000000000000) [s3e]],
  .andk s3A 0xffffffff s3b s3S,
  .rel [.lin 0x1 s10U, .lin 0x1 s10Y, .lin (-0x1) s10X, .lin (-0x1000000000000000000000000000000000000000000000000000000000000000000000000000000000000000000000000) [s10b]],
  .rel [.lin 0x1 [s10S], .lin 0xffffffff [s10b], .lin (-0x10000000000000000) [s10d]],
  .rel [.lin 0x1 [s10N], .lin 0xffffffffffffffff [s10e], .lin (-0x10000000000000000) [s10f]],
  .rel [.lin 0x1 z10, .lin 0x1 [s10S], .lin 0xffffffff0000000000000000 [s10b], .lin 0x100000000000000000000000000000000 [s10A], .lin 0x100000000000000000000000000000000 [s10f], .lin (-0x1) s10U, .lin (-0x1000000000000000000000000000000000000000000000000000000000000000000000000000000000000000000000000) [s10c], .lin (-0x100000000000000000000000000000000) [s10e]],
  .andk s10A 0xffffffff s10b s10S,
  .rel [.lin 0x1 s12U, .lin 0x1 s12Y, .lin (-0x1) s12X, .lin (-0x1000000000000000000000000000000000000000000000000000000000000000000000000000000000000000000000000) [s12b]],
  .rel [.lin 0x1 [s12S], .lin 0xffffffff [s12b], .lin (-0x10000000000000000) [s12d]],
  .rel [.lin 0x1 [s12N], .lin 0xffffffffffffffff [s12e], .lin (-0x10000000000000000) [s12f]],
  .rel [.lin 0x1 z12, .lin 0x1 [s12S], .lin 0xffffffff0000000000000000 [s12b], .lin 0x100000000000000000000000000000000 [s12A], .lin 0x100000000000000000000000000000000 [s12f], .lin (-0x1) s12U, .lin (-0x1000000000000000000000000000000000000000000000000000000000000000000000000000000000000000000000000) [s12c], .lin (-0x100000000000000000000000000000000) [s12e]],
  .andk s12A 0xffffffff s12b s12S,
  .out 1 (z14 ++ (z15 ++ z12)),
  .le s3b 0x1,
  .le s3e 0x1,
  .le s3f 0x1,
  .le s10b 0x1,
  .le s10e 0x1,
  .le s10f 0x1,
  .le s12b 0x1,
  .le s12e 0x1,
  .le s12f 0x1]
set_option maxRecDepth 100000 in
theorem verified : verifySegs table384 [⟨.rsp, 49, 49, true⟩, ⟨.rdi, 18, 0, true⟩, ⟨.rsi, 18, 0, false⟩] [2] segs Asm.p384Montjdouble claims = true := by decide +kernel
end Jdbl384

end Verif.X86.Sym
