import Verif.Proof.X86.Ct

/-!
Generated by tools/gen_ct.py: for each program of `Model/AsmX86` the abstract states at jump
targets.  Checked in `Props/ConstTime.lean`.
-/
namespace Verif.X86.Ct
open Verif Verif.X86

-- bignum_mux: public r8 rcx rdx rsi rsp, frame []
def bignumMuxAnn : List (Nat × Ab) := [(5, ⟨0x31c, .sec, .sec, .sec, .sec, 0#64, []⟩)]

-- bignum_eq: public rcx rdi rdx rsi rsp, frame []
def bignumEqAnn : List (Nat × Ab) := [(4, ⟨0x3c, .pub, .pub, .pub, .pub, 0#64, []⟩),
  (9, ⟨0x3c, .pub, .pub, .pub, .pub, 0#64, []⟩),
  (12, ⟨0x3c, .pub, .pub, .pub, .pub, 0#64, []⟩),
  (13, ⟨0x3c, .pub, .pub, .pub, .pub, 0#64, []⟩),
  (15, ⟨0x34, .sec, .pub, .pub, .pub, 0#64, []⟩),
  (20, ⟨0x34, .sec, .pub, .pub, .pub, 0#64, []⟩)]

-- bignum_cmp_lt: public rcx rdi rdx rsi rsp, frame []
def bignumCmpLtAnn : List (Nat × Ab) := [(7, ⟨0x13c, .sec, .pub, .pub, .pub, 0#64, []⟩),
  (13, ⟨0x13c, .sec, .pub, .pub, .pub, 0#64, []⟩),
  (16, ⟨0x13c, .sec, .pub, .pub, .pub, 0#64, []⟩),
  (21, ⟨0x13c, .pub, .pub, .pub, .pub, 0#64, []⟩),
  (25, ⟨0x13c, .sec, .pub, .pub, .pub, 0#64, []⟩),
  (30, ⟨0x13c, .sec, .pub, .pub, .pub, 0#64, []⟩)]

-- bignum_digitsize: public rdi rsi rsp, frame []
def bignumDigitsizeAnn : List (Nat × Ab) := [(5, ⟨0x38, .pub, .pub, .pub, .pub, 0#64, []⟩)]

-- bignum_bitsize: public rdi rsi rsp, frame []
def bignumBitsizeAnn : List (Nat × Ab) := [(6, ⟨0x130, .pub, .pub, .pub, .pub, 0#64, []⟩)]

-- bignum_ctz: public rdi rsi rsp, frame []
def bignumCtzAnn : List (Nat × Ab) := [(7, ⟨0x30, .sec, .pub, .pub, .pub, 0#64, []⟩)]

-- bignum_add: public r8 r9 rcx rdi rdx rsi rsp, frame []
def bignumAddAnn : List (Nat × Ab) := [(13, ⟨0x73c, .sec, .pub, .pub, .pub, 0#64, []⟩),
  (20, ⟨0x73c, .sec, .pub, .pub, .pub, 0#64, []⟩),
  (24, ⟨0x73c, .sec, .pub, .pub, .pub, 0#64, []⟩),
  (31, ⟨0x73c, .pub, .pub, .pub, .pub, 0#64, []⟩),
  (35, ⟨0x73c, .sec, .pub, .pub, .pub, 0#64, []⟩),
  (41, ⟨0x73c, .sec, .pub, .pub, .pub, 0#64, []⟩),
  (52, ⟨0x73c, .pub, .pub, .pub, .pub, 0#64, []⟩),
  (55, ⟨0x73d, .pub, .pub, .pub, .pub, 0#64, []⟩),
  (56, ⟨0x73d, .pub, .pub, .pub, .pub, 0#64, []⟩)]

-- bignum_modadd: public r8 rcx rdi rdx rsi rsp, frame []
def bignumModaddAnn : List (Nat × Ab) := [(6, ⟨0xf3c, .sec, .pub, .pub, .pub, 0#64, []⟩),
  (15, ⟨0x73c, .sec, .pub, .pub, .pub, 0#64, []⟩),
  (23, ⟨0x33c, .pub, .pub, .pub, .pub, 0#64, []⟩)]

-- bignum_modsub: public r8 rcx rdi rdx rsi rsp, frame []
def bignumModsubAnn : List (Nat × Ab) := [(6, ⟨0xf3c, .sec, .pub, .pub, .pub, 0#64, []⟩),
  (14, ⟨0x33c, .pub, .pub, .pub, .pub, 0#64, []⟩)]

-- bignum_optsub: public r8 rdi rdx rsi rsp, frame []
def bignumOptsubAnn : List (Nat × Ab) := [(7, ⟨0x338, .pub, .pub, .pub, .pub, 0#64, []⟩)]

-- bignum_shr_small: public r8 rcx rdi rdx rsi rsp, frame []
def bignumShrSmallAnn : List (Nat × Ab) := [(6, ⟨0x33d, .pub, .pub, .pub, .pub, 0#64, []⟩),
  (10, ⟨0x33d, .pub, .pub, .pub, .pub, 0#64, []⟩),
  (12, ⟨0x33c, .pub, .pub, .pub, .pub, 0#64, []⟩),
  (14, ⟨0x23c, .sec, .pub, .pub, .pub, 0#64, []⟩),
  (21, ⟨0x23c, .sec, .pub, .pub, .pub, 0#64, []⟩)]

-- bignum_copy_row_from_table: public rcx rdi rdx rsi rsp, frame []
def bignumCopyRowFromTableAnn : List (Nat × Ab) := [(7, ⟨0x23d, .pub, .pub, .pub, .pub, 0#64, []⟩),
  (13, ⟨0x23d, .pub, .pub, .pub, .pub, 0#64, []⟩),
  (14, ⟨0x63d, .pub, .pub, .pub, .pub, 0#64, []⟩)]

-- bignum_negmodinv: public rdi rdx rsi rsp, frame []
def bignumNegmodinvAnn : List (Nat × Ab) := [(39, ⟨0x134, .sec, .sec, .sec, .sec, 0xfffffffffffffff0#64, []⟩),
  (50, ⟨0x134, .sec, .pub, .pub, .pub, 0xfffffffffffffff0#64, []⟩),
  (62, ⟨0x1134, .sec, .sec, .sec, .sec, 0xfffffffffffffff0#64, []⟩),
  (75, ⟨0x134, .sec, .pub, .pub, .pub, 0xfffffffffffffff0#64, []⟩),
  (78, ⟨0x30, .sec, .pub, .pub, .sec, 0xfffffffffffffff0#64, []⟩)]

-- bignum_mul: public r8 r9 rcx rdi rdx rsi rsp, frame []
def bignumMulAnn : List (Nat × Ab) := [(13, ⟨0x774, .pub, .pub, .pub, .pub, 0xffffffffffffffd0#64, []⟩),
  (27, ⟨0x1f76, .sec, .pub, .pub, .pub, 0xffffffffffffffd0#64, []⟩),
  (35, ⟨0x776, .sec, .pub, .pub, .pub, 0xffffffffffffffd0#64, []⟩),
  (41, ⟨0x374, .pub, .pub, .pub, .pub, 0xffffffffffffffd0#64, []⟩)]

-- bignum_demont: public rcx rdi rdx rsi rsp, frame []
def bignumDemontAnn : List (Nat × Ab) := [(31, ⟨0x3e, .pub, .pub, .pub, .pub, 0xffffffffffffffe8#64, []⟩),
  (37, ⟨0x236, .pub, .pub, .pub, .pub, 0xffffffffffffffe8#64, []⟩),
  (48, ⟨0x1236, .sec, .pub, .pub, .pub, 0xffffffffffffffe8#64, []⟩),
  (59, ⟨0x1236, .sec, .pub, .pub, .pub, 0xffffffffffffffe8#64, []⟩),
  (66, ⟨0x1236, .sec, .pub, .pub, .pub, 0xffffffffffffffe8#64, []⟩),
  (75, ⟨0x1236, .pub, .pub, .pub, .pub, 0xffffffffffffffe8#64, []⟩),
  (83, ⟨0x34, .pub, .pub, .pub, .pub, 0xffffffffffffffe8#64, []⟩)]

-- bignum_montmul: public r8 rcx rdi rdx rsi rsp, frame []
def bignumMontmulAnn : List (Nat × Ab) := [(38, ⟨0x2336, .pub, .pub, .pub, .pub, 0xffffffffffffffc8#64, []⟩),
  (43, ⟨0x2336, .pub, .pub, .pub, .pub, 0xffffffffffffffc8#64, []⟩),
  (48, ⟨0xb336, .sec, .pub, .pub, .pub, 0xffffffffffffffc8#64, []⟩),
  (72, ⟨0x3336, .sec, .pub, .pub, .pub, 0xffffffffffffffc8#64, []⟩),
  (83, ⟨0x3336, .sec, .pub, .pub, .pub, 0xffffffffffffffc8#64, []⟩),
  (92, ⟨0x3336, .sec, .pub, .pub, .pub, 0xffffffffffffffc8#64, []⟩),
  (102, ⟨0x3336, .pub, .pub, .pub, .pub, 0xffffffffffffffc8#64, []⟩),
  (110, ⟨0x134, .pub, .pub, .pub, .pub, 0xffffffffffffffc8#64, []⟩)]

-- bignum_montsqr: public rcx rdi rdx rsi rsp, frame []
def bignumMontsqrAnn : List (Nat × Ab) := [(36, ⟨0x2236, .pub, .pub, .pub, .pub, 0xffffffffffffffd0#64, []⟩),
  (41, ⟨0x2236, .pub, .pub, .pub, .pub, 0xffffffffffffffd0#64, []⟩),
  (46, ⟨0xb236, .sec, .pub, .pub, .pub, 0xffffffffffffffd0#64, []⟩),
  (70, ⟨0x3236, .sec, .pub, .pub, .pub, 0xffffffffffffffd0#64, []⟩),
  (81, ⟨0x3236, .sec, .pub, .pub, .pub, 0xffffffffffffffd0#64, []⟩),
  (90, ⟨0x3236, .sec, .pub, .pub, .pub, 0xffffffffffffffd0#64, []⟩),
  (100, ⟨0x3236, .pub, .pub, .pub, .pub, 0xffffffffffffffd0#64, []⟩),
  (108, ⟨0x34, .pub, .pub, .pub, .pub, 0xffffffffffffffd0#64, []⟩)]

-- bignum_montredc: public r8 r9 rcx rdi rdx rsi rsp, frame []
def bignumMontredcAnn : List (Nat × Ab) := [(42, ⟨0x473e, .pub, .pub, .pub, .pub, 0xffffffffffffffc8#64, []⟩),
  (50, ⟨0x473e, .pub, .pub, .pub, .pub, 0xffffffffffffffc8#64, []⟩),
  (54, ⟨0x473e, .pub, .pub, .pub, .pub, 0xffffffffffffffc8#64, []⟩),
  (58, ⟨0x4736, .pub, .pub, .pub, .pub, 0xffffffffffffffc8#64, []⟩),
  (69, ⟨0x6736, .sec, .pub, .pub, .pub, 0xffffffffffffffc8#64, []⟩),
  (80, ⟨0x6736, .sec, .pub, .pub, .pub, 0xffffffffffffffc8#64, []⟩),
  (89, ⟨0x6736, .sec, .sec, .sec, .sec, 0xffffffffffffffc8#64, []⟩),
  (93, ⟨0x4736, .pub, .pub, .pub, .pub, 0xffffffffffffffc8#64, []⟩),
  (95, ⟨0x4736, .sec, .pub, .pub, .pub, 0xffffffffffffffc8#64, []⟩),
  (105, ⟨0x4736, .pub, .pub, .pub, .pub, 0xffffffffffffffc8#64, []⟩),
  (113, ⟨0x334, .pub, .pub, .pub, .pub, 0xffffffffffffffc8#64, []⟩)]

-- bignum_emontredc_8n: public rdi rdx rsi rsp, frame [-72, -64, -56]
def bignumEmontredc8nAnn : List (Nat × Ab) := [(17, ⟨0x30, .pub, .pub, .pub, .pub, 0xffffffffffffffb0#64, [0xffffffffffffffc0#64, 0xffffffffffffffc8#64]⟩),
  (262, ⟨0x70, .pub, .pub, .pub, .pub, 0xffffffffffffffb0#64, [0xffffffffffffffb8#64, 0xffffffffffffffc0#64, 0xffffffffffffffc8#64]⟩),
  (507, ⟨0x71, .pub, .pub, .pub, .pub, 0xffffffffffffffb0#64, [0xffffffffffffffc0#64, 0xffffffffffffffc8#64]⟩),
  (526, ⟨0x30, .pub, .pub, .pub, .pub, 0xffffffffffffffd0#64, []⟩)]

-- bignum_kmul_16_32: public rcx rdi rdx rsi rsp, frame []
def bignumKmul1632Ann : List (Nat × Ab) := []

-- bignum_ksqr_16_32: public rdi rdx rsi rsp, frame []
def bignumKsqr1632Ann : List (Nat × Ab) := []

-- bignum_montifier: public rcx rdi rdx rsi rsp, frame []
def bignumMontifierAnn : List (Nat × Ab) := [(10, ⟨0x303a, .pub, .pub, .pub, .pub, 0xffffffffffffffe0#64, []⟩),
  (18, ⟨0x303a, .sec, .pub, .pub, .pub, 0xffffffffffffffe0#64, []⟩),
  (22, ⟨0x387a, .sec, .sec, .sec, .sec, 0xffffffffffffffe0#64, []⟩),
  (31, ⟨0x303a, .sec, .pub, .pub, .pub, 0xffffffffffffffe0#64, []⟩),
  (35, ⟨0x303a, .pub, .pub, .pub, .pub, 0xffffffffffffffe0#64, []⟩),
  (48, ⟨0x303a, .sec, .sec, .sec, .sec, 0xffffffffffffffe0#64, []⟩),
  (65, ⟨0x3032, .pub, .pub, .pub, .pub, 0xffffffffffffffe0#64, []⟩),
  (80, ⟨0x3032, .pub, .pub, .pub, .pub, 0xffffffffffffffe0#64, []⟩),
  (92, ⟨0x3072, .pub, .pub, .pub, .pub, 0xffffffffffffffe0#64, []⟩),
  (106, ⟨0x3072, .pub, .pub, .pub, .pub, 0xffffffffffffffe0#64, []⟩),
  (118, ⟨0x3072, .pub, .pub, .pub, .pub, 0xffffffffffffffe0#64, []⟩),
  (132, ⟨0x3072, .pub, .pub, .pub, .pub, 0xffffffffffffffe0#64, []⟩),
  (144, ⟨0x3072, .sec, .pub, .pub, .pub, 0xffffffffffffffe0#64, []⟩),
  (148, ⟨0x3172, .sec, .pub, .pub, .pub, 0xffffffffffffffe0#64, []⟩),
  (165, ⟨0x3172, .pub, .pub, .pub, .pub, 0xffffffffffffffe0#64, []⟩),
  (213, ⟨0x3170, .sec, .pub, .pub, .pub, 0xffffffffffffffe0#64, []⟩),
  (224, ⟨0x3170, .sec, .pub, .pub, .pub, 0xffffffffffffffe0#64, []⟩),
  (229, ⟨0x3170, .pub, .pub, .pub, .pub, 0xffffffffffffffe0#64, []⟩),
  (240, ⟨0x3970, .sec, .pub, .pub, .pub, 0xffffffffffffffe0#64, []⟩),
  (251, ⟨0x3970, .sec, .pub, .pub, .pub, 0xffffffffffffffe0#64, []⟩),
  (262, ⟨0x3970, .sec, .pub, .pub, .pub, 0xffffffffffffffe0#64, []⟩),
  (268, ⟨0x3970, .sec, .pub, .pub, .pub, 0xffffffffffffffe0#64, []⟩),
  (277, ⟨0x3970, .pub, .pub, .pub, .pub, 0xffffffffffffffe0#64, []⟩),
  (285, ⟨0x3030, .pub, .pub, .pub, .pub, 0xffffffffffffffe0#64, []⟩)]

-- bignum_modinv: public r8 rcx rdi rdx rsi rsp, frame [-120, -112, -96, -80, -72, -64, -56]
def bignumModinvAnn : List (Nat × Ab) := [(18, ⟨0x8f3c, .pub, .pub, .pub, .pub, 0xffffffffffffff80#64, [0xffffffffffffffb0#64, 0xffffffffffffffb8#64, 0xffffffffffffffc0#64, 0xffffffffffffffc8#64]⟩),
  (58, ⟨0x8324, .sec, .pub, .pub, .sec, 0xffffffffffffff80#64, [0xffffffffffffffa0#64, 0xffffffffffffffb0#64, 0xffffffffffffffb8#64, 0xffffffffffffffc0#64, 0xffffffffffffffc8#64]⟩),
  (71, ⟨0xa320, .pub, .pub, .pub, .pub, 0xffffffffffffff80#64, [0xffffffffffffffa0#64, 0xffffffffffffffb0#64, 0xffffffffffffffb8#64, 0xffffffffffffffc0#64, 0xffffffffffffffc8#64]⟩),
  (106, ⟨0x200, .unk, .unk, .unk, .unk, 0xffffffffffffff80#64, [0xffffffffffffff88#64, 0xffffffffffffff90#64, 0xffffffffffffffa0#64, 0xffffffffffffffb0#64, 0xffffffffffffffb8#64, 0xffffffffffffffc0#64, 0xffffffffffffffc8#64]⟩),
  (151, ⟨0xa320, .pub, .pub, .pub, .pub, 0xffffffffffffff80#64, [0xffffffffffffffa0#64, 0xffffffffffffffb0#64, 0xffffffffffffffb8#64, 0xffffffffffffffc0#64, 0xffffffffffffffc8#64]⟩),
  (196, ⟨0xa324, .sec, .pub, .pub, .pub, 0xffffffffffffff80#64, [0xffffffffffffffa0#64, 0xffffffffffffffb0#64, 0xffffffffffffffb8#64, 0xffffffffffffffc0#64, 0xffffffffffffffc8#64]⟩),
  (207, ⟨0xa324, .sec, .pub, .pub, .pub, 0xffffffffffffff80#64, [0xffffffffffffffa0#64, 0xffffffffffffffb0#64, 0xffffffffffffffb8#64, 0xffffffffffffffc0#64, 0xffffffffffffffc8#64]⟩),
  (213, ⟨0xa324, .sec, .pub, .pub, .pub, 0xffffffffffffff80#64, [0xffffffffffffffa0#64, 0xffffffffffffffb0#64, 0xffffffffffffffb8#64, 0xffffffffffffffc0#64, 0xffffffffffffffc8#64]⟩),
  (223, ⟨0xa320, .pub, .pub, .pub, .pub, 0xffffffffffffff80#64, [0xffffffffffffffa0#64, 0xffffffffffffffb0#64, 0xffffffffffffffb8#64, 0xffffffffffffffc0#64, 0xffffffffffffffc8#64]⟩),
  (245, ⟨0xa324, .sec, .pub, .pub, .pub, 0xffffffffffffff80#64, [0xffffffffffffffa0#64, 0xffffffffffffffb0#64, 0xffffffffffffffb8#64, 0xffffffffffffffc0#64, 0xffffffffffffffc8#64]⟩),
  (256, ⟨0xa324, .sec, .pub, .pub, .pub, 0xffffffffffffff80#64, [0xffffffffffffffa0#64, 0xffffffffffffffb0#64, 0xffffffffffffffb8#64, 0xffffffffffffffc0#64, 0xffffffffffffffc8#64]⟩),
  (262, ⟨0xa324, .sec, .pub, .pub, .pub, 0xffffffffffffff80#64, [0xffffffffffffffa0#64, 0xffffffffffffffb0#64, 0xffffffffffffffb8#64, 0xffffffffffffffc0#64, 0xffffffffffffffc8#64]⟩),
  (272, ⟨0xa320, .pub, .pub, .pub, .pub, 0xffffffffffffff80#64, [0xffffffffffffffa0#64, 0xffffffffffffffb0#64, 0xffffffffffffffb8#64, 0xffffffffffffffc0#64, 0xffffffffffffffc8#64]⟩),
  (289, ⟨0xa320, .pub, .pub, .pub, .pub, 0xffffffffffffff80#64, [0xffffffffffffffa0#64, 0xffffffffffffffb0#64, 0xffffffffffffffb8#64, 0xffffffffffffffc0#64, 0xffffffffffffffc8#64]⟩),
  (325, ⟨0xa320, .sec, .sec, .sec, .sec, 0xffffffffffffff80#64, [0xffffffffffffffa0#64, 0xffffffffffffffb0#64, 0xffffffffffffffb8#64, 0xffffffffffffffc0#64, 0xffffffffffffffc8#64]⟩),
  (343, ⟨0xa320, .sec, .sec, .sec, .sec, 0xffffffffffffff80#64, [0xffffffffffffffa0#64, 0xffffffffffffffb0#64, 0xffffffffffffffb8#64, 0xffffffffffffffc0#64, 0xffffffffffffffc8#64]⟩),
  (362, ⟨0xa324, .pub, .pub, .pub, .pub, 0xffffffffffffff80#64, [0xffffffffffffffa0#64, 0xffffffffffffffb0#64, 0xffffffffffffffb8#64, 0xffffffffffffffc0#64, 0xffffffffffffffc8#64]⟩),
  (383, ⟨0x124, .pub, .pub, .pub, .pub, 0xffffffffffffff80#64, []⟩)]

-- bignum_coprime: public r8 rcx rdi rdx rsi rsp, frame [-96, -88, -80, -72, -64]
def bignumCoprimeAnn : List (Nat × Ab) := [(18, ⟨0xc33c, .pub, .pub, .pub, .pub, 0xffffffffffffffa0#64, []⟩),
  (25, ⟨0xc33c, .pub, .pub, .pub, .pub, 0xffffffffffffffa0#64, []⟩),
  (29, ⟨0xc33c, .pub, .pub, .pub, .pub, 0xffffffffffffffa0#64, []⟩),
  (32, ⟨0xc33c, .pub, .pub, .pub, .pub, 0xffffffffffffffa0#64, []⟩),
  (39, ⟨0xc33c, .pub, .pub, .pub, .pub, 0xffffffffffffffa0#64, []⟩),
  (43, ⟨0xc33c, .pub, .pub, .pub, .pub, 0xffffffffffffffa0#64, []⟩),
  (53, ⟨0xc330, .pub, .pub, .pub, .pub, 0xffffffffffffffa0#64, [0xffffffffffffffc0#64]⟩),
  (65, ⟨0xc300, .pub, .pub, .pub, .pub, 0xffffffffffffffa0#64, [0xffffffffffffffc0#64]⟩),
  (76, ⟨0xe300, .pub, .pub, .pub, .pub, 0xffffffffffffffa0#64, [0xffffffffffffffc0#64]⟩),
  (111, ⟨0x200, .unk, .unk, .unk, .unk, 0xffffffffffffffa0#64, [0xffffffffffffffa0#64, 0xffffffffffffffa8#64, 0xffffffffffffffb0#64, 0xffffffffffffffb8#64, 0xffffffffffffffc0#64]⟩),
  (154, ⟨0xe300, .pub, .pub, .pub, .pub, 0xffffffffffffffa0#64, [0xffffffffffffffc0#64]⟩),
  (190, ⟨0xe300, .sec, .sec, .sec, .sec, 0xffffffffffffffa0#64, [0xffffffffffffffc0#64]⟩),
  (208, ⟨0xe300, .sec, .sec, .sec, .sec, 0xffffffffffffffa0#64, [0xffffffffffffffc0#64]⟩),
  (227, ⟨0xe300, .pub, .pub, .pub, .pub, 0xffffffffffffffa0#64, [0xffffffffffffffc0#64]⟩),
  (231, ⟨0xe300, .pub, .pub, .pub, .pub, 0xffffffffffffffa0#64, [0xffffffffffffffc0#64]⟩),
  (235, ⟨0x4100, .sec, .sec, .sec, .sec, 0xffffffffffffffa0#64, []⟩)]

-- bignum_add_p256: public rdi rdx rsi rsp, frame []
def bignumAddP256Ann : List (Nat × Ab) := []

-- bignum_neg_p256: public rdi rsi rsp, frame []
def bignumNegP256Ann : List (Nat × Ab) := []

-- bignum_mod_n256: public rdi rsi rsp, frame []
def bignumModN256Ann : List (Nat × Ab) := []

-- bignum_demont_p256: public rdi rsi rsp, frame []
def bignumDemontP256Ann : List (Nat × Ab) := []

-- bignum_tomont_p256: public rdi rsi rsp, frame []
def bignumTomontP256Ann : List (Nat × Ab) := []

-- bignum_montmul_p256: public rdi rdx rsi rsp, frame []
def bignumMontmulP256Ann : List (Nat × Ab) := []

-- bignum_montsqr_p256: public rdi rsi rsp, frame []
def bignumMontsqrP256Ann : List (Nat × Ab) := []

-- bignum_inv_p256: public rdi rsi rsp, frame [-112, -64]
def bignumInvP256Ann : List (Nat × Ab) := [(54, ⟨0x40, .sec, .pub, .pub, .pub, 0xfffffffffffffee0#64, [0xffffffffffffff90#64, 0xffffffffffffffc0#64]⟩),
  (378, ⟨0x0, .sec, .sec, .sec, .sec, 0xfffffffffffffee0#64, [0xffffffffffffff90#64, 0xffffffffffffffc0#64]⟩)]

-- bignum_add_p384: public rdi rdx rsi rsp, frame []
def bignumAddP384Ann : List (Nat × Ab) := []

-- bignum_neg_p384: public rdi rsi rsp, frame []
def bignumNegP384Ann : List (Nat × Ab) := []

-- bignum_mod_n384: public rdi rsi rsp, frame []
def bignumModN384Ann : List (Nat × Ab) := []

-- bignum_demont_p384: public rdi rsi rsp, frame []
def bignumDemontP384Ann : List (Nat × Ab) := []

-- bignum_tomont_p384: public rdi rsi rsp, frame []
def bignumTomontP384Ann : List (Nat × Ab) := []

-- bignum_montmul_p384: public rdi rdx rsi rsp, frame []
def bignumMontmulP384Ann : List (Nat × Ab) := []

-- bignum_montsqr_p384: public rdi rsi rsp, frame []
def bignumMontsqrP384Ann : List (Nat × Ab) := []

-- bignum_inv_p384: public rdi rsi rsp, frame [-112, -64]
def bignumInvP384Ann : List (Nat × Ab) := [(64, ⟨0x40, .sec, .pub, .pub, .pub, 0xfffffffffffffe80#64, [0xffffffffffffff90#64, 0xffffffffffffffc0#64]⟩),
  (536, ⟨0x0, .sec, .sec, .sec, .sec, 0xfffffffffffffe80#64, [0xffffffffffffff90#64, 0xffffffffffffffc0#64]⟩)]

-- p256_montjadd: public rdi rdx rsi rsp, frame []
def p256MontjaddAnn : List (Nat × Ab) := []

-- p256_montjdouble: public rdi rsi rsp, frame []
def p256MontjdoubleAnn : List (Nat × Ab) := []

-- p256_montjmixadd: public rdi rdx rsi rsp, frame []
def p256MontjmixaddAnn : List (Nat × Ab) := []

-- p384_montjadd: public rdi rdx rsi rsp, frame [-64, -56]
def p384MontjaddAnn : List (Nat × Ab) := []

-- p384_montjdouble: public rdi rsi rsp, frame [-56]
def p384MontjdoubleAnn : List (Nat × Ab) := []

-- bignum_neg_p25519: public rdi rsi rsp, frame []
def bignumNegP25519Ann : List (Nat × Ab) := []

-- bignum_mod_n25519: public rdi rdx rsi rsp, frame []
def bignumModN25519Ann : List (Nat × Ab) := [(41, ⟨0x34, .sec, .pub, .pub, .pub, 0xffffffffffffffe8#64, []⟩),
  (78, ⟨0x38, .pub, .pub, .pub, .pub, 0xffffffffffffffe8#64, []⟩),
  (91, ⟨0x30, .sec, .pub, .pub, .pub, 0xffffffffffffffe8#64, []⟩)]

-- bignum_madd_n25519: public rcx rdi rdx rsi rsp, frame []
def bignumMaddN25519Ann : List (Nat × Ab) := []

-- curve25519_x25519: public rdi rdx rsi rsp, frame [-320, -272, -80, -72]
def curve25519X25519Ann : List (Nat × Ab) := [(427, ⟨0x35, .sec, .sec, .sec, .sec, 0xfffffffffffffe30#64, [0xffffffffffffffb0#64, 0xffffffffffffffb8#64]⟩),
  (2567, ⟨0x40, .sec, .pub, .pub, .pub, 0xfffffffffffffe30#64, [0xfffffffffffffec0#64, 0xfffffffffffffef0#64, 0xffffffffffffffb0#64, 0xffffffffffffffb8#64]⟩),
  (2857, ⟨0x0, .sec, .sec, .sec, .sec, 0xfffffffffffffe30#64, [0xfffffffffffffec0#64, 0xfffffffffffffef0#64, 0xffffffffffffffb0#64, 0xffffffffffffffb8#64]⟩)]

-- curve25519_x25519base: public rdi rsi rsp, frame [-392, -344, -88, -80, -56]
def curve25519X25519baseAnn : List (Nat × Ab) := [(80, ⟨0x0, .sec, .sec, .sec, .sec, 0xfffffffffffffde8#64, [0xffffffffffffffa8#64, 0xffffffffffffffb0#64, 0xffffffffffffffc8#64]⟩),
  (1160, ⟨0x40, .sec, .pub, .pub, .pub, 0xfffffffffffffde8#64, [0xfffffffffffffe78#64, 0xfffffffffffffea8#64, 0xffffffffffffffa8#64, 0xffffffffffffffb0#64, 0xffffffffffffffc8#64]⟩),
  (1450, ⟨0x0, .sec, .sec, .sec, .sec, 0xfffffffffffffde8#64, [0xfffffffffffffe78#64, 0xfffffffffffffea8#64, 0xffffffffffffffa8#64, 0xffffffffffffffb0#64, 0xffffffffffffffc8#64]⟩)]

-- edwards25519_scalarmulbase: public rdi rsi rsp, frame [-392, -344, -88, -80, -56]
def edwards25519ScalarmulbaseAnn : List (Nat × Ab) := [(105, ⟨0x0, .sec, .sec, .pub, .pub, 0xfffffffffffffde8#64, [0xffffffffffffffa8#64, 0xffffffffffffffb0#64, 0xffffffffffffffc8#64]⟩),
  (1169, ⟨0x40, .sec, .pub, .pub, .pub, 0xfffffffffffffde8#64, [0xfffffffffffffe78#64, 0xfffffffffffffea8#64, 0xffffffffffffffa8#64, 0xffffffffffffffb0#64, 0xffffffffffffffc8#64]⟩),
  (1459, ⟨0x0, .sec, .sec, .sec, .sec, 0xfffffffffffffde8#64, [0xfffffffffffffe78#64, 0xfffffffffffffea8#64, 0xffffffffffffffa8#64, 0xffffffffffffffb0#64, 0xffffffffffffffc8#64]⟩)]

-- sha3_keccak_f1600: public rdi rsi rsp, frame [-56]
def sha3KeccakF1600Ann : List (Nat × Ab) := [(21, ⟨0x8130, .pub, .pub, .pub, .pub, 0xffffffffffffff00#64, []⟩)]

end Verif.X86.Ct
