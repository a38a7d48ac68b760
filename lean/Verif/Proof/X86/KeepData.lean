import Verif.Proof.X86.Keep

/-!
Generated by tools/gen_keep.py: for each program of `Model/AsmX86` the abstract states at jump targets.  Checked in
`Props/SavedRegs.lean`.
-/
namespace Verif.X86.Keep
open Verif Verif.X86

def bignumMuxAnn : List (Nat × Kp) := [(5, ⟨0xfdce, 0#64, []⟩)]

def bignumEqAnn : List (Nat × Kp) := [(4, ⟨0xfff6, 0#64, []⟩),
  (9, ⟨0xffde, 0#64, []⟩),
  (12, ⟨0xffde, 0#64, []⟩),
  (13, ⟨0xffd6, 0#64, []⟩),
  (15, ⟨0xffd6, 0#64, []⟩),
  (20, ⟨0xffd6, 0#64, []⟩)]

def bignumCmpLtAnn : List (Nat × Kp) := [(7, ⟨0xfed6, 0#64, []⟩),
  (13, ⟨0xfed6, 0#64, []⟩),
  (16, ⟨0xfed6, 0#64, []⟩),
  (21, ⟨0xfedf, 0#64, []⟩),
  (25, ⟨0xfed6, 0#64, []⟩),
  (30, ⟨0xfed6, 0#64, []⟩)]

def bignumDigitsizeAnn : List (Nat × Kp) := [(5, ⟨0xfff2, 0#64, []⟩)]

def bignumBitsizeAnn : List (Nat × Kp) := [(6, ⟨0xfef2, 0#64, []⟩)]

def bignumCtzAnn : List (Nat × Kp) := [(7, ⟨0xffd2, 0#64, []⟩)]

def bignumAddAnn : List (Nat × Kp) := [(13, ⟨0xfad6, 0#64, []⟩),
  (20, ⟨0xfad6, 0#64, []⟩),
  (24, ⟨0xfad6, 0#64, []⟩),
  (31, ⟨0xfaf7, 0#64, []⟩),
  (35, ⟨0xfad6, 0#64, []⟩),
  (41, ⟨0xfad6, 0#64, []⟩),
  (52, ⟨0xfad6, 0#64, []⟩),
  (55, ⟨0xfad6, 0#64, []⟩),
  (56, ⟨0xfad6, 0#64, []⟩)]

def bignumModaddAnn : List (Nat × Kp) := [(6, ⟨0xf1fe, 0#64, []⟩),
  (15, ⟨0xf1fe, 0#64, []⟩),
  (23, ⟨0xf1fe, 0#64, []⟩)]

def bignumModsubAnn : List (Nat × Kp) := [(6, ⟨0xf1fe, 0#64, []⟩),
  (14, ⟨0xf1fe, 0#64, []⟩)]

def bignumOptsubAnn : List (Nat × Kp) := [(7, ⟨0xf1fa, 0#64, []⟩)]

def bignumShrSmallAnn : List (Nat × Kp) := [(6, ⟨0xfdda, 0#64, []⟩),
  (10, ⟨0xfdda, 0#64, []⟩),
  (12, ⟨0xfdda, 0#64, []⟩),
  (14, ⟨0xf8da, 0#64, []⟩),
  (21, ⟨0xf8da, 0#64, []⟩)]

def bignumCopyRowFromTableAnn : List (Nat × Kp) := [(7, ⟨0xfdfe, 0#64, []⟩),
  (13, ⟨0xf1fe, 0#64, []⟩),
  (14, ⟨0xf1fe, 0#64, []⟩)]

def bignumNegmodinvAnn : List (Nat × Kp) := [(39, ⟨0xf2f2, 0xfffffffffffffff0#64, [(0xfffffffffffffff8#64, .rbx)]⟩),
  (50, ⟨0xe0c0, 0xfffffffffffffff0#64, [(0xfffffffffffffff8#64, .rbx)]⟩),
  (62, ⟨0xe0c0, 0xfffffffffffffff0#64, [(0xfffffffffffffff8#64, .rbx)]⟩),
  (75, ⟨0xe0c0, 0xfffffffffffffff0#64, [(0xfffffffffffffff8#64, .rbx)]⟩),
  (78, ⟨0xe0c0, 0xfffffffffffffff0#64, [(0xfffffffffffffff8#64, .rbx)]⟩)]

def bignumMulAnn : List (Nat × Kp) := [(13, ⟨0x3a4, 0xffffffffffffffd0#64, [(0xfffffffffffffff0#64, .rbp), (0xfffffffffffffff8#64, .rbx)]⟩),
  (27, ⟨0x3a4, 0xffffffffffffffd0#64, [(0xfffffffffffffff0#64, .rbp), (0xfffffffffffffff8#64, .rbx)]⟩),
  (35, ⟨0x3a4, 0xffffffffffffffd0#64, [(0xfffffffffffffff0#64, .rbp), (0xfffffffffffffff8#64, .rbx)]⟩),
  (41, ⟨0x3a4, 0xffffffffffffffd0#64, [(0xfffffffffffffff0#64, .rbp), (0xfffffffffffffff8#64, .rbx)]⟩)]

def bignumDemontAnn : List (Nat × Kp) := [(31, ⟨0xfefc, 0xffffffffffffffe8#64, [(0xfffffffffffffff0#64, .rbp), (0xfffffffffffffff8#64, .rbx)]⟩),
  (37, ⟨0xe0b4, 0xffffffffffffffe8#64, [(0xfffffffffffffff0#64, .rbp), (0xfffffffffffffff8#64, .rbx)]⟩),
  (48, ⟨0xe0b4, 0xffffffffffffffe8#64, [(0xfffffffffffffff0#64, .rbp), (0xfffffffffffffff8#64, .rbx)]⟩),
  (59, ⟨0xe0b4, 0xffffffffffffffe8#64, [(0xfffffffffffffff0#64, .rbp), (0xfffffffffffffff8#64, .rbx)]⟩),
  (66, ⟨0xe0b4, 0xffffffffffffffe8#64, [(0xfffffffffffffff0#64, .rbp), (0xfffffffffffffff8#64, .rbx)]⟩),
  (75, ⟨0xe0b4, 0xffffffffffffffe8#64, [(0xfffffffffffffff0#64, .rbp), (0xfffffffffffffff8#64, .rbx)]⟩),
  (83, ⟨0xe0b4, 0xffffffffffffffe8#64, [(0xfffffffffffffff0#64, .rbp), (0xfffffffffffffff8#64, .rbx)]⟩)]

def bignumMontmulAnn : List (Nat × Kp) := [(38, ⟨0xddf4, 0xffffffffffffffc8#64, [(0xfffffffffffffff0#64, .rbp), (0xfffffffffffffff8#64, .rbx)]⟩),
  (43, ⟨0x1b4, 0xffffffffffffffc8#64, [(0xfffffffffffffff0#64, .rbp), (0xfffffffffffffff8#64, .rbx)]⟩),
  (48, ⟨0x1b4, 0xffffffffffffffc8#64, [(0xfffffffffffffff0#64, .rbp), (0xfffffffffffffff8#64, .rbx)]⟩),
  (72, ⟨0x1b4, 0xffffffffffffffc8#64, [(0xfffffffffffffff0#64, .rbp), (0xfffffffffffffff8#64, .rbx)]⟩),
  (83, ⟨0x1b4, 0xffffffffffffffc8#64, [(0xfffffffffffffff0#64, .rbp), (0xfffffffffffffff8#64, .rbx)]⟩),
  (92, ⟨0x1b4, 0xffffffffffffffc8#64, [(0xfffffffffffffff0#64, .rbp), (0xfffffffffffffff8#64, .rbx)]⟩),
  (102, ⟨0x1b4, 0xffffffffffffffc8#64, [(0xfffffffffffffff0#64, .rbp), (0xfffffffffffffff8#64, .rbx)]⟩),
  (110, ⟨0x1b4, 0xffffffffffffffc8#64, [(0xfffffffffffffff0#64, .rbp), (0xfffffffffffffff8#64, .rbx)]⟩)]

def bignumMontsqrAnn : List (Nat × Kp) := [(36, ⟨0xdcf4, 0xffffffffffffffd0#64, [(0xfffffffffffffff0#64, .rbp), (0xfffffffffffffff8#64, .rbx)]⟩),
  (41, ⟨0xb4, 0xffffffffffffffd0#64, [(0xfffffffffffffff0#64, .rbp), (0xfffffffffffffff8#64, .rbx)]⟩),
  (46, ⟨0xb4, 0xffffffffffffffd0#64, [(0xfffffffffffffff0#64, .rbp), (0xfffffffffffffff8#64, .rbx)]⟩),
  (70, ⟨0xb4, 0xffffffffffffffd0#64, [(0xfffffffffffffff0#64, .rbp), (0xfffffffffffffff8#64, .rbx)]⟩),
  (81, ⟨0xb4, 0xffffffffffffffd0#64, [(0xfffffffffffffff0#64, .rbp), (0xfffffffffffffff8#64, .rbx)]⟩),
  (90, ⟨0xb4, 0xffffffffffffffd0#64, [(0xfffffffffffffff0#64, .rbp), (0xfffffffffffffff8#64, .rbx)]⟩),
  (100, ⟨0xb4, 0xffffffffffffffd0#64, [(0xfffffffffffffff0#64, .rbp), (0xfffffffffffffff8#64, .rbx)]⟩),
  (108, ⟨0xb4, 0xffffffffffffffd0#64, [(0xfffffffffffffff0#64, .rbp), (0xfffffffffffffff8#64, .rbx)]⟩)]

def bignumMontredcAnn : List (Nat × Kp) := [(42, ⟨0xbbfc, 0xffffffffffffffc8#64, [(0xfffffffffffffff0#64, .rbp), (0xfffffffffffffff8#64, .rbx)]⟩),
  (50, ⟨0xbbfc, 0xffffffffffffffc8#64, [(0xfffffffffffffff0#64, .rbp), (0xfffffffffffffff8#64, .rbx)]⟩),
  (54, ⟨0xbbfc, 0xffffffffffffffc8#64, [(0xfffffffffffffff0#64, .rbp), (0xfffffffffffffff8#64, .rbx)]⟩),
  (58, ⟨0x3b4, 0xffffffffffffffc8#64, [(0xfffffffffffffff0#64, .rbp), (0xfffffffffffffff8#64, .rbx)]⟩),
  (69, ⟨0x3b4, 0xffffffffffffffc8#64, [(0xfffffffffffffff0#64, .rbp), (0xfffffffffffffff8#64, .rbx)]⟩),
  (80, ⟨0x3b4, 0xffffffffffffffc8#64, [(0xfffffffffffffff0#64, .rbp), (0xfffffffffffffff8#64, .rbx)]⟩),
  (89, ⟨0x3b4, 0xffffffffffffffc8#64, [(0xfffffffffffffff0#64, .rbp), (0xfffffffffffffff8#64, .rbx)]⟩),
  (93, ⟨0x3b4, 0xffffffffffffffc8#64, [(0xfffffffffffffff0#64, .rbp), (0xfffffffffffffff8#64, .rbx)]⟩),
  (95, ⟨0x3b4, 0xffffffffffffffc8#64, [(0xfffffffffffffff0#64, .rbp), (0xfffffffffffffff8#64, .rbx)]⟩),
  (105, ⟨0x3b4, 0xffffffffffffffc8#64, [(0xfffffffffffffff0#64, .rbp), (0xfffffffffffffff8#64, .rbx)]⟩),
  (113, ⟨0x3b4, 0xffffffffffffffc8#64, [(0xfffffffffffffff0#64, .rbp), (0xfffffffffffffff8#64, .rbx)]⟩)]

def bignumEmontredc8nAnn : List (Nat × Kp) := [(17, ⟨0x84, 0xffffffffffffffb0#64, [(0xfffffffffffffff0#64, .rbx), (0xfffffffffffffff8#64, .rbp)]⟩),
  (262, ⟨0x84, 0xffffffffffffffb0#64, [(0xfffffffffffffff0#64, .rbx), (0xfffffffffffffff8#64, .rbp)]⟩),
  (507, ⟨0x84, 0xffffffffffffffb0#64, [(0xfffffffffffffff0#64, .rbx), (0xfffffffffffffff8#64, .rbp)]⟩),
  (526, ⟨0x84, 0xffffffffffffffd0#64, [(0xfffffffffffffff0#64, .rbx), (0xfffffffffffffff8#64, .rbp)]⟩)]

def bignumKmul1632Ann : List (Nat × Kp) := []

def bignumKsqr1632Ann : List (Nat × Kp) := []

def bignumMontifierAnn : List (Nat × Kp) := [(10, ⟨0xcff9, 0xffffffffffffffe0#64, [(0xfffffffffffffff0#64, .rbx), (0xfffffffffffffff8#64, .rbp)]⟩),
  (18, ⟨0xc7b8, 0xffffffffffffffe0#64, [(0xfffffffffffffff0#64, .rbx), (0xfffffffffffffff8#64, .rbp)]⟩),
  (22, ⟨0xc7b8, 0xffffffffffffffe0#64, [(0xfffffffffffffff0#64, .rbx), (0xfffffffffffffff8#64, .rbp)]⟩),
  (31, ⟨0xc7b8, 0xffffffffffffffe0#64, [(0xfffffffffffffff0#64, .rbx), (0xfffffffffffffff8#64, .rbp)]⟩),
  (35, ⟨0xc5b8, 0xffffffffffffffe0#64, [(0xfffffffffffffff0#64, .rbx), (0xfffffffffffffff8#64, .rbp)]⟩),
  (48, ⟨0xc4b8, 0xffffffffffffffe0#64, [(0xfffffffffffffff0#64, .rbx), (0xfffffffffffffff8#64, .rbp)]⟩),
  (65, ⟨0xc4b0, 0xffffffffffffffe0#64, [(0xfffffffffffffff0#64, .rbx), (0xfffffffffffffff8#64, .rbp)]⟩),
  (80, ⟨0xc4b0, 0xffffffffffffffe0#64, [(0xfffffffffffffff0#64, .rbx), (0xfffffffffffffff8#64, .rbp)]⟩),
  (92, ⟨0xc4b0, 0xffffffffffffffe0#64, [(0xfffffffffffffff0#64, .rbx), (0xfffffffffffffff8#64, .rbp)]⟩),
  (106, ⟨0xc4b0, 0xffffffffffffffe0#64, [(0xfffffffffffffff0#64, .rbx), (0xfffffffffffffff8#64, .rbp)]⟩),
  (118, ⟨0xc4b0, 0xffffffffffffffe0#64, [(0xfffffffffffffff0#64, .rbx), (0xfffffffffffffff8#64, .rbp)]⟩),
  (132, ⟨0xc4b0, 0xffffffffffffffe0#64, [(0xfffffffffffffff0#64, .rbx), (0xfffffffffffffff8#64, .rbp)]⟩),
  (144, ⟨0xc0b0, 0xffffffffffffffe0#64, [(0xfffffffffffffff0#64, .rbx), (0xfffffffffffffff8#64, .rbp)]⟩),
  (148, ⟨0xc0b0, 0xffffffffffffffe0#64, [(0xfffffffffffffff0#64, .rbx), (0xfffffffffffffff8#64, .rbp)]⟩),
  (165, ⟨0xc0b0, 0xffffffffffffffe0#64, [(0xfffffffffffffff0#64, .rbx), (0xfffffffffffffff8#64, .rbp)]⟩),
  (213, ⟨0xc0b0, 0xffffffffffffffe0#64, [(0xfffffffffffffff0#64, .rbx), (0xfffffffffffffff8#64, .rbp)]⟩),
  (224, ⟨0xc0b0, 0xffffffffffffffe0#64, [(0xfffffffffffffff0#64, .rbx), (0xfffffffffffffff8#64, .rbp)]⟩),
  (229, ⟨0xc0b0, 0xffffffffffffffe0#64, [(0xfffffffffffffff0#64, .rbx), (0xfffffffffffffff8#64, .rbp)]⟩),
  (240, ⟨0xc0b0, 0xffffffffffffffe0#64, [(0xfffffffffffffff0#64, .rbx), (0xfffffffffffffff8#64, .rbp)]⟩),
  (251, ⟨0xc0b0, 0xffffffffffffffe0#64, [(0xfffffffffffffff0#64, .rbx), (0xfffffffffffffff8#64, .rbp)]⟩),
  (262, ⟨0xc0b0, 0xffffffffffffffe0#64, [(0xfffffffffffffff0#64, .rbx), (0xfffffffffffffff8#64, .rbp)]⟩),
  (268, ⟨0xc0b0, 0xffffffffffffffe0#64, [(0xfffffffffffffff0#64, .rbx), (0xfffffffffffffff8#64, .rbp)]⟩),
  (277, ⟨0xc0b0, 0xffffffffffffffe0#64, [(0xfffffffffffffff0#64, .rbx), (0xfffffffffffffff8#64, .rbp)]⟩),
  (285, ⟨0xc0b0, 0xffffffffffffffe0#64, [(0xfffffffffffffff0#64, .rbx), (0xfffffffffffffff8#64, .rbp)]⟩)]

def bignumModinvAnn : List (Nat × Kp) := [(18, ⟨0x71fc, 0xffffffffffffff80#64, [(0xfffffffffffffff0#64, .rbx), (0xfffffffffffffff8#64, .rbp)]⟩),
  (58, ⟨0x80, 0xffffffffffffff80#64, [(0xfffffffffffffff0#64, .rbx), (0xfffffffffffffff8#64, .rbp)]⟩),
  (71, ⟨0x80, 0xffffffffffffff80#64, [(0xfffffffffffffff0#64, .rbx), (0xfffffffffffffff8#64, .rbp)]⟩),
  (106, ⟨0x80, 0xffffffffffffff80#64, [(0xfffffffffffffff0#64, .rbx), (0xfffffffffffffff8#64, .rbp)]⟩),
  (151, ⟨0x80, 0xffffffffffffff80#64, [(0xfffffffffffffff0#64, .rbx), (0xfffffffffffffff8#64, .rbp)]⟩),
  (196, ⟨0x80, 0xffffffffffffff80#64, [(0xfffffffffffffff0#64, .rbx), (0xfffffffffffffff8#64, .rbp)]⟩),
  (207, ⟨0x80, 0xffffffffffffff80#64, [(0xfffffffffffffff0#64, .rbx), (0xfffffffffffffff8#64, .rbp)]⟩),
  (213, ⟨0x80, 0xffffffffffffff80#64, [(0xfffffffffffffff0#64, .rbx), (0xfffffffffffffff8#64, .rbp)]⟩),
  (223, ⟨0x80, 0xffffffffffffff80#64, [(0xfffffffffffffff0#64, .rbx), (0xfffffffffffffff8#64, .rbp)]⟩),
  (245, ⟨0x80, 0xffffffffffffff80#64, [(0xfffffffffffffff0#64, .rbx), (0xfffffffffffffff8#64, .rbp)]⟩),
  (256, ⟨0x80, 0xffffffffffffff80#64, [(0xfffffffffffffff0#64, .rbx), (0xfffffffffffffff8#64, .rbp)]⟩),
  (262, ⟨0x80, 0xffffffffffffff80#64, [(0xfffffffffffffff0#64, .rbx), (0xfffffffffffffff8#64, .rbp)]⟩),
  (272, ⟨0x80, 0xffffffffffffff80#64, [(0xfffffffffffffff0#64, .rbx), (0xfffffffffffffff8#64, .rbp)]⟩),
  (289, ⟨0x80, 0xffffffffffffff80#64, [(0xfffffffffffffff0#64, .rbx), (0xfffffffffffffff8#64, .rbp)]⟩),
  (325, ⟨0x80, 0xffffffffffffff80#64, [(0xfffffffffffffff0#64, .rbx), (0xfffffffffffffff8#64, .rbp)]⟩),
  (343, ⟨0x80, 0xffffffffffffff80#64, [(0xfffffffffffffff0#64, .rbx), (0xfffffffffffffff8#64, .rbp)]⟩),
  (362, ⟨0x80, 0xffffffffffffff80#64, [(0xfffffffffffffff0#64, .rbx), (0xfffffffffffffff8#64, .rbp)]⟩),
  (383, ⟨0x80, 0xffffffffffffff80#64, [(0xfffffffffffffff0#64, .rbx), (0xfffffffffffffff8#64, .rbp)]⟩)]

def bignumCoprimeAnn : List (Nat × Kp) := [(18, ⟨0x3dfe, 0xffffffffffffffa0#64, [(0xfffffffffffffff0#64, .rbx), (0xfffffffffffffff8#64, .rbp)]⟩),
  (25, ⟨0x3dfe, 0xffffffffffffffa0#64, [(0xfffffffffffffff0#64, .rbx), (0xfffffffffffffff8#64, .rbp)]⟩),
  (29, ⟨0x3dfe, 0xffffffffffffffa0#64, [(0xfffffffffffffff0#64, .rbx), (0xfffffffffffffff8#64, .rbp)]⟩),
  (32, ⟨0x3dfe, 0xffffffffffffffa0#64, [(0xfffffffffffffff0#64, .rbx), (0xfffffffffffffff8#64, .rbp)]⟩),
  (39, ⟨0x3dfe, 0xffffffffffffffa0#64, [(0xfffffffffffffff0#64, .rbx), (0xfffffffffffffff8#64, .rbp)]⟩),
  (43, ⟨0x3dfe, 0xffffffffffffffa0#64, [(0xfffffffffffffff0#64, .rbx), (0xfffffffffffffff8#64, .rbp)]⟩),
  (53, ⟨0x3df0, 0xffffffffffffffa0#64, [(0xfffffffffffffff0#64, .rbx), (0xfffffffffffffff8#64, .rbp)]⟩),
  (65, ⟨0x80, 0xffffffffffffffa0#64, [(0xfffffffffffffff0#64, .rbx), (0xfffffffffffffff8#64, .rbp)]⟩),
  (76, ⟨0x80, 0xffffffffffffffa0#64, [(0xfffffffffffffff0#64, .rbx), (0xfffffffffffffff8#64, .rbp)]⟩),
  (111, ⟨0x80, 0xffffffffffffffa0#64, [(0xfffffffffffffff0#64, .rbx), (0xfffffffffffffff8#64, .rbp)]⟩),
  (154, ⟨0x80, 0xffffffffffffffa0#64, [(0xfffffffffffffff0#64, .rbx), (0xfffffffffffffff8#64, .rbp)]⟩),
  (190, ⟨0x80, 0xffffffffffffffa0#64, [(0xfffffffffffffff0#64, .rbx), (0xfffffffffffffff8#64, .rbp)]⟩),
  (208, ⟨0x80, 0xffffffffffffffa0#64, [(0xfffffffffffffff0#64, .rbx), (0xfffffffffffffff8#64, .rbp)]⟩),
  (227, ⟨0x80, 0xffffffffffffffa0#64, [(0xfffffffffffffff0#64, .rbx), (0xfffffffffffffff8#64, .rbp)]⟩),
  (231, ⟨0x80, 0xffffffffffffffa0#64, [(0xfffffffffffffff0#64, .rbx), (0xfffffffffffffff8#64, .rbp)]⟩),
  (235, ⟨0x80, 0xffffffffffffffa0#64, [(0xfffffffffffffff0#64, .rbx), (0xfffffffffffffff8#64, .rbp)]⟩)]

def bignumAddP256Ann : List (Nat × Kp) := []

def bignumNegP256Ann : List (Nat × Kp) := []

def bignumModN256Ann : List (Nat × Kp) := []

def bignumDemontP256Ann : List (Nat × Kp) := []

def bignumTomontP256Ann : List (Nat × Kp) := []

def bignumMontmulP256Ann : List (Nat × Kp) := []

def bignumMontsqrP256Ann : List (Nat × Kp) := []

def bignumInvP256Ann : List (Nat × Kp) := [(54, ⟨0x80, 0xfffffffffffffee0#64, [(0xfffffffffffffff0#64, .rbp), (0xfffffffffffffff8#64, .rbx)]⟩),
  (378, ⟨0x80, 0xfffffffffffffee0#64, [(0xfffffffffffffff0#64, .rbp), (0xfffffffffffffff8#64, .rbx)]⟩)]

def bignumAddP384Ann : List (Nat × Kp) := []

def bignumNegP384Ann : List (Nat × Kp) := []

def bignumModN384Ann : List (Nat × Kp) := []

def bignumDemontP384Ann : List (Nat × Kp) := []

def bignumTomontP384Ann : List (Nat × Kp) := []

def bignumMontmulP384Ann : List (Nat × Kp) := []

def bignumMontsqrP384Ann : List (Nat × Kp) := []

def bignumInvP384Ann : List (Nat × Kp) := [(64, ⟨0x80, 0xfffffffffffffe80#64, [(0xfffffffffffffff0#64, .rbp), (0xfffffffffffffff8#64, .rbx)]⟩),
  (536, ⟨0x80, 0xfffffffffffffe80#64, [(0xfffffffffffffff0#64, .rbp), (0xfffffffffffffff8#64, .rbx)]⟩)]

def p256MontjaddAnn : List (Nat × Kp) := []

def p256MontjdoubleAnn : List (Nat × Kp) := []

def p256MontjmixaddAnn : List (Nat × Kp) := []

def p384MontjaddAnn : List (Nat × Kp) := []

def p384MontjdoubleAnn : List (Nat × Kp) := []

def bignumNegP25519Ann : List (Nat × Kp) := []

def bignumModN25519Ann : List (Nat × Kp) := [(41, ⟨0xe0a0, 0xffffffffffffffe8#64, [(0xfffffffffffffff0#64, .rbp), (0xfffffffffffffff8#64, .rbx)]⟩),
  (78, ⟨0xffff, 0xffffffffffffffe8#64, [(0xfffffffffffffff0#64, .rbp), (0xfffffffffffffff8#64, .rbx)]⟩),
  (91, ⟨0xe0a0, 0xffffffffffffffe8#64, [(0xfffffffffffffff0#64, .rbp), (0xfffffffffffffff8#64, .rbx)]⟩)]

def bignumMaddN25519Ann : List (Nat × Kp) := []

def curve25519X25519Ann : List (Nat × Kp) := [(427, ⟨0xd0, 0xfffffffffffffe30#64, [(0xfffffffffffffff0#64, .rbp), (0xfffffffffffffff8#64, .rbx)]⟩),
  (2567, ⟨0x80, 0xfffffffffffffe30#64, [(0xfffffffffffffff0#64, .rbp), (0xfffffffffffffff8#64, .rbx)]⟩),
  (2857, ⟨0x80, 0xfffffffffffffe30#64, [(0xfffffffffffffff0#64, .rbp), (0xfffffffffffffff8#64, .rbx)]⟩)]

def curve25519X25519baseAnn : List (Nat × Kp) := [(80, ⟨0x80, 0xfffffffffffffde8#64, [(0xfffffffffffffff0#64, .rbp), (0xfffffffffffffff8#64, .rbx)]⟩),
  (1160, ⟨0x80, 0xfffffffffffffde8#64, [(0xfffffffffffffff0#64, .rbp), (0xfffffffffffffff8#64, .rbx)]⟩),
  (1450, ⟨0x80, 0xfffffffffffffde8#64, [(0xfffffffffffffff0#64, .rbp), (0xfffffffffffffff8#64, .rbx)]⟩)]

def edwards25519ScalarmulbaseAnn : List (Nat × Kp) := [(105, ⟨0x80, 0xfffffffffffffde8#64, [(0xfffffffffffffff0#64, .rbp), (0xfffffffffffffff8#64, .rbx)]⟩),
  (1169, ⟨0x80, 0xfffffffffffffde8#64, [(0xfffffffffffffff0#64, .rbp), (0xfffffffffffffff8#64, .rbx)]⟩),
  (1459, ⟨0x80, 0xfffffffffffffde8#64, [(0xfffffffffffffff0#64, .rbp), (0xfffffffffffffff8#64, .rbx)]⟩)]

def sha3KeccakF1600Ann : List (Nat × Kp) := [(21, ⟨0x80, 0xffffffffffffff00#64, [(0xfffffffffffffff0#64, .rbp), (0xfffffffffffffff8#64, .rbx)]⟩)]

end Verif.X86.Keep
