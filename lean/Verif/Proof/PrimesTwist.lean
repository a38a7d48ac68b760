import Verif.Proof.Pratt
import Mathlib.Tactic.NormNum.Prime

/-! The order of the large subgroup of the twist of curve25519 is prime. -/
namespace Verif.Pratt25519
open Verif.Pratt

theorem prime_5171003929967 : Nat.Prime 5171003929967 :=
  pratt _ 5 43 [(2, 1), (7, 1), (31, 1), (181, 1), (2281, 1), (28859, 1)]
    (by simp only [List.forall_mem_cons, List.not_mem_nil, false_imp_iff, implies_true, and_true]; exact ⟨(by norm_num), (by norm_num), (by norm_num), (by norm_num), (by norm_num), (by norm_num)⟩) (by decide +kernel)

theorem prime_22561162540501040539 : Nat.Prime 22561162540501040539 :=
  pratt _ 3 65 [(2, 1), (3, 1), (727169, 1), (5171003929967, 1)]
    (by simp only [List.forall_mem_cons, List.not_mem_nil, false_imp_iff, implies_true, and_true]; exact ⟨(by norm_num), (by norm_num), (by norm_num), prime_5171003929967⟩) (by decide +kernel)

theorem prime_1013266244677 : Nat.Prime 1013266244677 :=
  pratt _ 2 40 [(2, 2), (3, 1), (7, 1), (383, 1), (3911, 1), (8053, 1)]
    (by simp only [List.forall_mem_cons, List.not_mem_nil, false_imp_iff, implies_true, and_true]; exact ⟨(by norm_num), (by norm_num), (by norm_num), (by norm_num), (by norm_num), (by norm_num)⟩) (by decide +kernel)

theorem prime_743104567 : Nat.Prime 743104567 :=
  pratt _ 6 30 [(2, 1), (3, 2), (3637, 1), (11351, 1)]
    (by simp only [List.forall_mem_cons, List.not_mem_nil, false_imp_iff, implies_true, and_true]; exact ⟨(by norm_num), (by norm_num), (by norm_num), (by norm_num)⟩) (by decide +kernel)

theorem prime_203852586375664218368381551393371968928013 : Nat.Prime 203852586375664218368381551393371968928013 :=
  pratt _ 2 138 [(2, 2), (3, 1), (743104567, 1), (1013266244677, 1), (22561162540501040539, 1)]
    (by simp only [List.forall_mem_cons, List.not_mem_nil, false_imp_iff, implies_true, and_true]; exact ⟨(by norm_num), (by norm_num), prime_743104567, prime_1013266244677, prime_22561162540501040539⟩) (by decide +kernel)

theorem prime_104719073621178708975837602950775180438320278101 : Nat.Prime 104719073621178708975837602950775180438320278101 :=
  pratt _ 2 157 [(2, 2), (5, 2), (11, 1), (467, 1), (203852586375664218368381551393371968928013, 1)]
    (by simp only [List.forall_mem_cons, List.not_mem_nil, false_imp_iff, implies_true, and_true]; exact ⟨(by norm_num), (by norm_num), (by norm_num), (by norm_num), prime_203852586375664218368381551393371968928013⟩) (by decide +kernel)

theorem prime_27413359092552162435694767700453926735143482401279781 : Nat.Prime 27413359092552162435694767700453926735143482401279781 :=
  pratt _ 2 175 [(2, 2), (3, 1), (5, 1), (4363, 1), (104719073621178708975837602950775180438320278101, 1)]
    (by simp only [List.forall_mem_cons, List.not_mem_nil, false_imp_iff, implies_true, and_true]; exact ⟨(by norm_num), (by norm_num), (by norm_num), (by norm_num), prime_104719073621178708975837602950775180438320278101⟩) (by decide +kernel)

theorem prime_1110318119 : Nat.Prime 1110318119 :=
  pratt _ 7 31 [(2, 1), (7, 1), (13, 1), (487, 1), (12527, 1)]
    (by simp only [List.forall_mem_cons, List.not_mem_nil, false_imp_iff, implies_true, and_true]; exact ⟨(by norm_num), (by norm_num), (by norm_num), (by norm_num), (by norm_num)⟩) (by decide +kernel)

theorem prime_2220636239 : Nat.Prime 2220636239 :=
  pratt _ 23 32 [(2, 1), (1110318119, 1)]
    (by simp only [List.forall_mem_cons, List.not_mem_nil, false_imp_iff, implies_true, and_true]; exact ⟨(by norm_num), prime_1110318119⟩) (by decide +kernel)

theorem prime_6418733 : Nat.Prime 6418733 :=
  pratt _ 2 23 [(2, 2), (19, 1), (84457, 1)]
    (by simp only [List.forall_mem_cons, List.not_mem_nil, false_imp_iff, implies_true, and_true]; exact ⟨(by norm_num), (by norm_num), (by norm_num)⟩) (by decide +kernel)

theorem prime_14474011154664524427946373126085988481603263447650325797860494125407373907997 : Nat.Prime 14474011154664524427946373126085988481603263447650325797860494125407373907997 :=
  pratt _ 2 253 [(2, 2), (79, 1), (117223, 1), (6418733, 1), (2220636239, 1), (27413359092552162435694767700453926735143482401279781, 1)]
    (by simp only [List.forall_mem_cons, List.not_mem_nil, false_imp_iff, implies_true, and_true]; exact ⟨(by norm_num), (by norm_num), (by norm_num), prime_6418733, prime_2220636239, prime_27413359092552162435694767700453926735143482401279781⟩) (by decide +kernel)

end Verif.Pratt25519
