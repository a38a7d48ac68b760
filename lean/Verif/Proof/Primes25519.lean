import Verif.Proof.Pratt

/-! `2^255 - 19` and the order of the base point of edwards25519 are prime. -/
namespace Verif.Pratt25519
open Verif.Pratt

theorem prime_1224481 : Nat.Prime 1224481 :=
  pratt _ 13 21 [(2, 5), (3, 1), (5, 1), (2551, 1)]
    (by simp only [List.forall_mem_cons, List.not_mem_nil, false_imp_iff, implies_true, and_true]; exact ⟨(by norm_num), (by norm_num), (by norm_num), (by norm_num)⟩) (by decide +kernel)

theorem prime_1923133 : Nat.Prime 1923133 :=
  pratt _ 2 21 [(2, 2), (3, 1), (43, 1), (3727, 1)]
    (by simp only [List.forall_mem_cons, List.not_mem_nil, false_imp_iff, implies_true, and_true]; exact ⟨(by norm_num), (by norm_num), (by norm_num), (by norm_num)⟩) (by decide +kernel)

theorem prime_8574133 : Nat.Prime 8574133 :=
  pratt _ 2 24 [(2, 2), (3, 1), (7, 1), (103, 1), (991, 1)]
    (by simp only [List.forall_mem_cons, List.not_mem_nil, false_imp_iff, implies_true, and_true]; exact ⟨(by norm_num), (by norm_num), (by norm_num), (by norm_num), (by norm_num)⟩) (by decide +kernel)

theorem prime_14741173 : Nat.Prime 14741173 :=
  pratt _ 2 24 [(2, 2), (3, 2), (409477, 1)]
    (by simp only [List.forall_mem_cons, List.not_mem_nil, false_imp_iff, implies_true, and_true]; exact ⟨(by norm_num), (by norm_num), (by norm_num)⟩) (by decide +kernel)

theorem prime_58964693 : Nat.Prime 58964693 :=
  pratt _ 2 26 [(2, 2), (14741173, 1)]
    (by simp only [List.forall_mem_cons, List.not_mem_nil, false_imp_iff, implies_true, and_true]; exact ⟨(by norm_num), prime_14741173⟩) (by decide +kernel)

theorem prime_292386187 : Nat.Prime 292386187 :=
  pratt _ 2 29 [(2, 1), (3, 4), (307, 1), (5879, 1)]
    (by simp only [List.forall_mem_cons, List.not_mem_nil, false_imp_iff, implies_true, and_true]; exact ⟨(by norm_num), (by norm_num), (by norm_num), (by norm_num)⟩) (by decide +kernel)

theorem prime_2773320623 : Nat.Prime 2773320623 :=
  pratt _ 5 32 [(2, 1), (2437, 1), (569003, 1)]
    (by simp only [List.forall_mem_cons, List.not_mem_nil, false_imp_iff, implies_true, and_true]; exact ⟨(by norm_num), (by norm_num), (by norm_num)⟩) (by decide +kernel)

theorem prime_72106336199 : Nat.Prime 72106336199 :=
  pratt _ 7 37 [(2, 1), (13, 1), (2773320623, 1)]
    (by simp only [List.forall_mem_cons, List.not_mem_nil, false_imp_iff, implies_true, and_true]; exact ⟨(by norm_num), (by norm_num), prime_2773320623⟩) (by decide +kernel)

theorem prime_213441916511 : Nat.Prime 213441916511 :=
  pratt _ 13 38 [(2, 1), (5, 1), (73, 1), (292386187, 1)]
    (by simp only [List.forall_mem_cons, List.not_mem_nil, false_imp_iff, implies_true, and_true]; exact ⟨(by norm_num), (by norm_num), (by norm_num), prime_292386187⟩) (by decide +kernel)

theorem prime_1257559732178653 : Nat.Prime 1257559732178653 :=
  pratt _ 2 51 [(2, 2), (3, 1), (7, 1), (23, 1), (531581, 1), (1224481, 1)]
    (by simp only [List.forall_mem_cons, List.not_mem_nil, false_imp_iff, implies_true, and_true]; exact ⟨(by norm_num), (by norm_num), (by norm_num), (by norm_num), (by norm_num), prime_1224481⟩) (by decide +kernel)

theorem prime_1919519569386763 : Nat.Prime 1919519569386763 :=
  pratt _ 2 51 [(2, 1), (3, 1), (7, 1), (19, 1), (47, 2), (127, 1), (8574133, 1)]
    (by simp only [List.forall_mem_cons, List.not_mem_nil, false_imp_iff, implies_true, and_true]; exact ⟨(by norm_num), (by norm_num), (by norm_num), (by norm_num), (by norm_num), (by norm_num), prime_8574133⟩) (by decide +kernel)

theorem prime_31757755568855353 : Nat.Prime 31757755568855353 :=
  pratt _ 10 55 [(2, 3), (3, 1), (31, 1), (107, 1), (223, 1), (4153, 1), (430751, 1)]
    (by simp only [List.forall_mem_cons, List.not_mem_nil, false_imp_iff, implies_true, and_true]; exact ⟨(by norm_num), (by norm_num), (by norm_num), (by norm_num), (by norm_num), (by norm_num), (by norm_num)⟩) (by decide +kernel)

theorem prime_4434155615661930479 : Nat.Prime 4434155615661930479 :=
  pratt _ 17 62 [(2, 1), (41, 1), (43, 1), (1257559732178653, 1)]
    (by simp only [List.forall_mem_cons, List.not_mem_nil, false_imp_iff, implies_true, and_true]; exact ⟨(by norm_num), (by norm_num), (by norm_num), prime_1257559732178653⟩) (by decide +kernel)

theorem prime_3044861653679985063343 : Nat.Prime 3044861653679985063343 :=
  pratt _ 5 72 [(2, 1), (3, 1), (11, 1), (30703, 1), (82163, 1), (132667, 1), (137849, 1)]
    (by simp only [List.forall_mem_cons, List.not_mem_nil, false_imp_iff, implies_true, and_true]; exact ⟨(by norm_num), (by norm_num), (by norm_num), (by norm_num), (by norm_num), (by norm_num), (by norm_num)⟩) (by decide +kernel)

theorem prime_172054593956031949258510691 : Nat.Prime 172054593956031949258510691 :=
  pratt _ 2 88 [(2, 1), (5, 1), (1361, 1), (2851, 1), (4434155615661930479, 1)]
    (by simp only [List.forall_mem_cons, List.not_mem_nil, false_imp_iff, implies_true, and_true]; exact ⟨(by norm_num), (by norm_num), (by norm_num), (by norm_num), prime_4434155615661930479⟩) (by decide +kernel)

theorem prime_198211423230930754013084525763697 : Nat.Prime 198211423230930754013084525763697 :=
  pratt _ 5 108 [(2, 4), (3, 1), (23, 1), (58964693, 1), (3044861653679985063343, 1)]
    (by simp only [List.forall_mem_cons, List.not_mem_nil, false_imp_iff, implies_true, and_true]; exact ⟨(by norm_num), (by norm_num), (by norm_num), prime_58964693, prime_3044861653679985063343⟩) (by decide +kernel)

theorem prime_75445702479781427272750846543864801 : Nat.Prime 75445702479781427272750846543864801 :=
  pratt _ 7 116 [(2, 5), (3, 2), (5, 2), (75707, 1), (72106336199, 1), (1919519569386763, 1)]
    (by simp only [List.forall_mem_cons, List.not_mem_nil, false_imp_iff, implies_true, and_true]; exact ⟨(by norm_num), (by norm_num), (by norm_num), (by norm_num), prime_72106336199, prime_1919519569386763⟩) (by decide +kernel)

theorem prime_19757330305831588566944191468367130476339 : Nat.Prime 19757330305831588566944191468367130476339 :=
  pratt _ 2 134 [(2, 1), (269, 1), (213441916511, 1), (172054593956031949258510691, 1)]
    (by simp only [List.forall_mem_cons, List.not_mem_nil, false_imp_iff, implies_true, and_true]; exact ⟨(by norm_num), (by norm_num), prime_213441916511, prime_172054593956031949258510691⟩) (by decide +kernel)

theorem prime_276602624281642239937218680557139826668747 : Nat.Prime 276602624281642239937218680557139826668747 :=
  pratt _ 2 138 [(2, 1), (7, 1), (19757330305831588566944191468367130476339, 1)]
    (by simp only [List.forall_mem_cons, List.not_mem_nil, false_imp_iff, implies_true, and_true]; exact ⟨(by norm_num), (by norm_num), prime_19757330305831588566944191468367130476339⟩) (by decide +kernel)

theorem prime_74058212732561358302231226437062788676166966415465897661863160754340907 : Nat.Prime 74058212732561358302231226437062788676166966415465897661863160754340907 :=
  pratt _ 2 236 [(2, 1), (3, 1), (353, 1), (57467, 1), (132049, 1), (1923133, 1), (31757755568855353, 1), (75445702479781427272750846543864801, 1)]
    (by simp only [List.forall_mem_cons, List.not_mem_nil, false_imp_iff, implies_true, and_true]; exact ⟨(by norm_num), (by norm_num), (by norm_num), (by norm_num), (by norm_num), prime_1923133, prime_31757755568855353, prime_75445702479781427272750846543864801⟩) (by decide +kernel)

theorem prime_n25519 : Nat.Prime (2 ^ 252 + 27742317777372353535851937790883648493) :=
  pratt _ 2 253 [(2, 2), (3, 1), (11, 1), (198211423230930754013084525763697, 1), (276602624281642239937218680557139826668747, 1)]
    (by simp only [List.forall_mem_cons, List.not_mem_nil, false_imp_iff, implies_true, and_true]; exact ⟨(by norm_num), (by norm_num), (by norm_num), prime_198211423230930754013084525763697, prime_276602624281642239937218680557139826668747⟩) (by decide +kernel)

theorem prime_p25519 : Nat.Prime (2 ^ 255 - 19) :=
  pratt _ 2 255 [(2, 2), (3, 1), (65147, 1), (74058212732561358302231226437062788676166966415465897661863160754340907, 1)]
    (by simp only [List.forall_mem_cons, List.not_mem_nil, false_imp_iff, implies_true, and_true]; exact ⟨(by norm_num), (by norm_num), (by norm_num), prime_74058212732561358302231226437062788676166966415465897661863160754340907⟩) (by decide +kernel)

end Verif.Pratt25519
