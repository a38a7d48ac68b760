import Verif.Proof.Pratt

/-! The field primes and group orders of P-256 and P-384 are prime. -/
namespace Verif.Pratt

theorem prime_1276987 : Nat.Prime 1276987 :=
  pratt _ 2 21 [(2, 1), (3, 1), (29, 1), (41, 1), (179, 1)]
    (by simp only [List.forall_mem_cons, List.not_mem_nil, false_imp_iff, implies_true, and_true]; exact ⟨(by norm_num), (by norm_num), (by norm_num), (by norm_num), (by norm_num)⟩) (by decide +kernel)

theorem prime_3969899 : Nat.Prime 3969899 :=
  pratt _ 2 22 [(2, 1), (19, 1), (104471, 1)]
    (by simp only [List.forall_mem_cons, List.not_mem_nil, false_imp_iff, implies_true, and_true]; exact ⟨(by norm_num), (by norm_num), (by norm_num)⟩) (by decide +kernel)

theorem prime_6051631 : Nat.Prime 6051631 :=
  pratt _ 6 23 [(2, 1), (3, 1), (5, 1), (13, 1), (59, 1), (263, 1)]
    (by simp only [List.forall_mem_cons, List.not_mem_nil, false_imp_iff, implies_true, and_true]; exact ⟨(by norm_num), (by norm_num), (by norm_num), (by norm_num), (by norm_num), (by norm_num)⟩) (by decide +kernel)

theorem prime_6700417 : Nat.Prime 6700417 :=
  pratt _ 5 23 [(2, 7), (3, 1), (17449, 1)]
    (by simp only [List.forall_mem_cons, List.not_mem_nil, false_imp_iff, implies_true, and_true]; exact ⟨(by norm_num), (by norm_num), (by norm_num)⟩) (by decide +kernel)

theorem prime_8463023 : Nat.Prime 8463023 :=
  pratt _ 5 24 [(2, 1), (113, 1), (37447, 1)]
    (by simp only [List.forall_mem_cons, List.not_mem_nil, false_imp_iff, implies_true, and_true]; exact ⟨(by norm_num), (by norm_num), (by norm_num)⟩) (by decide +kernel)

theorem prime_9350987 : Nat.Prime 9350987 :=
  pratt _ 2 24 [(2, 1), (17, 1), (229, 1), (1201, 1)]
    (by simp only [List.forall_mem_cons, List.not_mem_nil, false_imp_iff, implies_true, and_true]; exact ⟨(by norm_num), (by norm_num), (by norm_num), (by norm_num)⟩) (by decide +kernel)

theorem prime_9863677 : Nat.Prime 9863677 :=
  pratt _ 5 24 [(2, 2), (3, 2), (311, 1), (881, 1)]
    (by simp only [List.forall_mem_cons, List.not_mem_nil, false_imp_iff, implies_true, and_true]; exact ⟨(by norm_num), (by norm_num), (by norm_num), (by norm_num)⟩) (by decide +kernel)

theorem prime_105957871 : Nat.Prime 105957871 :=
  pratt _ 3 27 [(2, 1), (3, 1), (5, 1), (19, 1), (211, 1), (881, 1)]
    (by simp only [List.forall_mem_cons, List.not_mem_nil, false_imp_iff, implies_true, and_true]; exact ⟨(by norm_num), (by norm_num), (by norm_num), (by norm_num), (by norm_num), (by norm_num)⟩) (by decide +kernel)

theorem prime_154950581 : Nat.Prime 154950581 :=
  pratt _ 2 28 [(2, 2), (5, 1), (17, 1), (455737, 1)]
    (by simp only [List.forall_mem_cons, List.not_mem_nil, false_imp_iff, implies_true, and_true]; exact ⟨(by norm_num), (by norm_num), (by norm_num), (by norm_num)⟩) (by decide +kernel)

theorem prime_187019741 : Nat.Prime 187019741 :=
  pratt _ 2 28 [(2, 2), (5, 1), (9350987, 1)]
    (by simp only [List.forall_mem_cons, List.not_mem_nil, false_imp_iff, implies_true, and_true]; exact ⟨(by norm_num), (by norm_num), prime_9350987⟩) (by decide +kernel)

theorem prime_191039911 : Nat.Prime 191039911 :=
  pratt _ 3 28 [(2, 1), (3, 1), (5, 1), (41, 1), (155317, 1)]
    (by simp only [List.forall_mem_cons, List.not_mem_nil, false_imp_iff, implies_true, and_true]; exact ⟨(by norm_num), (by norm_num), (by norm_num), (by norm_num), (by norm_num)⟩) (by decide +kernel)

theorem prime_204061199 : Nat.Prime 204061199 :=
  pratt _ 11 28 [(2, 1), (11, 1), (23, 1), (107, 1), (3769, 1)]
    (by simp only [List.forall_mem_cons, List.not_mem_nil, false_imp_iff, implies_true, and_true]; exact ⟨(by norm_num), (by norm_num), (by norm_num), (by norm_num), (by norm_num)⟩) (by decide +kernel)

theorem prime_246608641 : Nat.Prime 246608641 :=
  pratt _ 19 28 [(2, 8), (3, 2), (5, 1), (21407, 1)]
    (by simp only [List.forall_mem_cons, List.not_mem_nil, false_imp_iff, implies_true, and_true]; exact ⟨(by norm_num), (by norm_num), (by norm_num), (by norm_num)⟩) (by decide +kernel)

theorem prime_272109983 : Nat.Prime 272109983 :=
  pratt _ 5 29 [(2, 1), (19, 1), (73, 1), (233, 1), (421, 1)]
    (by simp only [List.forall_mem_cons, List.not_mem_nil, false_imp_iff, implies_true, and_true]; exact ⟨(by norm_num), (by norm_num), (by norm_num), (by norm_num), (by norm_num)⟩) (by decide +kernel)

theorem prime_290064143 : Nat.Prime 290064143 :=
  pratt _ 5 29 [(2, 1), (79, 1), (491, 1), (3739, 1)]
    (by simp only [List.forall_mem_cons, List.not_mem_nil, false_imp_iff, implies_true, and_true]; exact ⟨(by norm_num), (by norm_num), (by norm_num), (by norm_num)⟩) (by decide +kernel)

theorem prime_311245691 : Nat.Prime 311245691 :=
  pratt _ 2 29 [(2, 1), (5, 1), (7, 1), (17, 1), (29, 2), (311, 1)]
    (by simp only [List.forall_mem_cons, List.not_mem_nil, false_imp_iff, implies_true, and_true]; exact ⟨(by norm_num), (by norm_num), (by norm_num), (by norm_num), (by norm_num), (by norm_num)⟩) (by decide +kernel)

theorem prime_513928823 : Nat.Prime 513928823 :=
  pratt _ 5 29 [(2, 1), (11, 1), (59, 1), (599, 1), (661, 1)]
    (by simp only [List.forall_mem_cons, List.not_mem_nil, false_imp_iff, implies_true, and_true]; exact ⟨(by norm_num), (by norm_num), (by norm_num), (by norm_num), (by norm_num)⟩) (by decide +kernel)

theorem prime_532247449 : Nat.Prime 532247449 :=
  pratt _ 7 29 [(2, 3), (3, 1), (61, 1), (363557, 1)]
    (by simp only [List.forall_mem_cons, List.not_mem_nil, false_imp_iff, implies_true, and_true]; exact ⟨(by norm_num), (by norm_num), (by norm_num), (by norm_num)⟩) (by decide +kernel)

theorem prime_622491383 : Nat.Prime 622491383 :=
  pratt _ 5 30 [(2, 1), (311245691, 1)]
    (by simp only [List.forall_mem_cons, List.not_mem_nil, false_imp_iff, implies_true, and_true]; exact ⟨(by norm_num), prime_311245691⟩) (by decide +kernel)

theorem prime_2862218959 : Nat.Prime 2862218959 :=
  pratt _ 3 32 [(2, 1), (3, 1), (157, 1), (1373, 1), (2213, 1)]
    (by simp only [List.forall_mem_cons, List.not_mem_nil, false_imp_iff, implies_true, and_true]; exact ⟨(by norm_num), (by norm_num), (by norm_num), (by norm_num), (by norm_num)⟩) (by decide +kernel)

theorem prime_34282281433 : Nat.Prime 34282281433 :=
  pratt _ 17 35 [(2, 3), (3, 1), (7, 1), (204061199, 1)]
    (by simp only [List.forall_mem_cons, List.not_mem_nil, false_imp_iff, implies_true, and_true]; exact ⟨(by norm_num), (by norm_num), (by norm_num), prime_204061199⟩) (by decide +kernel)

theorem prime_53448597593 : Nat.Prime 53448597593 :=
  pratt _ 3 36 [(2, 3), (13, 1), (513928823, 1)]
    (by simp only [List.forall_mem_cons, List.not_mem_nil, false_imp_iff, implies_true, and_true]; exact ⟨(by norm_num), (by norm_num), prime_513928823⟩) (by decide +kernel)

theorem prime_66417393611 : Nat.Prime 66417393611 :=
  pratt _ 6 36 [(2, 1), (5, 1), (53, 1), (173, 1), (197, 1), (3677, 1)]
    (by simp only [List.forall_mem_cons, List.not_mem_nil, false_imp_iff, implies_true, and_true]; exact ⟨(by norm_num), (by norm_num), (by norm_num), (by norm_num), (by norm_num), (by norm_num)⟩) (by decide +kernel)

theorem prime_228572385721 : Nat.Prime 228572385721 :=
  pratt _ 23 38 [(2, 3), (3, 1), (5, 1), (7, 1), (272109983, 1)]
    (by simp only [List.forall_mem_cons, List.not_mem_nil, false_imp_iff, implies_true, and_true]; exact ⟨(by norm_num), (by norm_num), (by norm_num), (by norm_num), prime_272109983⟩) (by decide +kernel)

theorem prime_807145746439 : Nat.Prime 807145746439 :=
  pratt _ 3 40 [(2, 1), (3, 1), (47, 1), (2862218959, 1)]
    (by simp only [List.forall_mem_cons, List.not_mem_nil, false_imp_iff, implies_true, and_true]; exact ⟨(by norm_num), (by norm_num), (by norm_num), prime_2862218959⟩) (by decide +kernel)

theorem prime_1002328039319 : Nat.Prime 1002328039319 :=
  pratt _ 19 40 [(2, 1), (126241, 1), (3969899, 1)]
    (by simp only [List.forall_mem_cons, List.not_mem_nil, false_imp_iff, implies_true, and_true]; exact ⟨(by norm_num), (by norm_num), prime_3969899⟩) (by decide +kernel)

theorem prime_1436833069313 : Nat.Prime 1436833069313 :=
  pratt _ 3 41 [(2, 8), (16979, 1), (330563, 1)]
    (by simp only [List.forall_mem_cons, List.not_mem_nil, false_imp_iff, implies_true, and_true]; exact ⟨(by norm_num), (by norm_num), (by norm_num)⟩) (by decide +kernel)

theorem prime_11290956913871 : Nat.Prime 11290956913871 :=
  pratt _ 13 44 [(2, 1), (5, 1), (17, 1), (66417393611, 1)]
    (by simp only [List.forall_mem_cons, List.not_mem_nil, false_imp_iff, implies_true, and_true]; exact ⟨(by norm_num), (by norm_num), (by norm_num), prime_66417393611⟩) (by decide +kernel)

theorem prime_23314383343543 : Nat.Prime 23314383343543 :=
  pratt _ 3 45 [(2, 1), (3, 1), (17, 1), (228572385721, 1)]
    (by simp only [List.forall_mem_cons, List.not_mem_nil, false_imp_iff, implies_true, and_true]; exact ⟨(by norm_num), (by norm_num), (by norm_num), prime_228572385721⟩) (by decide +kernel)

theorem prime_37344768852931 : Nat.Prime 37344768852931 :=
  pratt _ 3 46 [(2, 1), (3, 1), (5, 1), (7, 1), (11, 2), (149, 1), (9863677, 1)]
    (by simp only [List.forall_mem_cons, List.not_mem_nil, false_imp_iff, implies_true, and_true]; exact ⟨(by norm_num), (by norm_num), (by norm_num), (by norm_num), (by norm_num), (by norm_num), prime_9863677⟩) (by decide +kernel)

theorem prime_44925942675193 : Nat.Prime 44925942675193 :=
  pratt _ 5 46 [(2, 3), (3, 1), (3517, 1), (532247449, 1)]
    (by simp only [List.forall_mem_cons, List.not_mem_nil, false_imp_iff, implies_true, and_true]; exact ⟨(by norm_num), (by norm_num), (by norm_num), prime_532247449⟩) (by decide +kernel)

theorem prime_46076956964474543 : Nat.Prime 46076956964474543 :=
  pratt _ 5 56 [(2, 1), (23, 1), (18169, 1), (78283, 1), (704251, 1)]
    (by simp only [List.forall_mem_cons, List.not_mem_nil, false_imp_iff, implies_true, and_true]; exact ⟨(by norm_num), (by norm_num), (by norm_num), (by norm_num), (by norm_num)⟩) (by decide +kernel)

theorem prime_55942463741690639 : Nat.Prime 55942463741690639 :=
  pratt _ 7 56 [(2, 1), (7, 1), (107, 1), (37344768852931, 1)]
    (by simp only [List.forall_mem_cons, List.not_mem_nil, false_imp_iff, implies_true, and_true]; exact ⟨(by norm_num), (by norm_num), (by norm_num), prime_37344768852931⟩) (by decide +kernel)

theorem prime_208150935158385979 : Nat.Prime 208150935158385979 :=
  pratt _ 2 58 [(2, 1), (3, 1), (11, 1), (43, 1), (127, 1), (3023, 1), (191039911, 1)]
    (by simp only [List.forall_mem_cons, List.not_mem_nil, false_imp_iff, implies_true, and_true]; exact ⟨(by norm_num), (by norm_num), (by norm_num), (by norm_num), (by norm_num), (by norm_num), prime_191039911⟩) (by decide +kernel)

theorem prime_1357291859799823621 : Nat.Prime 1357291859799823621 :=
  pratt _ 2 61 [(2, 2), (3, 1), (5, 1), (67, 1), (6317, 1), (53448597593, 1)]
    (by simp only [List.forall_mem_cons, List.not_mem_nil, false_imp_iff, implies_true, and_true]; exact ⟨(by norm_num), (by norm_num), (by norm_num), (by norm_num), (by norm_num), prime_53448597593⟩) (by decide +kernel)

theorem prime_426632512014427833817 : Nat.Prime 426632512014427833817 :=
  pratt _ 11 69 [(2, 3), (3, 1), (13, 1), (89, 1), (659, 1), (23314383343543, 1)]
    (by simp only [List.forall_mem_cons, List.not_mem_nil, false_imp_iff, implies_true, and_true]; exact ⟨(by norm_num), (by norm_num), (by norm_num), (by norm_num), (by norm_num), prime_23314383343543⟩) (by decide +kernel)

theorem prime_529709925838459440593 : Nat.Prime 529709925838459440593 :=
  pratt _ 3 69 [(2, 4), (7, 1), (181, 1), (105957871, 1), (246608641, 1)]
    (by simp only [List.forall_mem_cons, List.not_mem_nil, false_imp_iff, implies_true, and_true]; exact ⟨(by norm_num), (by norm_num), (by norm_num), prime_105957871, prime_246608641⟩) (by decide +kernel)

theorem prime_35581458644053887931343 : Nat.Prime 35581458644053887931343 :=
  pratt _ 5 75 [(2, 1), (17, 1), (41, 1), (568151, 1), (44925942675193, 1)]
    (by simp only [List.forall_mem_cons, List.not_mem_nil, false_imp_iff, implies_true, and_true]; exact ⟨(by norm_num), (by norm_num), (by norm_num), (by norm_num), prime_44925942675193⟩) (by decide +kernel)

theorem prime_120699720968197491947347 : Nat.Prime 120699720968197491947347 :=
  pratt _ 3 77 [(2, 1), (3, 1), (13, 1), (34429, 1), (154950581, 1), (290064143, 1)]
    (by simp only [List.forall_mem_cons, List.not_mem_nil, false_imp_iff, implies_true, and_true]; exact ⟨(by norm_num), (by norm_num), (by norm_num), (by norm_num), prime_154950581, prime_290064143⟩) (by decide +kernel)

theorem prime_1124679999981664229965379347 : Nat.Prime 1124679999981664229965379347 :=
  pratt _ 2 90 [(2, 1), (3, 1), (1553, 1), (120699720968197491947347, 1)]
    (by simp only [List.forall_mem_cons, List.not_mem_nil, false_imp_iff, implies_true, and_true]; exact ⟨(by norm_num), (by norm_num), (by norm_num), prime_120699720968197491947347⟩) (by decide +kernel)

theorem prime_1495199339761412565498084319 : Nat.Prime 1495199339761412565498084319 :=
  pratt _ 6 91 [(2, 1), (3, 3), (64901, 1), (426632512014427833817, 1)]
    (by simp only [List.forall_mem_cons, List.not_mem_nil, false_imp_iff, implies_true, and_true]; exact ⟨(by norm_num), (by norm_num), (by norm_num), prime_426632512014427833817⟩) (by decide +kernel)

theorem prime_2624747550333869278416773953 : Nat.Prime 2624747550333869278416773953 :=
  pratt _ 7 92 [(2, 6), (3, 2), (1297, 1), (16879, 1), (208150935158385979, 1)]
    (by simp only [List.forall_mem_cons, List.not_mem_nil, false_imp_iff, implies_true, and_true]; exact ⟨(by norm_num), (by norm_num), (by norm_num), (by norm_num), prime_208150935158385979⟩) (by decide +kernel)

theorem prime_17942392077136950785977011829 : Nat.Prime 17942392077136950785977011829 :=
  pratt _ 6 94 [(2, 2), (3, 1), (1495199339761412565498084319, 1)]
    (by simp only [List.forall_mem_cons, List.not_mem_nil, false_imp_iff, implies_true, and_true]; exact ⟨(by norm_num), (by norm_num), prime_1495199339761412565498084319⟩) (by decide +kernel)

theorem prime_23964610537191310276190549303 : Nat.Prime 23964610537191310276190549303 :=
  pratt _ 5 95 [(2, 1), (336757, 1), (35581458644053887931343, 1)]
    (by simp only [List.forall_mem_cons, List.not_mem_nil, false_imp_iff, implies_true, and_true]; exact ⟨(by norm_num), (by norm_num), prime_35581458644053887931343⟩) (by decide +kernel)

theorem prime_862725979338887169942859774909 : Nat.Prime 862725979338887169942859774909 :=
  pratt _ 2 100 [(2, 2), (3, 2), (23964610537191310276190549303, 1)]
    (by simp only [List.forall_mem_cons, List.not_mem_nil, false_imp_iff, implies_true, and_true]; exact ⟨(by norm_num), (by norm_num), prime_23964610537191310276190549303⟩) (by decide +kernel)

theorem prime_20705423504133292078628634597817 : Nat.Prime 20705423504133292078628634597817 :=
  pratt _ 5 105 [(2, 3), (3, 1), (862725979338887169942859774909, 1)]
    (by simp only [List.forall_mem_cons, List.not_mem_nil, false_imp_iff, implies_true, and_true]; exact ⟨(by norm_num), (by norm_num), prime_862725979338887169942859774909⟩) (by decide +kernel)

theorem prime_413244619895455989650825325680172591660047 : Nat.Prime 413244619895455989650825325680172591660047 :=
  pratt _ 5 139 [(2, 1), (17, 1), (97, 1), (6051631, 1), (20705423504133292078628634597817, 1)]
    (by simp only [List.forall_mem_cons, List.not_mem_nil, false_imp_iff, implies_true, and_true]; exact ⟨(by norm_num), (by norm_num), (by norm_num), prime_6051631, prime_20705423504133292078628634597817⟩) (by decide +kernel)

theorem prime_12397338596863679689524759770405177749801411 : Nat.Prime 12397338596863679689524759770405177749801411 :=
  pratt _ 2 144 [(2, 1), (3, 1), (5, 1), (413244619895455989650825325680172591660047, 1)]
    (by simp only [List.forall_mem_cons, List.not_mem_nil, false_imp_iff, implies_true, and_true]; exact ⟨(by norm_num), (by norm_num), (by norm_num), prime_413244619895455989650825325680172591660047⟩) (by decide +kernel)

theorem prime_774023187263532362759620327192479577272145303 : Nat.Prime 774023187263532362759620327192479577272145303 :=
  pratt _ 3 150 [(2, 1), (3, 2), (2411, 1), (34282281433, 1), (11290956913871, 1), (46076956964474543, 1)]
    (by simp only [List.forall_mem_cons, List.not_mem_nil, false_imp_iff, implies_true, and_true]; exact ⟨(by norm_num), (by norm_num), (by norm_num), prime_34282281433, prime_11290956913871, prime_46076956964474543⟩) (by decide +kernel)

theorem prime_835945042244614951780389953367877943453916927241 : Nat.Prime 835945042244614951780389953367877943453916927241 :=
  pratt _ 11 160 [(2, 3), (3, 3), (5, 1), (774023187263532362759620327192479577272145303, 1)]
    (by simp only [List.forall_mem_cons, List.not_mem_nil, false_imp_iff, implies_true, and_true]; exact ⟨(by norm_num), (by norm_num), (by norm_num), prime_774023187263532362759620327192479577272145303⟩) (by decide +kernel)

theorem prime_1059392654943455286185473617842338478315215895509773412096307 : Nat.Prime 1059392654943455286185473617842338478315215895509773412096307 :=
  pratt _ 2 200 [(2, 1), (251, 1), (248431, 1), (8463023, 1), (55942463741690639, 1), (17942392077136950785977011829, 1)]
    (by simp only [List.forall_mem_cons, List.not_mem_nil, false_imp_iff, implies_true, and_true]; exact ⟨(by norm_num), (by norm_num), (by norm_num), prime_8463023, prime_55942463741690639, prime_17942392077136950785977011829⟩) (by decide +kernel)

theorem prime_n256 : Nat.Prime 0xffffffff00000000ffffffffffffffffbce6faada7179e84f3b9cac2fc632551 :=
  pratt _ 7 256 [(2, 4), (3, 1), (71, 1), (131, 1), (373, 1), (3407, 1), (17449, 1), (38189, 1), (187019741, 1), (622491383, 1), (1002328039319, 1), (2624747550333869278416773953, 1)]
    (by simp only [List.forall_mem_cons, List.not_mem_nil, false_imp_iff, implies_true, and_true]; exact ⟨(by norm_num), (by norm_num), (by norm_num), (by norm_num), (by norm_num), (by norm_num), (by norm_num), (by norm_num), prime_187019741, prime_622491383, prime_1002328039319, prime_2624747550333869278416773953⟩) (by decide +kernel)

theorem prime_p256 : Nat.Prime 0xffffffff00000001000000000000000000000000ffffffffffffffffffffffff :=
  pratt _ 6 256 [(2, 1), (3, 1), (5, 2), (17, 1), (257, 1), (641, 1), (1531, 1), (65537, 1), (490463, 1), (6700417, 1), (835945042244614951780389953367877943453916927241, 1)]
    (by simp only [List.forall_mem_cons, List.not_mem_nil, false_imp_iff, implies_true, and_true]; exact ⟨(by norm_num), (by norm_num), (by norm_num), (by norm_num), (by norm_num), (by norm_num), (by norm_num), (by norm_num), (by norm_num), prime_6700417, prime_835945042244614951780389953367877943453916927241⟩) (by decide +kernel)

theorem prime_3055465788140352002733946906144561090641249606160407884365391979704929268480326390471 : Nat.Prime 3055465788140352002733946906144561090641249606160407884365391979704929268480326390471 :=
  pratt _ 12 281 [(2, 1), (3, 1), (5, 1), (151, 1), (347, 1), (1276987, 1), (1436833069313, 1), (1059392654943455286185473617842338478315215895509773412096307, 1)]
    (by simp only [List.forall_mem_cons, List.not_mem_nil, false_imp_iff, implies_true, and_true]; exact ⟨(by norm_num), (by norm_num), (by norm_num), (by norm_num), (by norm_num), prime_1276987, prime_1436833069313, prime_1059392654943455286185473617842338478315215895509773412096307⟩) (by decide +kernel)

theorem prime_19173790298027098165721053155794528970226934547887232785722672956982046098136719667167519737147526097 : Nat.Prime 19173790298027098165721053155794528970226934547887232785722672956982046098136719667167519737147526097 :=
  pratt _ 3 334 [(2, 4), (11, 3), (8389, 1), (38557, 1), (312289, 1), (1357291859799823621, 1), (529709925838459440593, 1), (12397338596863679689524759770405177749801411, 1)]
    (by simp only [List.forall_mem_cons, List.not_mem_nil, false_imp_iff, implies_true, and_true]; exact ⟨(by norm_num), (by norm_num), (by norm_num), (by norm_num), (by norm_num), prime_1357291859799823621, prime_529709925838459440593, prime_12397338596863679689524759770405177749801411⟩) (by decide +kernel)

theorem prime_n384 : Nat.Prime 0xffffffffffffffffffffffffffffffffffffffffffffffffc7634d81f4372ddf581a0db248b0a77aecec196accc52973 :=
  pratt _ 2 384 [(2, 1), (3, 2), (7, 2), (13, 1), (1124679999981664229965379347, 1), (3055465788140352002733946906144561090641249606160407884365391979704929268480326390471, 1)]
    (by simp only [List.forall_mem_cons, List.not_mem_nil, false_imp_iff, implies_true, and_true]; exact ⟨(by norm_num), (by norm_num), (by norm_num), (by norm_num), prime_1124679999981664229965379347, prime_3055465788140352002733946906144561090641249606160407884365391979704929268480326390471⟩) (by decide +kernel)

theorem prime_p384 : Nat.Prime 0xfffffffffffffffffffffffffffffffffffffffffffffffffffffffffffffffeffffffff0000000000000000ffffffff :=
  pratt _ 19 384 [(2, 1), (19, 1), (67, 1), (807145746439, 1), (19173790298027098165721053155794528970226934547887232785722672956982046098136719667167519737147526097, 1)]
    (by simp only [List.forall_mem_cons, List.not_mem_nil, false_imp_iff, implies_true, and_true]; exact ⟨(by norm_num), (by norm_num), (by norm_num), prime_807145746439, prime_19173790298027098165721053155794528970226934547887232785722672956982046098136719667167519737147526097⟩) (by decide +kernel)

end Verif.Pratt
