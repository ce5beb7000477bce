import Verif.Lemmas.Primes

/-! Primality of the field size and of the group order of secp256k1, by certificates. -/

namespace Verif.Primes

theorem prime_13331831 : Nat.Prime 13331831 := by
  refine pratt _ 13 [(2, 1), (5, 1), (971, 1), (1373, 1)] 24 (by decide +kernel) ?_
  simp only [List.forall_mem_cons, List.not_mem_nil, false_imp_iff, implies_true, and_true]
  exact ⟨by norm_num, by norm_num, by norm_num, by norm_num⟩

theorem prime_173378833005251801 : Nat.Prime 173378833005251801 := by
  refine pratt _ 6 [(2, 3), (5, 2), (2621, 1), (24809, 1), (13331831, 1)] 58 (by decide +kernel) ?_
  simp only [List.forall_mem_cons, List.not_mem_nil, false_imp_iff, implies_true, and_true]
  exact ⟨by norm_num, by norm_num, by norm_num, by norm_num, prime_13331831⟩

theorem prime_22149492674086928081353 : Nat.Prime 22149492674086928081353 := by
  refine pratt _ 5 [(2, 3), (3, 1), (5323, 1), (173378833005251801, 1)] 75 (by decide +kernel) ?_
  simp only [List.forall_mem_cons, List.not_mem_nil, false_imp_iff, implies_true, and_true]
  exact ⟨by norm_num, by norm_num, by norm_num, prime_173378833005251801⟩

theorem prime_132896956044521568488119 : Nat.Prime 132896956044521568488119 := by
  refine pratt _ 6 [(2, 1), (3, 1), (22149492674086928081353, 1)] 77 (by decide +kernel) ?_
  simp only [List.forall_mem_cons, List.not_mem_nil, false_imp_iff, implies_true, and_true]
  exact ⟨by norm_num, by norm_num, prime_22149492674086928081353⟩

theorem prime_1206781 : Nat.Prime 1206781 := by
  refine pratt _ 10 [(2, 2), (3, 1), (5, 1), (20113, 1)] 21 (by decide +kernel) ?_
  simp only [List.forall_mem_cons, List.not_mem_nil, false_imp_iff, implies_true, and_true]
  exact ⟨by norm_num, by norm_num, by norm_num, by norm_num⟩

theorem prime_7240687 : Nat.Prime 7240687 := by
  refine pratt _ 3 [(2, 1), (3, 1), (1206781, 1)] 23 (by decide +kernel) ?_
  simp only [List.forall_mem_cons, List.not_mem_nil, false_imp_iff, implies_true, and_true]
  exact ⟨by norm_num, by norm_num, prime_1206781⟩

theorem prime_107590001 : Nat.Prime 107590001 := by
  refine pratt _ 3 [(2, 4), (5, 4), (7, 1), (29, 1), (53, 1)] 27 (by decide +kernel) ?_
  simp only [List.forall_mem_cons, List.not_mem_nil, false_imp_iff, implies_true, and_true]
  exact ⟨by norm_num, by norm_num, by norm_num, by norm_num, by norm_num⟩

theorem prime_255515944373312847190720520512484175977 : Nat.Prime 255515944373312847190720520512484175977 := by
  refine pratt _ 3 [(2, 3), (7, 2), (11, 1), (1627, 1), (2657, 1), (4423, 1), (41201, 1), (96557, 1), (7240687, 1), (107590001, 1)] 128 (by decide +kernel) ?_
  simp only [List.forall_mem_cons, List.not_mem_nil, false_imp_iff, implies_true, and_true]
  exact ⟨by norm_num, by norm_num, by norm_num, by norm_num, by norm_num, by norm_num, by norm_num, by norm_num, prime_7240687, prime_107590001⟩

theorem prime_205115282021455665897114700593932402728804164701536103180137503955397371 : Nat.Prime 205115282021455665897114700593932402728804164701536103180137503955397371 := by
  refine pratt _ 10 [(2, 1), (3, 1), (5, 1), (29, 2), (31, 1), (7723, 1), (132896956044521568488119, 1), (255515944373312847190720520512484175977, 1)] 237 (by decide +kernel) ?_
  simp only [List.forall_mem_cons, List.not_mem_nil, false_imp_iff, implies_true, and_true]
  exact ⟨by norm_num, by norm_num, by norm_num, by norm_num, by norm_num, by norm_num, prime_132896956044521568488119, prime_255515944373312847190720520512484175977⟩

theorem prime_115792089237316195423570985008687907853269984665640564039457584007908834671663 : Nat.Prime 115792089237316195423570985008687907853269984665640564039457584007908834671663 := by
  refine pratt _ 3 [(2, 1), (3, 1), (7, 1), (13441, 1), (205115282021455665897114700593932402728804164701536103180137503955397371, 1)] 256 (by decide +kernel) ?_
  simp only [List.forall_mem_cons, List.not_mem_nil, false_imp_iff, implies_true, and_true]
  exact ⟨by norm_num, by norm_num, by norm_num, by norm_num, prime_205115282021455665897114700593932402728804164701536103180137503955397371⟩

theorem prime_4681609 : Nat.Prime 4681609 := by
  refine pratt _ 23 [(2, 3), (3, 1), (97, 1), (2011, 1)] 23 (by decide +kernel) ?_
  simp only [List.forall_mem_cons, List.not_mem_nil, false_imp_iff, implies_true, and_true]
  exact ⟨by norm_num, by norm_num, by norm_num, by norm_num⟩

theorem prime_107361793816595537 : Nat.Prime 107361793816595537 := by
  refine pratt _ 3 [(2, 4), (16699, 1), (85831, 1), (4681609, 1)] 57 (by decide +kernel) ?_
  simp only [List.forall_mem_cons, List.not_mem_nil, false_imp_iff, implies_true, and_true]
  exact ⟨by norm_num, by norm_num, by norm_num, prime_4681609⟩

theorem prime_120233 : Nat.Prime 120233 := by
  refine pratt _ 3 [(2, 3), (7, 1), (19, 1), (113, 1)] 17 (by decide +kernel) ?_
  simp only [List.forall_mem_cons, List.not_mem_nil, false_imp_iff, implies_true, and_true]
  exact ⟨by norm_num, by norm_num, by norm_num, by norm_num⟩

theorem prime_44706919 : Nat.Prime 44706919 := by
  refine pratt _ 6 [(2, 1), (3, 1), (797, 1), (9349, 1)] 26 (by decide +kernel) ?_
  simp only [List.forall_mem_cons, List.not_mem_nil, false_imp_iff, implies_true, and_true]
  exact ⟨by norm_num, by norm_num, by norm_num, by norm_num⟩

theorem prime_174723607534414371449 : Nat.Prime 174723607534414371449 := by
  refine pratt _ 3 [(2, 3), (17, 1), (59, 1), (4051, 1), (120233, 1), (44706919, 1)] 68 (by decide +kernel) ?_
  simp only [List.forall_mem_cons, List.not_mem_nil, false_imp_iff, implies_true, and_true]
  exact ⟨by norm_num, by norm_num, by norm_num, by norm_num, prime_120233, prime_44706919⟩

theorem prime_305873 : Nat.Prime 305873 := by
  refine pratt _ 3 [(2, 4), (7, 1), (2731, 1)] 19 (by decide +kernel) ?_
  simp only [List.forall_mem_cons, List.not_mem_nil, false_imp_iff, implies_true, and_true]
  exact ⟨by norm_num, by norm_num, by norm_num⟩

theorem prime_545358713 : Nat.Prime 545358713 := by
  refine pratt _ 5 [(2, 3), (41, 1), (59, 1), (28181, 1)] 30 (by decide +kernel) ?_
  simp only [List.forall_mem_cons, List.not_mem_nil, false_imp_iff, implies_true, and_true]
  exact ⟨by norm_num, by norm_num, by norm_num, by norm_num⟩

theorem prime_1627771 : Nat.Prime 1627771 := by
  refine pratt _ 3 [(2, 1), (3, 1), (5, 1), (29, 1), (1871, 1)] 21 (by decide +kernel) ?_
  simp only [List.forall_mem_cons, List.not_mem_nil, false_imp_iff, implies_true, and_true]
  exact ⟨by norm_num, by norm_num, by norm_num, by norm_num, by norm_num⟩

theorem prime_297159362677 : Nat.Prime 297159362677 := by
  refine pratt _ 2 [(2, 2), (3, 2), (11, 1), (461, 1), (1627771, 1)] 39 (by decide +kernel) ?_
  simp only [List.forall_mem_cons, List.not_mem_nil, false_imp_iff, implies_true, and_true]
  exact ⟨by norm_num, by norm_num, by norm_num, by norm_num, prime_1627771⟩

theorem prime_29047611873442575647497758179 : Nat.Prime 29047611873442575647497758179 := by
  refine pratt _ 2 [(2, 1), (293, 1), (305873, 1), (545358713, 1), (297159362677, 1)] 95 (by decide +kernel) ?_
  simp only [List.forall_mem_cons, List.not_mem_nil, false_imp_iff, implies_true, and_true]
  exact ⟨by norm_num, by norm_num, prime_305873, prime_545358713, prime_297159362677⟩

theorem prime_341948486974166000522343609283189 : Nat.Prime 341948486974166000522343609283189 := by
  refine pratt _ 2 [(2, 2), (3, 3), (109, 1), (29047611873442575647497758179, 1)] 109 (by decide +kernel) ?_
  simp only [List.forall_mem_cons, List.not_mem_nil, false_imp_iff, implies_true, and_true]
  exact ⟨by norm_num, by norm_num, by norm_num, prime_29047611873442575647497758179⟩

theorem prime_115792089237316195423570985008687907852837564279074904382605163141518161494337 : Nat.Prime 115792089237316195423570985008687907852837564279074904382605163141518161494337 := by
  refine pratt _ 7 [(2, 6), (3, 1), (149, 1), (631, 1), (107361793816595537, 1), (174723607534414371449, 1), (341948486974166000522343609283189, 1)] 256 (by decide +kernel) ?_
  simp only [List.forall_mem_cons, List.not_mem_nil, false_imp_iff, implies_true, and_true]
  exact ⟨by norm_num, by norm_num, by norm_num, by norm_num, prime_107361793816595537, prime_174723607534414371449, prime_341948486974166000522343609283189⟩

end Verif.Primes
