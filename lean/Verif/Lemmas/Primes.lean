import Mathlib.NumberTheory.LucasPrimality
import Mathlib.Tactic.NormNum.Prime
import Mathlib.Tactic.Ring

/-! Primality of the field size and of the group order of Ed25519, by certificates: for every prime a primitive root and the
factorisation of its predecessor. -/

namespace Verif.Primes

/-- `a ^ e % p` for `e < 2 ^ fuel`. -/
def powMod (p : ℕ) : ℕ → ℕ → ℕ → ℕ
  | 0, _, _ => 1 % p
  | k + 1, a, e => if e % 2 = 1 then powMod p k (a * a % p) (e / 2) * a % p else powMod p k (a * a % p) (e / 2)

theorem powMod_eq (p k a e : ℕ) (he : e < 2 ^ k) : powMod p k a e = a ^ e % p := by
  induction k generalizing a e with
  | zero => have : e = 0 := by simpa using he
            subst this; simp [powMod]
  | succ k ih =>
    have h2 : e / 2 < 2 ^ k := by rw [pow_succ] at he; omega
    have hs : (a * a) ^ (e / 2) = a ^ (2 * (e / 2)) := by rw [pow_mul, sq]
    simp only [powMod]
    rw [ih _ _ h2, Nat.pow_mod (a * a % p), Nat.mod_mod, ← Nat.pow_mod, hs]
    split
    · rename_i h
      have : e = 2 * (e / 2) + 1 := by omega
      conv_rhs => rw [this, pow_succ, Nat.mul_mod]
      rw [Nat.mul_mod, Nat.mod_mod]
    · have : e = 2 * (e / 2) := by omega
      conv_rhs => rw [this]

theorem powMod_zmod (p k a e : ℕ) (he : e < 2 ^ k) : ((powMod p k a e : ℕ) : ZMod p) = (a : ZMod p) ^ e := by
  rw [powMod_eq p k a e he, ZMod.natCast_mod, Nat.cast_pow]

theorem pratt (p a : ℕ) (fs : List (ℕ × ℕ)) (k : ℕ) (hp : 1 < p ∧ p < 2 ^ k ∧ (fs.map fun f => f.1 ^ f.2).prod = p - 1 ∧
      powMod p k a (p - 1) = 1 ∧ (fs.all fun f => powMod p k a ((p - 1) / f.1) != 1) = true)
    (hf : ∀ f ∈ fs, f.1.Prime) : p.Prime := by
  obtain ⟨h1, hk, hprod, hpow, hne⟩ := hp
  refine lucas_primality p (a : ZMod p) ?_ ?_
  · have := powMod_zmod p k a (p - 1) (by omega)
    rw [hpow] at this
    simpa using this.symm
  · intro q hq hd
    rw [← hprod] at hd
    obtain ⟨m, hm, hqm⟩ := (Prime.dvd_prod_iff hq.prime).mp hd
    obtain ⟨f, hfm, rfl⟩ := List.mem_map.mp hm
    have hqf : q = f.1 := (Nat.prime_dvd_prime_iff_eq hq (hf f hfm)).mp (hq.dvd_of_dvd_pow hqm)
    subst hqf
    intro hc
    have hb := List.all_eq_true.mp hne f hfm
    have hlt : (p - 1) / f.1 < 2 ^ k := lt_of_le_of_lt (Nat.div_le_self _ _) (by omega)
    have he := powMod_eq p k a ((p - 1) / f.1) hlt
    have hc' : ((a ^ ((p - 1) / f.1) : ℕ) : ZMod p) = ((1 : ℕ) : ZMod p) := by push_cast; exact hc
    rw [ZMod.natCast_eq_natCast_iff'] at hc'
    rw [hc', Nat.mod_eq_of_lt h1] at he
    simp [he] at hb

theorem prime_132049 : Nat.Prime 132049 := by
  refine pratt _ 26 [(2, 4), (3, 2), (7, 1), (131, 1)] 18 (by decide +kernel) ?_
  simp only [List.forall_mem_cons, List.not_mem_nil, false_imp_iff, implies_true, and_true]
  exact ⟨by norm_num, by norm_num, by norm_num, by norm_num⟩

theorem prime_1923133 : Nat.Prime 1923133 := by
  refine pratt _ 2 [(2, 2), (3, 1), (43, 1), (3727, 1)] 21 (by decide +kernel) ?_
  simp only [List.forall_mem_cons, List.not_mem_nil, false_imp_iff, implies_true, and_true]
  exact ⟨by norm_num, by norm_num, by norm_num, by norm_num⟩

theorem prime_430751 : Nat.Prime 430751 := by
  refine pratt _ 17 [(2, 1), (5, 3), (1723, 1)] 19 (by decide +kernel) ?_
  simp only [List.forall_mem_cons, List.not_mem_nil, false_imp_iff, implies_true, and_true]
  exact ⟨by norm_num, by norm_num, by norm_num⟩

theorem prime_31757755568855353 : Nat.Prime 31757755568855353 := by
  refine pratt _ 10 [(2, 3), (3, 1), (31, 1), (107, 1), (223, 1), (4153, 1), (430751, 1)] 55 (by decide +kernel) ?_
  simp only [List.forall_mem_cons, List.not_mem_nil, false_imp_iff, implies_true, and_true]
  exact ⟨by norm_num, by norm_num, by norm_num, by norm_num, by norm_num, by norm_num, prime_430751⟩

theorem prime_569003 : Nat.Prime 569003 := by
  refine pratt _ 2 [(2, 1), (7, 1), (97, 1), (419, 1)] 20 (by decide +kernel) ?_
  simp only [List.forall_mem_cons, List.not_mem_nil, false_imp_iff, implies_true, and_true]
  exact ⟨by norm_num, by norm_num, by norm_num, by norm_num⟩

theorem prime_2773320623 : Nat.Prime 2773320623 := by
  refine pratt _ 5 [(2, 1), (2437, 1), (569003, 1)] 32 (by decide +kernel) ?_
  simp only [List.forall_mem_cons, List.not_mem_nil, false_imp_iff, implies_true, and_true]
  exact ⟨by norm_num, by norm_num, prime_569003⟩

theorem prime_72106336199 : Nat.Prime 72106336199 := by
  refine pratt _ 7 [(2, 1), (13, 1), (2773320623, 1)] 37 (by decide +kernel) ?_
  simp only [List.forall_mem_cons, List.not_mem_nil, false_imp_iff, implies_true, and_true]
  exact ⟨by norm_num, by norm_num, prime_2773320623⟩

theorem prime_8574133 : Nat.Prime 8574133 := by
  refine pratt _ 2 [(2, 2), (3, 1), (7, 1), (103, 1), (991, 1)] 24 (by decide +kernel) ?_
  simp only [List.forall_mem_cons, List.not_mem_nil, false_imp_iff, implies_true, and_true]
  exact ⟨by norm_num, by norm_num, by norm_num, by norm_num, by norm_num⟩

theorem prime_1919519569386763 : Nat.Prime 1919519569386763 := by
  refine pratt _ 2 [(2, 1), (3, 1), (7, 1), (19, 1), (47, 2), (127, 1), (8574133, 1)] 51 (by decide +kernel) ?_
  simp only [List.forall_mem_cons, List.not_mem_nil, false_imp_iff, implies_true, and_true]
  exact ⟨by norm_num, by norm_num, by norm_num, by norm_num, by norm_num, by norm_num, prime_8574133⟩

theorem prime_75445702479781427272750846543864801 : Nat.Prime 75445702479781427272750846543864801 := by
  refine pratt _ 7 [(2, 5), (3, 2), (5, 2), (75707, 1), (72106336199, 1), (1919519569386763, 1)] 116 (by decide +kernel) ?_
  simp only [List.forall_mem_cons, List.not_mem_nil, false_imp_iff, implies_true, and_true]
  exact ⟨by norm_num, by norm_num, by norm_num, by norm_num, prime_72106336199, prime_1919519569386763⟩

theorem prime_74058212732561358302231226437062788676166966415465897661863160754340907 : Nat.Prime 74058212732561358302231226437062788676166966415465897661863160754340907 := by
  refine pratt _ 2 [(2, 1), (3, 1), (353, 1), (57467, 1), (132049, 1), (1923133, 1), (31757755568855353, 1), (75445702479781427272750846543864801, 1)] 236 (by decide +kernel) ?_
  simp only [List.forall_mem_cons, List.not_mem_nil, false_imp_iff, implies_true, and_true]
  exact ⟨by norm_num, by norm_num, by norm_num, by norm_num, prime_132049, prime_1923133, prime_31757755568855353, prime_75445702479781427272750846543864801⟩

theorem prime_57896044618658097711785492504343953926634992332820282019728792003956564819949 : Nat.Prime 57896044618658097711785492504343953926634992332820282019728792003956564819949 := by
  refine pratt _ 2 [(2, 2), (3, 1), (65147, 1), (74058212732561358302231226437062788676166966415465897661863160754340907, 1)] 255 (by decide +kernel) ?_
  simp only [List.forall_mem_cons, List.not_mem_nil, false_imp_iff, implies_true, and_true]
  exact ⟨by norm_num, by norm_num, by norm_num, prime_74058212732561358302231226437062788676166966415465897661863160754340907⟩

theorem prime_409477 : Nat.Prime 409477 := by
  refine pratt _ 2 [(2, 2), (3, 1), (34123, 1)] 19 (by decide +kernel) ?_
  simp only [List.forall_mem_cons, List.not_mem_nil, false_imp_iff, implies_true, and_true]
  exact ⟨by norm_num, by norm_num, by norm_num⟩

theorem prime_14741173 : Nat.Prime 14741173 := by
  refine pratt _ 2 [(2, 2), (3, 2), (409477, 1)] 24 (by decide +kernel) ?_
  simp only [List.forall_mem_cons, List.not_mem_nil, false_imp_iff, implies_true, and_true]
  exact ⟨by norm_num, by norm_num, prime_409477⟩

theorem prime_58964693 : Nat.Prime 58964693 := by
  refine pratt _ 2 [(2, 2), (14741173, 1)] 26 (by decide +kernel) ?_
  simp only [List.forall_mem_cons, List.not_mem_nil, false_imp_iff, implies_true, and_true]
  exact ⟨by norm_num, prime_14741173⟩

theorem prime_132667 : Nat.Prime 132667 := by
  refine pratt _ 5 [(2, 1), (3, 1), (22111, 1)] 18 (by decide +kernel) ?_
  simp only [List.forall_mem_cons, List.not_mem_nil, false_imp_iff, implies_true, and_true]
  exact ⟨by norm_num, by norm_num, by norm_num⟩

theorem prime_137849 : Nat.Prime 137849 := by
  refine pratt _ 3 [(2, 3), (17231, 1)] 18 (by decide +kernel) ?_
  simp only [List.forall_mem_cons, List.not_mem_nil, false_imp_iff, implies_true, and_true]
  exact ⟨by norm_num, by norm_num⟩

theorem prime_3044861653679985063343 : Nat.Prime 3044861653679985063343 := by
  refine pratt _ 5 [(2, 1), (3, 1), (11, 1), (30703, 1), (82163, 1), (132667, 1), (137849, 1)] 72 (by decide +kernel) ?_
  simp only [List.forall_mem_cons, List.not_mem_nil, false_imp_iff, implies_true, and_true]
  exact ⟨by norm_num, by norm_num, by norm_num, by norm_num, by norm_num, prime_132667, prime_137849⟩

theorem prime_198211423230930754013084525763697 : Nat.Prime 198211423230930754013084525763697 := by
  refine pratt _ 5 [(2, 4), (3, 1), (23, 1), (58964693, 1), (3044861653679985063343, 1)] 108 (by decide +kernel) ?_
  simp only [List.forall_mem_cons, List.not_mem_nil, false_imp_iff, implies_true, and_true]
  exact ⟨by norm_num, by norm_num, by norm_num, prime_58964693, prime_3044861653679985063343⟩

theorem prime_292386187 : Nat.Prime 292386187 := by
  refine pratt _ 2 [(2, 1), (3, 4), (307, 1), (5879, 1)] 29 (by decide +kernel) ?_
  simp only [List.forall_mem_cons, List.not_mem_nil, false_imp_iff, implies_true, and_true]
  exact ⟨by norm_num, by norm_num, by norm_num, by norm_num⟩

theorem prime_213441916511 : Nat.Prime 213441916511 := by
  refine pratt _ 13 [(2, 1), (5, 1), (73, 1), (292386187, 1)] 38 (by decide +kernel) ?_
  simp only [List.forall_mem_cons, List.not_mem_nil, false_imp_iff, implies_true, and_true]
  exact ⟨by norm_num, by norm_num, by norm_num, prime_292386187⟩

theorem prime_531581 : Nat.Prime 531581 := by
  refine pratt _ 2 [(2, 2), (5, 1), (7, 1), (3797, 1)] 20 (by decide +kernel) ?_
  simp only [List.forall_mem_cons, List.not_mem_nil, false_imp_iff, implies_true, and_true]
  exact ⟨by norm_num, by norm_num, by norm_num, by norm_num⟩

theorem prime_1224481 : Nat.Prime 1224481 := by
  refine pratt _ 13 [(2, 5), (3, 1), (5, 1), (2551, 1)] 21 (by decide +kernel) ?_
  simp only [List.forall_mem_cons, List.not_mem_nil, false_imp_iff, implies_true, and_true]
  exact ⟨by norm_num, by norm_num, by norm_num, by norm_num⟩

theorem prime_1257559732178653 : Nat.Prime 1257559732178653 := by
  refine pratt _ 2 [(2, 2), (3, 1), (7, 1), (23, 1), (531581, 1), (1224481, 1)] 51 (by decide +kernel) ?_
  simp only [List.forall_mem_cons, List.not_mem_nil, false_imp_iff, implies_true, and_true]
  exact ⟨by norm_num, by norm_num, by norm_num, by norm_num, prime_531581, prime_1224481⟩

theorem prime_4434155615661930479 : Nat.Prime 4434155615661930479 := by
  refine pratt _ 17 [(2, 1), (41, 1), (43, 1), (1257559732178653, 1)] 62 (by decide +kernel) ?_
  simp only [List.forall_mem_cons, List.not_mem_nil, false_imp_iff, implies_true, and_true]
  exact ⟨by norm_num, by norm_num, by norm_num, prime_1257559732178653⟩

theorem prime_172054593956031949258510691 : Nat.Prime 172054593956031949258510691 := by
  refine pratt _ 2 [(2, 1), (5, 1), (1361, 1), (2851, 1), (4434155615661930479, 1)] 88 (by decide +kernel) ?_
  simp only [List.forall_mem_cons, List.not_mem_nil, false_imp_iff, implies_true, and_true]
  exact ⟨by norm_num, by norm_num, by norm_num, by norm_num, prime_4434155615661930479⟩

theorem prime_19757330305831588566944191468367130476339 : Nat.Prime 19757330305831588566944191468367130476339 := by
  refine pratt _ 2 [(2, 1), (269, 1), (213441916511, 1), (172054593956031949258510691, 1)] 134 (by decide +kernel) ?_
  simp only [List.forall_mem_cons, List.not_mem_nil, false_imp_iff, implies_true, and_true]
  exact ⟨by norm_num, by norm_num, prime_213441916511, prime_172054593956031949258510691⟩

theorem prime_276602624281642239937218680557139826668747 : Nat.Prime 276602624281642239937218680557139826668747 := by
  refine pratt _ 2 [(2, 1), (7, 1), (19757330305831588566944191468367130476339, 1)] 138 (by decide +kernel) ?_
  simp only [List.forall_mem_cons, List.not_mem_nil, false_imp_iff, implies_true, and_true]
  exact ⟨by norm_num, by norm_num, prime_19757330305831588566944191468367130476339⟩

theorem prime_7237005577332262213973186563042994240857116359379907606001950938285454250989 : Nat.Prime 7237005577332262213973186563042994240857116359379907606001950938285454250989 := by
  refine pratt _ 2 [(2, 2), (3, 1), (11, 1), (198211423230930754013084525763697, 1), (276602624281642239937218680557139826668747, 1)] 253 (by decide +kernel) ?_
  simp only [List.forall_mem_cons, List.not_mem_nil, false_imp_iff, implies_true, and_true]
  exact ⟨by norm_num, by norm_num, by norm_num, prime_198211423230930754013084525763697, prime_276602624281642239937218680557139826668747⟩

end Verif.Primes
