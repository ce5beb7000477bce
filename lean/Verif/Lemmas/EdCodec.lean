import Verif.Lemmas.Ed25519
import Mathlib.Tactic.IntervalCases
import Mathlib.Algebra.BigOperators.Group.List.Basic

/-! Facts about the byte and point encodings. -/

namespace Verif.Ed
open Verif Verif.Edwards

theorem sum_bits (y n : ℕ) : ((List.range n).map fun i => 2 ^ i * (y / 2 ^ i % 2)).sum = y % 2 ^ n := by
  induction n with
  | zero => simp [Nat.mod_one]
  | succ n ih =>
    rw [List.range_succ, List.map_append, List.sum_append, ih, List.map_singleton, List.sum_singleton, pow_succ, Nat.mod_mul]

theorem bitSum_lt (s : Bytes) (n : ℕ) : bitSum s n < 2 ^ n := by
  unfold bitSum
  induction n with
  | zero => simp
  | succ n ih =>
    rw [List.range_succ, List.map_append, List.sum_append, List.map_singleton, List.sum_singleton, pow_succ]
    have : bit s n ≤ 1 := by unfold bit; omega
    have : 2 ^ n * bit s n ≤ 2 ^ n * 1 := Nat.mul_le_mul_left _ this
    omega

theorem sum_map_congr {f g : ℕ → ℕ} (n : ℕ) (h : ∀ i, i < n → f i = g i) :
    ((List.range n).map f).sum = ((List.range n).map g).sum := by
  congr 1
  apply List.map_congr_left
  intro i hi
  exact h i (List.mem_range.mp hi)

theorem getD_get {α : Type} (l : List α) (i : ℕ) (x : α) (h : i < l.length) : l.getD i x = l[i] := by simp [List.getD, h]

/-- Bits of a number put together from bits. -/
theorem bit_of_sum (g : ℕ → ℕ) (hg : ∀ i, g i ≤ 1) (n k : ℕ) (hk : k < n) :
    ((List.range n).map fun i => 2 ^ i * g i).sum / 2 ^ k % 2 = g k := by
  induction n with
  | zero => omega
  | succ n ih =>
    rw [List.range_succ, List.map_append, List.sum_append, List.map_singleton, List.sum_singleton]
    have hlt : ((List.range n).map fun i => 2 ^ i * g i).sum < 2 ^ n := by
      clear ih hk
      induction n with
      | zero => simp
      | succ n ih =>
        rw [List.range_succ, List.map_append, List.sum_append, List.map_singleton, List.sum_singleton, pow_succ]
        have : 2 ^ n * g n ≤ 2 ^ n * 1 := Nat.mul_le_mul_left _ (hg n)
        omega
    rcases Nat.lt_or_ge k n with h | h
    · obtain ⟨m, rfl⟩ : ∃ m, n = k + 1 + m := ⟨n - k - 1, by omega⟩
      rw [show 2 ^ (k + 1 + m) * g (k + 1 + m) = 2 ^ k * (2 * (2 ^ m * g (k + 1 + m))) by rw [pow_add, pow_succ]; ring,
        Nat.add_mul_div_left _ _ (by positivity), Nat.add_mul_mod_self_left, ih h]
    · have : k = n := by omega
      subst this
      rw [Nat.add_mul_div_left _ _ (by positivity), Nat.div_eq_of_lt hlt, zero_add]
      have := hg k
      omega

theorem packBits_length (f : ℕ → ℕ) : (packBits f).length = 32 := by simp [packBits]

theorem byte_lt (f : ℕ → ℕ) (hf : ∀ i, f i ≤ 1) (i : ℕ) : ((List.range 8).map fun j => f (i * 8 + j) * 2 ^ j).sum < 256 := by
  have h0 := hf (i * 8 + 0)
  have h1 := hf (i * 8 + 1)
  have h2 := hf (i * 8 + 2)
  have h3 := hf (i * 8 + 3)
  have h4 := hf (i * 8 + 4)
  have h5 := hf (i * 8 + 5)
  have h6 := hf (i * 8 + 6)
  have h7 := hf (i * 8 + 7)
  rw [show List.range 8 = [0, 1, 2, 3, 4, 5, 6, 7] from rfl]
  simp only [List.map_cons, List.map_nil, List.sum_cons, List.sum_nil]
  omega

theorem packBits_get (f : ℕ → ℕ) (hf : ∀ i, f i ≤ 1) (i : ℕ) (hi : i < 32) :
    ((packBits f).getD i 0).toNat = ((List.range 8).map fun j => f (i * 8 + j) * 2 ^ j).sum := by
  rw [getD_get _ _ _ (by rw [packBits_length]; exact hi)]
  simp only [packBits, List.getElem_map, List.getElem_range]
  rw [UInt8.toNat_ofNat']
  exact Nat.mod_eq_of_lt (byte_lt f hf i)

theorem bit_packBits (f : ℕ → ℕ) (hf : ∀ i, f i ≤ 1) (i : ℕ) (hi : i < 256) : bit (packBits f) i = f i := by
  have hk : i % 8 < 8 := Nat.mod_lt _ (by norm_num)
  rw [bit, packBits_get f hf _ (by omega)]
  have hm : ((List.range 8).map fun j => f (i / 8 * 8 + j) * 2 ^ j).sum = ((List.range 8).map fun j => 2 ^ j * f (i / 8 * 8 + j)).sum :=
    sum_map_congr 8 fun j _ => mul_comm _ _
  rw [hm, bit_of_sum (fun j => f (i / 8 * 8 + j)) (fun j => hf _) 8 _ hk]
  congr 1; omega

theorem bitSum_packBits (f : ℕ → ℕ) (hf : ∀ i, f i ≤ 1) (n : ℕ) (hn : n ≤ 256) :
    bitSum (packBits f) n = ((List.range n).map fun i => 2 ^ i * f i).sum := by
  unfold bitSum
  apply sum_map_congr
  intro i hi
  rw [bit_packBits f hf i (by omega)]

theorem bit_le (s : Bytes) (i : ℕ) : bit s i ≤ 1 := by unfold bit; omega

/-- Unpacking and packing again. -/
theorem packBits_bit (s : Bytes) (hs : s.length = 32) : packBits (bit s) = s := by
  apply List.ext_getElem
  · rw [packBits_length, hs]
  · intro i h1 h2
    apply UInt8.toNat.inj
    have := packBits_get (bit s) (bit_le s) i (by omega)
    rw [getD_get _ _ _ h1] at this
    rw [this]
    have hb := s[i].toNat_lt
    have e : ∀ j, j < 8 → bit s (i * 8 + j) * 2 ^ j = 2 ^ j * (s[i].toNat / 2 ^ j % 2) := by
      intro j hj
      rw [bit, show (i * 8 + j) / 8 = i by omega, show (i * 8 + j) % 8 = j by omega, getD_get _ _ _ h2, mul_comm]
    rw [sum_map_congr 8 e, sum_bits, Nat.mod_eq_of_lt hb]

theorem bits_ext {s t : Bytes} (hs : s.length = 32) (ht : t.length = 32) (h : ∀ i, i < 256 → bit s i = bit t i) : s = t := by
  rw [← packBits_bit s hs, ← packBits_bit t ht]
  unfold packBits
  apply List.map_congr_left
  intro i hi
  have hi := List.mem_range.mp hi
  congr 1
  apply sum_map_congr
  intro j hj
  rw [h _ (by omega)]

theorem intBit_le (y : ℤ) (i : ℕ) : intBit y i ≤ 1 := by unfold intBit; omega

theorem intBit_nat (y : ℕ) (i : ℕ) : intBit (y : ℤ) i = y / 2 ^ i % 2 := by
  unfold intBit
  have : ((y : ℤ) / 2 ^ i % 2) = ((y / 2 ^ i % 2 : ℕ) : ℤ) := by push_cast; rfl
  rw [this, Int.toNat_natCast]

theorem intBit_mod (y : ℤ) (i n : ℕ) (h : i < n) : intBit (y % 2 ^ n) i = intBit y i := by
  unfold intBit
  congr 1
  obtain ⟨k, rfl⟩ : ∃ k, n = i + 1 + k := ⟨n - i - 1, by omega⟩
  have h1 : y = y % 2 ^ (i + 1 + k) + 2 ^ (i + 1 + k) * (y / 2 ^ (i + 1 + k)) := (Int.emod_add_mul_ediv _ _).symm
  conv_rhs => rw [h1]
  have h2 : (2 : ℤ) ^ (i + 1 + k) * (y / 2 ^ (i + 1 + k)) = 2 ^ i * (2 * (2 ^ k * (y / 2 ^ (i + 1 + k)))) := by
    rw [pow_add, pow_succ]; ring
  rw [h2, Int.add_mul_ediv_left _ _ (by positivity), Int.add_mul_emod_self_left]

theorem bitSum_encodeInt (y : ℤ) (n : ℕ) (hn : n ≤ 256) : (bitSum (encodeInt y) n : ℤ) = y % 2 ^ n := by
  rw [encodeInt, bitSum_packBits _ (intBit_le y) n hn]
  have hnn : 0 ≤ y % 2 ^ n := Int.emod_nonneg _ (by positivity)
  obtain ⟨m, hm⟩ := Int.eq_ofNat_of_zero_le hnn
  have : ((List.range n).map fun i => 2 ^ i * intBit y i).sum = ((List.range n).map fun i => 2 ^ i * (m / 2 ^ i % 2)).sum := by
    apply sum_map_congr
    intro i hi
    rw [← intBit_mod y i n hi, hm, intBit_nat]
  rw [this, sum_bits, hm]
  have hlt : m < 2 ^ n := by
    have : y % 2 ^ n < 2 ^ n := Int.emod_lt_of_pos _ (by positivity)
    rw [hm] at this; exact_mod_cast this
  rw [Nat.mod_eq_of_lt hlt]

theorem bitSum_bit (s : Bytes) (n k : ℕ) (hk : k < n) : bitSum s n / 2 ^ k % 2 = bit s k :=
  bit_of_sum (bit s) (bit_le s) n k hk

attribute [local irreducible] bitSum

theorem decodeInt_encodeInt (y : ℤ) : ∃ n, decodeInt (encodeInt y) = some n ∧ (n : ℤ) = y % 2 ^ 256 :=
  ⟨_, by rw [decodeInt, if_neg]; rw [encodeInt, packBits_length]; omega, bitSum_encodeInt y 256 (le_refl _)⟩

theorem encodeInt_decodeInt (s : Bytes) (hs : s.length = 32) (n : ℕ) (h : decodeInt s = some n) : encodeInt n = s := by
  rw [decodeInt, if_neg (by omega)] at h
  have h := (Option.some.inj h).symm
  subst h
  apply bits_ext (by rw [encodeInt, packBits_length]) hs
  intro i hi
  rw [encodeInt, bit_packBits _ (intBit_le _) i hi, intBit_nat, bitSum_bit _ _ _ hi]

/-! ## Points -/

theorem pow_q_exp (a : Fq) (e : ℕ) (h : e < 2 ^ 256) (x : ℤ) (hx : (x : Fq) = a) : ((powq x e : ℤ) : Fq) = a ^ e := by
  rw [powq, cast_expmod_q _ _ _ h, hx]

theorem den_y_ne (y : Fq) : dF * y * y + 1 ≠ 0 := by
  intro h
  have hy : y ≠ 0 := by rintro rfl; simp at h
  apply d_nonsquare ((I : Fq) / y)
  rw [div_pow, I_sq, div_eq_iff (pow_ne_zero 2 hy)]
  linear_combination -h

/-- Square roots: for a square the candidate is right up to the factor `I`. -/
theorem sqrt_cases (s a : Fq) (h : a = s ^ 2) :
    (a ^ ((2 ^ 255 - 16) / 8)) ^ 2 = a ∨ (a ^ ((2 ^ 255 - 16) / 8)) ^ 2 = -a := by
  have e1 : (a ^ ((2 ^ 255 - 16) / 8)) ^ 2 = a * s ^ ((qN - 1) / 2) := by
    rw [h, ← pow_mul, ← pow_mul, ← pow_add]
    congr 1
  by_cases hs : s = 0
  · left; rw [e1, h, hs]; simp
  · have : s ^ (qN - 1) = 1 := ZMod.pow_card_sub_one_eq_one hs
    have h2 : (s ^ ((qN - 1) / 2)) ^ 2 = 1 := by rw [← pow_mul, show (qN - 1) / 2 * 2 = qN - 1 by decide +kernel, this]
    rcases mul_self_eq_one_iff.mp ((sq _).symm.trans h2) with h3 | h3
    · left; rw [e1, h3, mul_one]
    · right; rw [e1, h3]; ring

/-- Recovery of `x`: even, in range, and a root of the curve equation if there is one. -/
theorem xrecover_spec (y : ℤ) :
    (0 ≤ xrecover y ∧ xrecover y < q) ∧ xrecover y % 2 = 0 ∧
    ∀ s : Fq, On dF s (y : Fq) → ((xrecover y : ℤ) : Fq) ^ 2 = s ^ 2 := by
  have hq1 : (1 : ℤ) < q := by decide +kernel
  have hqodd : q % 2 = 1 := by decide +kernel
  have hlt : (2 ^ 255 - 16) / 8 < 2 ^ 256 := by norm_num
  unfold xrecover
  simp only
  generalize hxx : (y * y - 1) * inv (d * y * y + 1) = xx
  have hx0 : 0 ≤ powq xx ((2 ^ 255 - 16) / 8) ∧ powq xx ((2 ^ 255 - 16) / 8) < q := expmod_range hq1 _ _ _
  have hc0 := pow_q_exp (xx : Fq) _ hlt xx rfl
  generalize powq xx ((2 ^ 255 - 16) / 8) = x0 at *
  generalize hx1 : (if (x0 * x0 - xx) % q ≠ 0 then x0 * I % q else x0) = x1
  have h1 : 0 ≤ x1 ∧ x1 < q := by
    rw [← hx1]; split
    · exact mod_q_range _
    · exact hx0
  have hsq : ∀ s : Fq, On dF s (y : Fq) → ((x1 : ℤ) : Fq) ^ 2 = s ^ 2 := by
    intro s hs
    have hdn := den_y_ne (y : Fq)
    have hxxF : (xx : Fq) = s ^ 2 := by
      rw [← hxx, Int.cast_mul, cast_inv]
      push_cast
      rw [cast_d, mul_inv_eq_iff_eq_mul₀ hdn]
      unfold On at hs
      linear_combination hs
    have hcases := sqrt_cases s (xx : Fq) hxxF
    rw [← hc0] at hcases
    have hz : (x0 * x0 - xx) % q = 0 ↔ (x0 : Fq) ^ 2 = xx := by
      rw [mod_q_eq_zero, Int.cast_sub, Int.cast_mul, sub_eq_zero, sq]
    rw [← hx1]
    split
    · rename_i hne
      rw [ne_eq, hz] at hne
      rw [cast_mod_q, Int.cast_mul, mul_pow, I_sq, hcases.resolve_left hne, ← hxxF]; ring
    · rename_i hne
      rw [ne_eq, hz, not_not] at hne
      rw [hne, hxxF]
  by_cases hp : x1 % 2 ≠ 0
  · rw [if_pos hp]
    refine ⟨by omega, by omega, fun s hs => ?_⟩
    rw [Int.cast_sub, cast_q, ← hsq s hs]; ring
  · rw [if_neg hp]
    exact ⟨h1, by omega, hsq⟩

/-- Integer representative of a field element. -/
def val (a : Fq) : ℤ := (a.val : ℤ)

theorem val_range (a : Fq) : 0 ≤ val a ∧ val a < q :=
  ⟨Int.natCast_nonneg _, by rw [q_eq, val]; exact_mod_cast a.val_lt⟩

theorem cast_val (a : Fq) : ((val a : ℤ) : Fq) = a := by rw [val, Int.cast_natCast, ZMod.natCast_zmod_val]

theorem val_cast (a : ℤ) : val (a : Fq) = a % q :=
  eq_of_cast (val_range _) (mod_q_range _) (by rw [cast_val, cast_mod_q])

/-- The encoding of an affine point. -/
def encPt (p : Point) : Bytes := packBits fun i => if i < 255 then intBit (val p.y) i else (val p.x % 2).toNat

/-- Extended coordinates with `z = 1`. -/
def canon (p : Point) : Ext := ⟨val p.x, val p.y, 1, val p.x * val p.y % q⟩

theorem rep_canon (p : Point) : Rep (canon p) p := by
  constructor <;> simp [canon, cast_val]

theorem encodePoint_rep {P : Ext} {p : Point} (h : Rep P p) : encodePoint P = encPt p := by
  have hx : P.x * inv P.z % q = val p.x :=
    eq_of_cast (mod_q_range _) (val_range _) (by
      rw [cast_mod_q, Int.cast_mul, cast_inv, h.x, cast_val, mul_assoc, mul_inv_cancel₀ h.z, mul_one])
  have hy : P.y * inv P.z % q = val p.y :=
    eq_of_cast (mod_q_range _) (val_range _) (by
      rw [cast_mod_q, Int.cast_mul, cast_inv, h.y, cast_val, mul_assoc, mul_inv_cancel₀ h.z, mul_one])
  simp only [encodePoint, encPt, hx, hy]

theorem encPt_length (p : Point) : (encPt p).length = 32 := packBits_length _

theorem encPt_bits (p : Point) (i : ℕ) : (fun i => if i < 255 then intBit (val p.y) i else (val p.x % 2).toNat) i ≤ 1 := by
  simp only
  split
  · exact intBit_le _ _
  · omega

theorem encPt_y (p : Point) : ((bitSum (encPt p) 255 : ℕ) : ℤ) = val p.y := by
  have h := bitSum_encodeInt (val p.y) 255 (by norm_num)
  have hlt : val p.y % 2 ^ 255 = val p.y := by
    apply Int.emod_eq_of_lt (val_range _).1
    have h1 := (val_range p.y).2
    have h2 : q ≤ 2 ^ 255 := by decide +kernel
    exact lt_of_lt_of_le h1 h2
  rw [hlt] at h
  rw [← h, encPt, encodeInt, bitSum_packBits _ (encPt_bits p) _ (by norm_num), bitSum_packBits _ (intBit_le _) _ (by norm_num)]
  exact congrArg Nat.cast (sum_map_congr 255 fun i hi => by rw [if_pos hi])

theorem encPt_sign (p : Point) : ((bit (encPt p) 255 : ℕ) : ℤ) = val p.x % 2 := by
  rw [encPt, bit_packBits _ (encPt_bits p) 255 (by norm_num), if_neg (by norm_num)]
  omega

/-- Decoding what was encoded gives the affine coordinates of the point. -/
theorem decode_encPt (p : Point) : decodePoint (encPt p) = some (canon p) := by
  have hqodd : q % 2 = 1 := by decide +kernel
  rw [decodePoint, if_neg (by rw [encPt_length]; norm_num)]
  simp only
  rw [encPt_y, encPt_sign]
  obtain ⟨hr, he, hs⟩ := xrecover_spec (val p.y)
  have hsq := hs p.x (by rw [cast_val]; exact p.on)
  generalize xrecover (val p.y) = x at *
  have hv := val_range p.x
  have hx : (if x % 2 ≠ val p.x % 2 then q - x else x) = val p.x := by
    have hor : (x : Fq) = p.x ∨ (x : Fq) = -p.x := sq_eq_sq_iff_eq_or_eq_neg.mp hsq
    have hor' : x = val p.x ∨ x = q - val p.x ∨ (x = 0 ∧ val p.x = 0) := by
      rcases hor with h | h
      · left; exact eq_of_cast hr hv (by rw [h, cast_val])
      · by_cases h0 : val p.x = 0
        · right; right
          refine ⟨?_, h0⟩
          have : p.x = 0 := by rw [← cast_val p.x, h0, Int.cast_zero]
          exact eq_of_cast hr ⟨le_refl _, q_pos⟩ (by rw [h, this]; simp)
        · right; left
          exact eq_of_cast hr ⟨by omega, by omega⟩ (by rw [h, Int.cast_sub, cast_q, cast_val]; ring)
    split <;> omega
  rw [hx]
  have : isOnCurve (canon p) = true := (isOnCurve_iff _).mpr ⟨p, rep_canon p⟩
  rw [canon] at this ⊢
  rw [if_pos this]

/-- Different points have different encodings. -/
theorem encPt_injective {p r : Point} (h : encPt p = encPt r) : p = r := by
  have h1 := decode_encPt p
  rw [h, decode_encPt r] at h1
  have h2 := Option.some.inj h1
  exact rep_unique (h2 ▸ rep_canon p) (rep_canon r)

theorem decodePoint_rep {s : Bytes} {P : Ext} (h : decodePoint s = some P) : ∃ p, Rep P p := by
  rw [decodePoint] at h
  split at h
  · exact absurd h (by simp)
  · simp only at h
    generalize (if xrecover (bitSum s 255 : ℤ) % 2 ≠ (bit s 255 : ℤ) then q - xrecover (bitSum s 255 : ℤ) else
      xrecover (bitSum s 255 : ℤ)) = x at h
    split at h
    · rename_i hc
      rw [Option.some.inj h] at hc
      exact (isOnCurve_iff P).mp hc
    · exact absurd h (by simp)

end Verif.Ed
