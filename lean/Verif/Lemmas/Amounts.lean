import Verif.Lemmas.Stealth
import Verif.Lemmas.Varint

/-! Masked bytes, small numbers in 32 bytes, fields of extra. -/

namespace Verif.Key
open Verif Ed Edwards

/-! ## Bytes -/

theorem bitSum_succ (s : Bytes) (n : ℕ) : bitSum s (n + 1) = bitSum s n + 2 ^ n * bit s n := by
  simp [bitSum, List.range_succ]

section
attribute [local irreducible] bitSum

theorem xor8_length (b k : Bytes) (hk : 8 ≤ k.length) : (xor8 b k).length = b.length := by
  simp only [xor8, List.length_append, List.length_zipWith, List.length_take, List.length_drop]
  omega

theorem xor_invol (x y : UInt8) : (x ^^^ y) ^^^ y = x := by
  rw [UInt8.xor_assoc, UInt8.xor_self, UInt8.xor_zero]

theorem zipWith_invol : ∀ (a k : Bytes), a.length ≤ k.length → ((a.zipWith (· ^^^ ·) k).zipWith (· ^^^ ·) k) = a
  | [], _, _ => by simp
  | a :: as, [], h => by simp at h
  | a :: as, k :: ks, h => by
    simp only [List.zipWith_cons_cons, xor_invol, zipWith_invol as ks (by simpa using h)]

/-- Masking twice with the same key gives the bytes back. -/
theorem xor8_invol (b k : Bytes) (hk : 8 ≤ k.length) : xor8 (xor8 b k) k = b := by
  have h1 : ((b.take 8).zipWith (· ^^^ ·) k).length = min 8 b.length := by
    rw [List.length_zipWith, List.length_take]; omega
  by_cases hb : 8 ≤ b.length
  · have h2 : (xor8 b k).take 8 = (b.take 8).zipWith (· ^^^ ·) k := by
      rw [xor8, List.take_append_of_le_length (by omega), List.take_of_length_le (by omega)]
    have h3 : (xor8 b k).drop 8 = b.drop 8 := by
      rw [xor8, List.drop_append_of_le_length (by omega), List.drop_of_length_le (by omega), List.nil_append]
    rw [xor8, h2, h3, zipWith_invol _ _ (by rw [List.length_take]; omega), List.take_append_drop]
  · have h2 : xor8 b k = b.zipWith (· ^^^ ·) k := by
      rw [xor8, List.drop_of_length_le (by omega), List.append_nil, List.take_of_length_le (by omega)]
    have h3 : (b.zipWith (· ^^^ ·) k).length = b.length := by rw [List.length_zipWith]; omega
    rw [h2, xor8, List.drop_of_length_le (by omega), List.append_nil, List.take_of_length_le (by omega), zipWith_invol _ _ (by omega)]

theorem xor8_drop (b k : Bytes) (hk : 8 ≤ k.length) (hb : 8 ≤ b.length) : (xor8 b k).drop 8 = b.drop 8 := by
  have h1 : ((b.take 8).zipWith (· ^^^ ·) k).length = 8 := by
    rw [List.length_zipWith, List.length_take]; omega
  rw [xor8, List.drop_append_of_le_length (by omega), List.drop_of_length_le (by omega), List.nil_append]

theorem encodeInt_length (n : ℤ) : (encodeInt n).length = 32 := packBits_length _

theorem encodeInt_small (n : ℤ) (h0 : 0 ≤ n) (h1 : n < 2 ^ 64) : (encodeInt n).drop 8 = List.replicate 24 0 := by
  apply List.ext_getElem (by simp [encodeInt_length])
  intro i h2 h3
  have hi : i < 24 := by simpa using h3
  rw [List.getElem_drop, List.getElem_replicate]
  have hg := packBits_get (intBit n) (intBit_le n) (8 + i) (by omega)
  have hz : ∀ j, j < 8 → intBit n ((8 + i) * 8 + j) = 0 := by
    intro j hj
    obtain ⟨m, rfl⟩ := Int.eq_ofNat_of_zero_le h0
    rw [intBit_nat]
    have : m / 2 ^ ((8 + i) * 8 + j) = 0 := by
      apply Nat.div_eq_of_lt
      calc m < 2 ^ 64 := by exact_mod_cast h1
        _ ≤ 2 ^ ((8 + i) * 8 + j) := Nat.pow_le_pow_right (by omega) (by omega)
    rw [this]
  have hs : ((List.range 8).map fun j => intBit n ((8 + i) * 8 + j) * 2 ^ j).sum = 0 := by
    apply List.sum_eq_zero
    intro x hx
    obtain ⟨j, hj, rfl⟩ := List.mem_map.mp hx
    rw [hz j (List.mem_range.mp hj), Nat.zero_mul]
  rw [hs] at hg
  have h4 : (8 + i) < (encodeInt n).length := by rw [encodeInt_length]; omega
  have : (encodeInt n).getD (8 + i) 0 = (encodeInt n)[8 + i] := getD_get _ _ _ h4
  change ((encodeInt n).getD (8 + i) 0).toNat = 0 at hg
  rw [this] at hg
  exact UInt8.toNat_inj.mp hg

/-- 32 bytes of which only the first eight are not zero are the encoding of a 64-bit number. -/
theorem small_value (b : Bytes) (hl : b.length = 32) (hz : b.drop 8 = List.replicate 24 0) :
    ∃ n : ℤ, 0 ≤ n ∧ n < 2 ^ 64 ∧ decodeScalar b = some n ∧ encodeInt n = b := by
  have hbit : ∀ i, 64 ≤ i → bit b i = 0 := by
    intro i hi
    rw [bit]
    have : b.getD (i / 8) 0 = 0 := by
      by_cases h : i / 8 < 32
      · have h1 : (b.drop 8)[i / 8 - 8]? = some 0 := by
          rw [hz, List.getElem?_replicate, if_pos (by omega)]
        rw [List.getElem?_drop, show 8 + (i / 8 - 8) = i / 8 by omega] at h1
        rw [List.getD, h1]; rfl
      · rw [List.getD, List.getElem?_eq_none (by omega)]; rfl
    rw [this]; simp
  have hsum : ∀ k, bitSum b (64 + k) = bitSum b 64 := by
    intro k
    induction k with
    | zero => rfl
    | succ k ih => rw [show 64 + (k + 1) = 64 + k + 1 by omega, bitSum_succ, ih, hbit _ (by omega), Nat.mul_zero, Nat.add_zero]
  have h256 : bitSum b 256 = bitSum b 64 := hsum 192
  have hlt := bitSum_lt b 64
  have hd : decodeInt b = some (bitSum b 64) := by rw [decodeInt, if_neg (by omega), h256]
  have hl64 : (2 : ℤ) ^ 64 < l := by decide +kernel
  have hlt' : ((bitSum b 64 : ℕ) : ℤ) < 2 ^ 64 := by exact_mod_cast hlt
  refine ⟨(bitSum b 64 : ℕ), Int.natCast_nonneg _, hlt', ?_, encodeInt_decodeInt b hl _ hd⟩
  have h2 : decodeScalar b = some (((bitSum b 64 : ℕ) : ℤ) % l) := by rw [decodeScalar, hd]; rfl
  rw [h2, Int.emod_eq_of_lt (Int.natCast_nonneg _) (lt_trans hlt' hl64)]
end

theorem sub_add_cancel_l {m h : ℤ} (h0 : 0 ≤ m) (h1 : m < l) : scSub (scAdd m h) h = m := by
  have : ((m + h) % l - h) % l = (m + h - h) % l := (Int.mod_modEq (m + h) l).sub_right h
  rw [scSub, scAdd, this, Int.add_sub_cancel, Int.emod_eq_of_lt h0 h1]

theorem rep_hPt : ∃ p, Rep hPt p := (isOnCurve_iff hPt).mp (by decide +kernel)

end Verif.Key
