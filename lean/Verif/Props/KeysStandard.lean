import Verif.Lemmas.Stealth
import Mathlib.Data.Nat.Digits.Defs

/-! C38: the sub-addresses are the standard ones. -/

namespace Verif.Key
open Verif Ed Edwards

/-- The number written by bytes, least significant first. -/
def number (b : Bytes) : ℕ := Nat.ofDigits 256 (b.map UInt8.toNat)

/-- "SubAddr" and a zero byte. -/
def subTag : Bytes := "SubAddr\x00".toList.map fun c => UInt8.ofNat c.toNat

theorem four {b : Bytes} (h : b.length = 4) : ∃ w x y z, b = [w, x, y, z] := by
  match b, h with
  | [w, x, y, z], _ => exact ⟨w, x, y, z, rfl⟩

theorem number_four (w x y z : UInt8) : number [w, x, y, z] = w.toNat + 256 * (x.toNat + 256 * (y.toNat + 256 * z.toNat)) := by
  simp [number, Nat.ofDigits]

theorem le32_number {b : Bytes} (h : b.length = 4) : le32 (number b) = b ∧ number b < 2 ^ 32 := by
  obtain ⟨w, x, y, z, rfl⟩ := four h
  rw [number_four]
  have hw := w.toNat_lt
  have hx := x.toNat_lt
  have hy := y.toNat_lt
  have hz := z.toNat_lt
  refine ⟨?_, by omega⟩
  have g : ∀ (n : ℕ) (u : UInt8), n % 256 = u.toNat → UInt8.ofNat n = u := by
    intro n u hn
    apply UInt8.toNat_inj.mp
    rw [UInt8.toNat_ofNat']
    exact hn
  simp only [le32, List.cons.injEq, and_true]
  exact ⟨g _ _ (by omega), g _ _ (by omega), g _ _ (by omega), g _ _ (by omega)⟩

theorem number_zero {b : Bytes} (h : b.length = 4) : number b = 0 ↔ b = [0, 0, 0, 0] := by
  constructor
  · intro h0
    have := (le32_number h).1
    rw [h0] at this
    rw [← this]; rfl
  · rintro rfl; rfl

/-- C38. The secret of a sub-address is the hash to a scalar of "SubAddr", a zero byte, the view key and the two indices of four bytes each, least
significant first. The main address has the view key itself; indices that do not fit four bytes raise an exception. -/
theorem C38_secret_standard (H : Bytes → Bytes) (a : ℤ) :
    (∀ M m : Bytes, M.length = 4 → m.length = 4 → M ++ m ≠ List.replicate 8 0 →
      subSecret H a (number M) (number m) = some (hs H (subTag ++ (encodeInt a ++ (M ++ m))))) ∧
    subSecret H a 0 0 = some a ∧
    (∀ i j : ℕ, 2 ^ 32 ≤ i ∨ 2 ^ 32 ≤ j → subSecret H a i j = none) := by
  refine ⟨?_, rfl, ?_⟩
  · intro M m lM lm hne
    obtain ⟨eM, bM⟩ := le32_number lM
    obtain ⟨em, bm⟩ := le32_number lm
    have h0 : ¬(number M = 0 ∧ number m = 0) := by
      rintro ⟨h1, h2⟩
      rw [number_zero lM] at h1
      rw [number_zero lm] at h2
      rw [h1, h2] at hne
      exact hne rfl
    rw [subSecret, if_neg h0, subSecretCore, if_pos ⟨bM, bm⟩, eM, em, List.append_assoc, List.append_assoc]
    rfl
  · intro i j h
    rw [subSecret, if_neg (by omega), subSecretCore, if_neg (by omega)]

/-- C38. The sub-address at an index: the spend key is `B + m G`, the view key `a (B + m G)`, with `m` the secret above; the main address is `B` and `a G`. -/
theorem C38_address_standard (H : Bytes → Bytes) (a : ℤ) (ha : 0 ≤ a) (S : Ext) (b : Point) (hS : Rep S b) (i j : ℕ) (D C : Ext)
    (h : subAddressKeys H a S i j = some (D, C)) :
    subSpendPub H a S i j = some D ∧
    ((i = 0 ∧ j = 0 ∧ Rep D b ∧ Rep C (a • base)) ∨
      (¬(i = 0 ∧ j = 0) ∧ ∃ m, subSecret H a i j = some m ∧ Rep D (b + m • base) ∧ Rep C (a • (b + m • base)))) := by
  by_cases h0 : i = 0 ∧ j = 0
  · rw [subAddressKeys, if_pos h0] at h
    obtain ⟨rfl, rfl⟩ := Prod.mk.injEq .. ▸ Option.some.inj h
    exact ⟨by rw [subSpendPub, if_pos h0], Or.inl ⟨h0.1, h0.2, hS, rep_B a⟩⟩
  · rw [subAddressKeys, if_neg h0] at h
    obtain ⟨m, hm, he⟩ := Option.map_eq_some_iff.mp h
    obtain ⟨rfl, rfl⟩ := Prod.mk.injEq .. ▸ he
    refine ⟨by rw [subSpendPub, if_neg h0, hm]; rfl, Or.inr ⟨h0, m, hm, ?_, ?_⟩⟩
    · exact rep_add hS (rep_B m)
    · exact rep_smul (rep_add hS (rep_B m)) ha

example : subTag = [0x53, 0x75, 0x62, 0x41, 0x64, 0x64, 0x72, 0] ∧ number [2, 1, 0, 0] = 258 := by decide

/-- A toy hash that keeps the first bytes of its input after the tag and the key: the secret of the sub-address (1, 2) is 1 + 2·256⁴. -/
example : subSecret (fun d => d.drop 40 ++ List.replicate 24 0) 5 1 2 = some (1 + 2 * 256 ^ 4) := by decide +kernel

theorem eight_bits : ∀ b : UInt8, ((List.range 8).map fun i => 2 ^ i * (b.toNat / 2 ^ (i % 8) % 2)).sum = b.toNat := by
  intro b
  have := b.toNat_lt
  simp only [List.range, List.range.loop, List.map_cons, List.map_nil, List.sum_cons, List.sum_nil]
  norm_num only
  omega

theorem bitSum_cons (b : UInt8) (s : Bytes) (n : ℕ) : bitSum (b :: s) (8 + n) = b.toNat + 256 * bitSum s n := by
  unfold bitSum
  rw [List.range_add, List.map_append, List.sum_append, List.map_map, ← List.sum_map_mul_left]
  congr 1
  · rw [← eight_bits b]
    refine congrArg List.sum (List.map_congr_left fun i hi => ?_)
    have : i < 8 := List.mem_range.1 hi
    simp [bit, Nat.div_eq_of_lt this]
  · refine congrArg List.sum (List.map_congr_left fun i _ => ?_)
    show 2 ^ (8 + i) * bit (b :: s) (8 + i) = 256 * (2 ^ i * bit s i)
    have : bit (b :: s) (8 + i) = bit s i := by
      unfold bit
      rw [show (8 + i) / 8 = i / 8 + 1 by omega, show (8 + i) % 8 = i % 8 by omega, List.getD_cons_succ]
    rw [this, Nat.pow_add]
    ring

theorem bitSum_number : ∀ s : Bytes, bitSum s (8 * s.length) = number s := by
  intro s
  induction s with
  | nil => rfl
  | cons b s ih =>
    rw [List.length_cons, show 8 * (s.length + 1) = 8 + 8 * s.length by ring, bitSum_cons, ih]
    simp [number, Nat.ofDigits]

theorem bitSum_256 {s : Bytes} (h : s.length = 32) : bitSum s 256 = number s := by
  rw [← bitSum_number, h]

/-- C38. The keys of an account are the standard ones: the spend secret is the seed, the view secret the hash of the spend secret written in 32 bytes, least
significant first, both reduced modulo the group order; the public keys are their multiples of the base point. -/
theorem C38_account_standard (H : Bytes → Bytes) (hH : ∀ m, (H m).length = 32) (seed w : Bytes) (hseed : seed.length = 32) (hw : w.length = 32)
    (hval : (number w : ℤ) = number seed % l) : ∃ B A, moneroKeys H seed = some (number seed % l, B, number (H w) % l, A) ∧
      Rep B ((number seed % l : ℤ) • base) ∧ Rep A ((number (H w) % l : ℤ) • base) := by
  have hd : decodeScalar seed = some (number seed % l : ℤ) := by
    rw [decodeScalar, decodeInt, if_neg (by omega), bitSum_256 hseed]
    rfl
  have he : encodeInt (number seed % l : ℤ) = w := by
    rw [← hval]
    apply bitSum_inj (by rw [encodeInt, packBits_length]) hw
    have := bitSum_encodeInt (number w : ℤ) 256 (le_refl _)
    have hlt := bitSum_lt w 256
    rw [bitSum_256 hw] at hlt ⊢
    omega
  refine ⟨scalarmultB (number seed % l : ℤ), scalarmultB (number (H w) % l : ℤ), ?_, rep_B _, rep_B _⟩
  rw [moneroKeys, hd, Option.map_some]
  dsimp only
  rw [he, hs, bitSum_256 (hH w)]

/-- The seed of a one followed by zero bytes. -/
example : ∃ seed w : Bytes, seed.length = 32 ∧ w.length = 32 ∧ (number w : ℤ) = number seed % l := by
  refine ⟨1 :: List.replicate 31 0, 1 :: List.replicate 31 0, rfl, rfl, ?_⟩
  decide +kernel

end Verif.Key
