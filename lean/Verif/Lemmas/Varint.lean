import Verif.Model.Varint

namespace Verif.Varint
open Verif

theorem and7f (n : Nat) : n &&& 0x7F = n % 128 := Nat.and_two_pow_sub_one_eq_mod n 7

theorem shr7 (n : Nat) : n >>> 7 = n / 128 := by rw [Nat.shiftRight_eq_div_pow]

theorem or80 (n : Nat) : (n % 128) ||| 0x80 = n % 128 + 128 := by
  have h : n % 128 < 2 ^ 7 := Nat.mod_lt _ (by decide)
  have := (Nat.two_pow_add_eq_or_of_lt h 1)
  rw [Nat.or_comm]
  simp only [Nat.reducePow, Nat.mul_one] at this
  omega

theorem and80 (n : Nat) (h : n < 256) : (n &&& 0x80 ≠ 0) ↔ 128 ≤ n := by
  have : ∀ n < 256, ((n &&& 0x80 ≠ 0) ↔ 128 ≤ n) := by decide +kernel
  exact this n h

theorem dumpNat_eq (n : Nat) : dumpNat n =
    if n / 128 = 0 then [UInt8.ofNat (n % 128)]
    else UInt8.ofNat (n % 128 + 128) :: dumpNat (n / 128) := by
  rw [dumpNat]; simp only [shr7, and7f, or80]

theorem dumpNat_ne_nil (n : Nat) : dumpNat n ≠ [] := by
  rw [dumpNat_eq]; split <;> simp

theorem loadAux_cons (result shift : Nat) (b : UInt8) (rest : Bytes) :
    loadAux result shift (b :: rest) =
      if 128 ≤ b.toNat then loadAux (result + (b.toNat % 128) * 2 ^ shift) (shift + 7) rest
      else some (result + (b.toNat % 128) * 2 ^ shift, rest) := by
  have hb := b.toNat_lt
  simp only [loadAux, and7f, Nat.shiftLeft_eq]
  by_cases h : 128 ≤ b.toNat
  · rw [if_pos ((and80 _ hb).2 h), if_pos h]
  · rw [if_neg (fun h' => h ((and80 _ hb).1 h')), if_neg h]

theorem loadAux_dumpNat (n : Nat) (result shift : Nat) (rest : Bytes) :
    loadAux result shift (dumpNat n ++ rest) = some (result + n * 2 ^ shift, rest) := by
  induction n using Nat.strongRecOn generalizing result shift with
  | _ n ih =>
    rw [dumpNat_eq]
    split
    · next h =>
      have : n < 128 := by omega
      rw [List.cons_append, loadAux_cons]
      have e : (UInt8.ofNat (n % 128)).toNat = n := by
        simp [UInt8.toNat_ofNat']; omega
      rw [e, if_neg (by omega), Nat.mod_eq_of_lt this, List.nil_append]
    · next h =>
      rw [List.cons_append, loadAux_cons]
      have e : (UInt8.ofNat (n % 128 + 128)).toNat = n % 128 + 128 := by
        simp [UInt8.toNat_ofNat']; omega
      rw [e, if_pos (by omega), ih (n / 128) (by omega)]
      have e2 : (n % 128 + 128) % 128 = n % 128 := by omega
      have e3 : 2 ^ (shift + 7) = 128 * 2 ^ shift := by rw [Nat.pow_add]; omega
      rw [e2, e3]
      have e4 : n * 2 ^ shift = (n % 128 + 128 * (n / 128)) * 2 ^ shift := by
        rw [Nat.mod_add_div]
      rw [e4, Nat.add_mul, Nat.mul_comm 128 (n / 128), Nat.mul_assoc, Nat.add_assoc]

theorem load_dumpNat (n : Nat) (rest : Bytes) : load (dumpNat n ++ rest) = some (n, rest) := by
  rw [load, loadAux_dumpNat]; simp

/-- Two encodings in front of arbitrary data agree only if values and data agree. -/
theorem dumpNat_append_inj {m n : Nat} {r s : Bytes} (h : dumpNat m ++ r = dumpNat n ++ s) :
    m = n ∧ r = s := by
  have h1 := load_dumpNat m r
  rw [h, load_dumpNat] at h1
  simp at h1; exact ⟨h1.1.symm, h1.2.symm⟩

theorem dumpNat_inj {m n : Nat} (h : dumpNat m = dumpNat n) : m = n := by
  have : dumpNat m ++ [] = dumpNat n ++ [] := by simpa using h
  exact (dumpNat_append_inj this).1

theorem dumpNat_length (n : Nat) : (dumpNat n).length = if n < 128 then 1 else (dumpNat (n / 128)).length + 1 := by
  rw [dumpNat_eq]; by_cases h : n < 128
  · rw [if_pos (by omega), if_pos h]; rfl
  · rw [if_neg (by omega), if_neg h]; simp

end Verif.Varint
