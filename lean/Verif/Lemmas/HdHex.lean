import Verif.Model.Hd
import Verif.Spec.Hd
import Verif.Props.Mnemonic

/-! Hex strings and big-endian numbers, for the hierarchical keys. -/

namespace Verif.Hd
open Verif Mnemonic Dig HdSpec

/-- At least `k` digits: exactly the `k` digits of a small enough number. -/
theorem longToHex_eq (k x : ℕ) (h : x < 16 ^ k) : longToHex x k = toBE 16 k x := by
  have hlt := natDigits_lt (by omega : 1 < 16) x
  have hval := ofBE_natDigits (by omega : 1 < 16) x
  have hlead := natDigits_lead (by omega : 1 < 16) x
  unfold longToHex
  rw [hexNat_eq]
  generalize natDigits 16 _ x = l at *
  have hlen : l.length ≤ k := by
    rcases Nat.lt_or_ge k l.length with hc | hc
    · exfalso
      cases l with
      | nil => simp at hc
      | cons d l =>
        have hd := hlead d rfl
        rw [ofBE_cons] at hval
        simp only [List.length_cons] at hc
        have : 16 ^ k ≤ 16 ^ l.length := Nat.pow_le_pow_right (by omega) (by omega)
        have : 1 * 16 ^ l.length ≤ d * 16 ^ l.length := Nat.mul_le_mul_right _ (by omega)
        omega
    · exact hc
  have hrep : ofBE 16 (List.replicate (k - l.length) 0 ++ l) = x := by
    rw [ofBE_append, hval]
    have : ofBE 16 (List.replicate (k - l.length) 0) = 0 := by
      generalize k - l.length = j
      induction j with
      | zero => rfl
      | succ j ih => rw [List.replicate_succ, ofBE_cons, ih]; simp
    rw [this]; omega
  have hk : (List.replicate (k - l.length) 0 ++ l).length = k := by simp; omega
  have := toBE_ofBE (by omega : 0 < 16) (List.replicate (k - l.length) 0 ++ l) (by
    intro d hd
    rcases List.mem_append.1 hd with hd | hd
    · rw [List.mem_replicate] at hd; omega
    · exact hlt d hd)
  rw [hrep, hk] at this
  exact this.symm

theorem be_length (k v : ℕ) : (be k v).length = k := by
  induction k generalizing v with
  | zero => rfl
  | succ k ih => simp [be, ih]

theorem hexlify_append (a b : Bytes) : hexlify (a ++ b) = hexlify a ++ hexlify b := by
  induction a with
  | nil => rfl
  | cons x a ih => simp [hexlify, ih]

theorem hexlify_be (k v : ℕ) : hexlify (be k v) = toBE 16 (2 * k) v := by
  induction k generalizing v with
  | zero => rfl
  | succ k ih =>
    rw [be, hexlify_append, ih, show 2 * (k + 1) = 2 * k + 1 + 1 by ring, toBE, toBE, Nat.div_div_eq_div_mul]
    have h : (UInt8.ofNat (v % 256)).toNat = v % 256 := by
      rw [UInt8.toNat_ofNat']; omega
    simp only [hexlify, h, List.append_assoc, List.cons_append, List.nil_append]
    congr 2
    · omega
    · congr 1; omega

theorem longToHex_be (k v : ℕ) (h : v < 256 ^ k) : longToHex v (2 * k) = hexlify (be k v) := by
  rw [hexlify_be, longToHex_eq]
  rw [pow_mul]; exact h

theorem unhexlify_hexlify (b : Bytes) : unhexlify (hexlify b) = some b := by
  induction b with
  | nil => rfl
  | cons x b ih =>
    have : UInt8.ofNat (16 * (x.toNat / 16) + x.toNat % 16) = x := by
      rw [show 16 * (x.toNat / 16) + x.toNat % 16 = x.toNat by omega, UInt8.ofNat_toNat]
    simp [hexlify, unhexlify, ih, this]

theorem hexlify_inj {a b : Bytes} (h : hexlify a = hexlify b) : a = b := by
  have := congrArg unhexlify h
  rw [unhexlify_hexlify, unhexlify_hexlify] at this
  exact Option.some.inj this

theorem parseHex_eq (l : List ℕ) : parseHex l = ofBE 16 l := rfl

theorem num_foldl (b : Bytes) (a : ℕ) : (hexlify b).foldl (fun a d => a * 16 + d) a = b.foldl (fun a x => a * 256 + x.toNat) a := by
  induction b generalizing a with
  | nil => rfl
  | cons x b ih =>
    simp only [hexlify, List.foldl_cons]
    rw [ih]
    congr 1
    omega

theorem toLong_eq (b : Bytes) : toLong b = num b := num_foldl b 0

theorem num_snoc (b : Bytes) (x : UInt8) : num (b ++ [x]) = num b * 256 + x.toNat := by simp [num]

theorem num_be (k v : ℕ) (h : v < 256 ^ k) : num (be k v) = v := by
  rw [← toLong_eq, toLong, hexlify_be, parseHex_eq, ofBE_toBE]
  rw [pow_mul]; exact h

theorem num_lt (b : Bytes) : num b < 256 ^ b.length := by
  rw [← toLong_eq, toLong, parseHex_eq]
  have := ofBE_lt (hexlify b) (hexlify_lt b)
  rwa [hexlify_length, pow_mul] at this

theorem be_num (b : Bytes) : be b.length (num b) = b := by
  apply hexlify_inj
  rw [hexlify_be, ← toLong_eq, toLong, parseHex_eq, ← hexlify_length]
  exact toBE_ofBE (by omega) _ (hexlify_lt b)

theorem longToHex_num (b : Bytes) : longToHex (num b) (2 * b.length) = hexlify b := by
  rw [longToHex_be _ _ (num_lt b), be_num]

theorem longToHex_num' (b : Bytes) (k j : ℕ) (h : b.length = k) (hj : j = 2 * k) : longToHex (num b) j = hexlify b := by
  subst h; subst hj; exact longToHex_num b

theorem parseHex_toBE (k v : ℕ) (h : v < 16 ^ k) : parseHex (toBE 16 k v) = v := ofBE_toBE k v h

theorem hexlify_take (b : Bytes) (k : ℕ) : (hexlify b).take (2 * k) = hexlify (b.take k) := by
  induction b generalizing k with
  | nil => simp [hexlify]
  | cons x b ih =>
    cases k with
    | zero => rfl
    | succ k => rw [show 2 * (k + 1) = 2 * k + 1 + 1 by ring]; simp [hexlify, ih]

theorem charHex_hexChar (d : ℕ) (h : d < 16) : charHex (hexChar d) = some d := by
  have : ∀ d : Fin 16, charHex (hexChar d.val) = some d.val := by decide
  exact this ⟨d, h⟩

theorem unhexText_text (b : Bytes) : unhexText ((hexlify b).map hexChar) = some b := by
  have : ∀ l : List ℕ, (∀ d ∈ l, d < 16) → (l.map hexChar).mapM charHex = some l := by
    intro l hl
    induction l with
    | nil => rfl
    | cons d l ih =>
      rw [List.map_cons, List.mapM_cons, charHex_hexChar d (hl d (List.mem_cons_self ..)), ih (fun x hx => hl x (List.mem_cons_of_mem _ hx))]
      rfl
  rw [unhexText, this _ (hexlify_lt b)]
  exact unhexlify_hexlify b

end Verif.Hd
