import Verif.Model.EdDsa
import Verif.Spec.EdDsa
import Verif.Lemmas.EdBack
import Verif.Lemmas.Key

namespace Verif.EdDsa
open Verif Verif.Ed

theorem bitSum_add (s : Bytes) (n k : ℕ) : bitSum s (n + k) = bitSum s n + ((List.range' n k).map fun i => 2 ^ i * bit s i).sum := by
  unfold bitSum
  rw [List.range_eq_range', List.range_eq_range', ← List.range'_append_1, List.map_append, List.sum_append, Nat.zero_add]

theorem tail_dvd (s : Bytes) (n k : ℕ) : 2 ^ n ∣ ((List.range' n k).map fun i => 2 ^ i * bit s i).sum := by
  apply List.dvd_sum
  intro x hx
  obtain ⟨i, hi, rfl⟩ := List.mem_map.mp hx
  have : n ≤ i := (List.mem_range'_1.mp hi).1
  exact Dvd.dvd.mul_right (pow_dvd_pow 2 this) _

theorem bitSum_mod (s : Bytes) (n k : ℕ) : bitSum s (n + k) % 2 ^ n = bitSum s n := by
  obtain ⟨c, hc⟩ := tail_dvd s n k
  rw [bitSum_add, hc, Nat.add_mul_mod_self_left, Nat.mod_eq_of_lt (bitSum_lt s n)]

theorem bit_take (h : Bytes) (n i : ℕ) (hi : i < 8 * n) : bit (h.take n) i = bit h i := by
  unfold bit
  have : (h.take n).getD (i / 8) 0 = h.getD (i / 8) 0 := by
    rw [List.getD, List.getD, List.getElem?_take, if_pos (by omega)]
  rw [this]

theorem bitSum_take (h : Bytes) (n k : ℕ) (hk : k ≤ 8 * n) : bitSum (h.take n) k = bitSum h k := by
  unfold bitSum
  exact sum_map_congr k fun i hi => by rw [bit_take _ _ _ (by omega)]

theorem secret_eq {h : Bytes} (hl : 32 ≤ h.length) : secret h = Spec.scalar h := by
  have h1 : bitSum h 254 = bitSum h 3 + ((List.range' 3 251).map fun i => 2 ^ i * bit h i).sum := bitSum_add h 3 251
  have h2 := bitSum_lt h 3
  obtain ⟨c, hc⟩ := tail_dvd h 3 251
  have h3 : bitSum h 254 = Key.number (h.take 32) % 2 ^ 254 := by
    have e1 := bitSum_mod (h.take 32) 254 2
    have e2 := bitSum_take h 32 254 (by norm_num)
    have e3 : bitSum (h.take 32) 256 = Key.number (h.take 32) := Key.bitSum_256 (by simp; omega)
    rw [← e2, ← e1, ← e3]
  rw [secret, Spec.scalar, ← h3, h1, hc]
  generalize bitSum h 3 = a at *
  omega

theorem hint_eq (H : Bytes → Bytes) (hH : ∀ m, (H m).length = 64) (m : Bytes) : hint H m = Key.number (H m) := by
  rw [hint, ← Key.bitSum_number, hH]

theorem smul_base_mod (a : ℤ) : (a % l) • base = a • base := Key.mod_smul l_base a

/-- The equation, in the group. -/
theorem check_iff_group (H : Bytes → Bytes) (s m pk : Bytes) :
    check H s m pk = some () ↔ s.length = 64 ∧ pk.length = 32 ∧ ∃ (R A : Ext) (r a : Point), Ed.decodePoint (s.take 32) = some R ∧
      Ed.decodePoint pk = some A ∧ Rep R r ∧ Rep A a ∧ bitSum (s.drop 32) 256 • base = r + hint H (encPt r ++ pk ++ m) • a := by
  rw [check]
  by_cases h1 : s.length = 64
  swap
  · rw [if_pos h1]
    exact ⟨fun h => absurd h (by simp), fun h => absurd h.1 h1⟩
  rw [if_neg (by simpa using h1)]
  by_cases h2 : pk.length = 32
  swap
  · rw [if_pos h2]
    exact ⟨fun h => absurd h (by simp), fun h => absurd h.2.1 h2⟩
  rw [if_neg (by simpa using h2)]
  have e0 : (s.drop 32).take 32 = s.drop 32 := List.take_of_length_le (by simp; omega)
  have e1 : decodeInt ((s.drop 32).take 32) = some (bitSum (s.drop 32) 256) := by
    rw [e0, decodeInt, if_neg (by simp; omega)]
  rw [e1]
  generalize bitSum (s.drop 32) 256 = S
  cases hR : Ed.decodePoint (s.take 32) with
  | none => simp
  | some R =>
    cases hA : Ed.decodePoint pk with
    | none => simp
    | some A =>
      obtain ⟨r, hr⟩ := decodePoint_rep hR
      obtain ⟨a, ha⟩ := decodePoint_rep hA
      dsimp only
      rw [encodePoint_rep hr]
      generalize hk : hint H (encPt r ++ pk ++ m) = k
      have hP := rep_scalarmultB S
      have hQ := rep_add hr (Ed.rep_smul ha k)
      have cP : Ed.isOnCurve (scalarmultB S) = true := (isOnCurve_iff _).mpr ⟨_, hP⟩
      have cQ : Ed.isOnCurve (Ed.add R (Ed.scalarmult A k)) = true := (isOnCurve_iff _).mpr ⟨_, hQ⟩
      have he := pointEqual_iff hP hQ
      rw [pointEqual] at he
      rw [cP, cQ]
      generalize scalarmultB S = P at *
      generalize Ed.add R (Ed.scalarmult A k) = Q at *
      have key : (if !true || !true || (P.x * Q.z - Q.x * P.z) % q ≠ 0 || (P.y * Q.z - Q.y * P.z) % q ≠ 0 then none else some ()) = some () ↔
          S • base = r + k • a := by
        rw [← he]
        by_cases c1 : (P.x * Q.z - Q.x * P.z) % q = 0
        · by_cases c2 : (P.y * Q.z - Q.y * P.z) % q = 0
          · simp [c1, c2]
          · simp [c1, c2]
        · simp [c1]
      rw [key]
      constructor
      · intro h
        refine ⟨h1, h2, R, A, r, a, ?_, ?_, hr, ha, ?_⟩
        · exact Eq.refl (some R)
        · exact Eq.refl (some A)
        · rw [hk]; exact h
      · rintro ⟨-, -, R', A', r', a', hR', hA', hr', ha', h⟩
        have hR2 := Option.some.inj hR'
        have hA2 := Option.some.inj hA'
        subst hR2
        subst hA2
        have er := rep_unique hr hr'
        have ea := rep_unique ha ha'
        subst er
        subst ea
        rw [hk] at h
        exact h

end Verif.EdDsa
