import Verif.Props.OneTime

/-!
C114: the sub-addresses of a wallet are all different, and the table that a wallet or device looks them up in gives each its own index.
-/

namespace Verif.Key
open Verif Ed

/-- The string that is hashed for a sub-address: a fixed text, the secret view key and the two numbers in four bytes each. -/
def subText (a : ℤ) (i j : ℕ) : Bytes := [0x53, 0x75, 0x62, 0x41, 0x64, 0x64, 0x72, 0] ++ encodeInt a ++ le32 i ++ le32 j

/-- A coincidence of two sub-addresses: different strings with the same hash, or a string with hash 0 (the sub-address is then the main address). -/
def Coincide (H : Bytes → Bytes) (a : ℤ) (i j : ℕ) (a' : ℤ) (i' j' : ℕ) : Prop :=
  if i = 0 ∧ j = 0 then (bitSum (H (subText a' i' j')) 256 : ℤ) % l = 0
  else if i' = 0 ∧ j' = 0 then (bitSum (H (subText a i j)) 256 : ℤ) % l = 0
  else Collision H (subText a i j) (subText a' i' j')

theorem byte_eq {m n : ℕ} (h : UInt8.ofNat m = UInt8.ofNat n) : m % 256 = n % 256 := by
  have := congrArg UInt8.toNat h
  simpa using this

theorem le32_inj {m n : ℕ} (hm : m < 2 ^ 32) (hn : n < 2 ^ 32) (h : le32 m = le32 n) : m = n := by
  simp only [le32, List.cons.injEq, and_true] at h
  obtain ⟨h0, h1, h2, h3⟩ := h
  have := byte_eq h0
  have := byte_eq h1
  have := byte_eq h2
  have := byte_eq h3
  omega

theorem subText_inj {a a' : ℤ} (ha : 0 ≤ a ∧ a < l) (ha' : 0 ≤ a' ∧ a' < l) {i j i' j' : ℕ} (hi : i < 2 ^ 32) (hj : j < 2 ^ 32) (hi' : i' < 2 ^ 32)
    (hj' : j' < 2 ^ 32) (h : subText a i j = subText a' i' j') : a = a' ∧ i = i' ∧ j = j' := by
  unfold subText at h
  obtain ⟨h, h3⟩ := List.append_inj h (by simp [encodeInt, packBits_length, le32])
  obtain ⟨h, h2⟩ := List.append_inj h (by simp [encodeInt, packBits_length])
  obtain ⟨-, h1⟩ := List.append_inj h rfl
  refine ⟨?_, le32_inj hi hi' h2, le32_inj hj hj' h3⟩
  have e1 := bitSum_encodeInt a 256 (le_refl _)
  have e2 := bitSum_encodeInt a' 256 (le_refl _)
  rw [h1, e2] at e1
  have hl : l < 2 ^ 256 := by decide +kernel
  rw [Int.emod_eq_of_lt ha.1 (by omega), Int.emod_eq_of_lt ha'.1 (by omega)] at e1
  exact e1.symm

theorem subSpend_inv {H : Bytes → Bytes} {a : ℤ} {S D : Ext} {s : Point} (hS : Rep S s) {i j : ℕ} (h : subSpendPub H a S i j = some D) :
    (i = 0 ∧ j = 0 ∧ Rep D s) ∨ (¬(i = 0 ∧ j = 0) ∧ i < 2 ^ 32 ∧ j < 2 ^ 32 ∧ Rep D (s + hs H (subText a i j) • base)) := by
  unfold subSpendPub subSecret subSecretCore at h
  split at h
  · rename_i h0
    cases h
    exact Or.inl ⟨h0.1, h0.2, hS⟩
  · rename_i h0
    right
    split at h
    · rename_i hb
      simp only [Option.map_some, Option.some.injEq] at h
      subst h
      exact ⟨h0, hb.1, hb.2, rep_add hS (rep_B _)⟩
    · simp at h

theorem zero_of_smul {x : ℤ} (hx : 0 ≤ x ∧ x < l) (h : x • base = 0) : x = 0 :=
  scalar_unique hx ⟨le_refl _, by decide +kernel⟩ (by rw [h, zero_smul])

/-- C114: two sub-addresses with the same public spend key, of one wallet or of two wallets with the same main spend key and different view keys, are a
coincidence of the hash function. -/
theorem C114_distinct {H : Bytes → Bytes} {a a' : ℤ} (ha : 0 ≤ a ∧ a < l) (ha' : 0 ≤ a' ∧ a' < l) {S D D' : Ext} (hS : isOnCurve S = true)
    {i j i' j' : ℕ} (h : subSpendPub H a S i j = some D) (h' : subSpendPub H a' S i' j' = some D') (hne : (i, j) ≠ (i', j') ∨ a ≠ a')
    (hmain : ¬(i = 0 ∧ j = 0 ∧ i' = 0 ∧ j' = 0)) (hsame : encodePoint D = encodePoint D') : Coincide H a i j a' i' j' := by
  obtain ⟨s, hs⟩ := exists_of_onCurve hS
  unfold Coincide
  rcases subSpend_inv hs h with ⟨h1, h2, h3⟩ | ⟨h1, h2, h3, h4⟩ <;> rcases subSpend_inv hs h' with ⟨g1, g2, g3⟩ | ⟨g1, g2, g3, g4⟩
  · exact absurd ⟨h1, h2, g1, g2⟩ hmain
  · rw [if_pos ⟨h1, h2⟩]
    rw [encodePoint_rep h3, encodePoint_rep g4] at hsame
    have := encPt_injective hsame
    exact zero_of_smul (hs_range _ _) (left_eq_add.mp this)
  · rw [if_neg h1, if_pos ⟨g1, g2⟩]
    rw [encodePoint_rep h4, encodePoint_rep g3] at hsame
    have := encPt_injective hsame
    exact zero_of_smul (hs_range _ _) (add_eq_left.mp this)
  · rw [if_neg h1, if_neg g1]
    rw [encodePoint_rep h4, encodePoint_rep g4] at hsame
    refine ⟨fun hc => ?_, scalar_unique (hs_range _ _) (hs_range _ _) (add_left_cancel (encPt_injective hsame))⟩
    obtain ⟨e1, e2, e3⟩ := subText_inj ha ha' h2 h3 g2 g3 hc
    rcases hne with hne | hne
    · exact hne (by rw [e2, e3])
    · exact hne e1

/-- C114: after the sub-addresses with these indices were entered, looking up the spend key of one of them gives its own account and index, or it has a
coincidence with the one that is found. -/
theorem C114_table {H : Bytes → Bytes} {a : ℤ} (ha : 0 ≤ a ∧ a < l) {S : Ext} (hS : isOnCurve S = true) {account : ℕ} {indices : List ℕ}
    {t t' : Table} (ht : t.Valid H a S) (h : computeSubaddresses H a S account indices t = some t') {idx : ℕ} (hi : idx ∈ indices) :
    ∃ D i j, subSpendPub H a S account idx = some D ∧ t'.get (encodePoint D) = some (i, j) ∧
      ((i, j) = (account, idx) ∨ Coincide H a account idx a i j) := by
  obtain ⟨h1, -, h3⟩ := C38_table_valid H a S account indices t t' ht h
  obtain ⟨D, hD, hg⟩ := h3 idx hi
  obtain ⟨⟨i, j⟩, hx⟩ := Option.ne_none_iff_exists'.mp hg
  refine ⟨D, i, j, hD, hx, ?_⟩
  by_cases he : (i, j) = (account, idx)
  · exact Or.inl he
  · right
    obtain ⟨D', hD', he'⟩ := h1 _ _ hx
    refine C114_distinct ha ha hS hD hD' (Or.inl fun hc => he hc.symm) ?_ he'.symm
    rintro ⟨rfl, rfl, rfl, rfl⟩
    exact he rfl

/-! A hash that depends on the minor number: sub-addresses differ; under a constant hash they coincide and the table names the wrong one. -/

/-- The table of sub-addresses 1, 2 of account 0, and what it says of the first. -/
def demoLookup (h : UInt8 → UInt8) : Option (Option (ℕ × ℕ)) :=
  let H : Bytes → Bytes := fun b => h (b.getD 44 0) :: List.replicate 31 0
  (computeSubaddresses H 2 (scalarmultB 3) 0 [1, 2] []).bind fun t => (subSpendPub H 2 (scalarmultB 3) 0 1).map fun D => t.get (encodePoint D)

example : demoLookup (fun b => b + 1) = some (some (0, 1)) ∧ demoLookup (fun _ => 1) = some (some (0, 2)) := by decide +kernel

end Verif.Key
