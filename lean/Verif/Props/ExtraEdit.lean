import Verif.Lemmas.ExtraEdit

/-! C106: editing the extra field changes the fields asked for and no others. -/

namespace Verif.ExtraEdit
open Verif Ed Key

/-- C106: adding the transaction key. -/
theorem C106_add_key (extra : Bytes) (fs : List Field) (P : Ext) (h : Holds extra fs) : Holds (addPubKey extra P) (fs ++ [.pubKey (encodePoint P)]) := by
  have hl : (encodePoint P).length = 32 := by rw [encodePoint, packBits_length]
  exact holds_iff.mpr (reads_append (holds_iff.mp h) (reads_one (readField_write (.pubKey (encodePoint P)) hl)))

/-- C106: adding the additional keys, given as points. -/
theorem C106_add_points (extra : Bytes) (fs : List Field) (Ps : List Ext) (h : Holds extra fs) :
    Holds (addAdditional extra Ps none) (fs ++ [.additional (Ps.map encodePoint)]) := by
  refine holds_iff.mpr (reads_append (holds_iff.mp h) (reads_one (readField_write (.additional (Ps.map encodePoint)) ?_)))
  intro k hk
  obtain ⟨P, -, rfl⟩ := List.mem_map.mp hk
  rw [encodePoint, packBits_length]

/-- C106: adding the additional keys, given encoded. -/
theorem C106_add_encoded (extra : Bytes) (fs : List Field) (Ps : List Ext) (ks : List Bytes) (hne : ks ≠ []) (hk : ∀ k ∈ ks, k.length = 32)
    (h : Holds extra fs) : Holds (addAdditional extra Ps (some ks)) (fs ++ [.additional ks]) := by
  cases ks with
  | nil => exact absurd rfl hne
  | cons k ks => exact holds_iff.mpr (reads_append (holds_iff.mp h) (reads_one (readField_write (.additional (k :: ks)) hk)))

/-- C106: adding a nonce of at most 127 bytes. -/
theorem C106_add_nonce_partial (extra : Bytes) (fs : List Field) (n : Bytes) (hn : n.length ≤ 127) (h : Holds extra fs) :
    ∃ e, addNonce extra n = some e ∧ Holds e (fs ++ [.nonce n]) := by
  refine ⟨_, by rw [addNonce, if_neg (by omega)], holds_iff.mpr (reads_append (holds_iff.mp h) (reads_one ?_))⟩
  have := readField_nonce n [] (by omega)
  rwa [List.append_nil] at this

/-- C106 fails: nonces of 128 to 255 bytes are accepted; if they consist of bytes from 128 the extra field can no longer be read at all. -/
theorem C106_false_nonce (extra : Bytes) (fs : List Field) (n : Bytes) (h1 : 128 ≤ n.length) (h2 : n.length ≤ 255) (hb : ∀ x ∈ n, 128 ≤ x.toNat)
    (h : Holds extra fs) : ∃ e, addNonce extra n = some e ∧ ∀ gs, ¬ Holds e gs := by
  refine ⟨_, by rw [addNonce, if_neg (by omega)], fun gs hg => ?_⟩
  obtain ⟨hs, hr⟩ := reads_split (holds_iff.mp h) (holds_iff.mp hg)
  have hload : Varint.load (UInt8.ofNat n.length :: n) = none := by
    refine load_endless _ _ _ ?_
    intro x hx
    rcases List.mem_cons.mp hx with rfl | hx
    · simp [UInt8.toNat_ofNat']; omega
    · exact hb x hx
  cases hr with
  | cons h3 _ =>
    rw [List.append_assoc, List.singleton_append, List.singleton_append, readField, if_neg (by decide), if_pos rfl, hload] at h3
    cases h3

/-- C106: longer nonces are refused. -/
theorem C106_nonce_limit (extra n : Bytes) : addNonce extra n = none ↔ 255 < n.length := by
  rw [addNonce]; split <;> simp_all

/-- C106: removing the fields of a kind leaves the others, in order. -/
theorem C106_remove (extra : Bytes) (fs : List Field) (kind : Kind) (h : Holds extra fs) :
    ∃ e, removeField extra kind = some e ∧ Holds e (fs.filter fun f => !isKind kind f) := by
  obtain ⟨r, h1, h2⟩ := removeLoop_spec kind (holds_iff.mp h) extra.length [] [] (le_refl _) .nil
  rw [List.nil_append] at h2
  by_cases he : extra.length = 0
  · have : extra = [] := List.length_eq_zero_iff.mp he
    subst this
    cases h1
    exact ⟨[], rfl, holds_iff.mpr h2⟩
  · exact ⟨r, by rw [removeField, if_neg he, h1], holds_iff.mpr h2⟩

/-- C106: nothing is removed from bytes that are not an extra field. -/
theorem C106_remove_bad (extra : Bytes) (kind : Kind) (h : ∀ fs, ¬ Holds extra fs) : removeField extra kind = none := by
  rw [removeField, if_neg]
  · by_contra hc
    obtain ⟨r, hr⟩ := Option.ne_none_iff_exists'.mp hc
    obtain ⟨fs, h1⟩ := parse_of_remove kind _ _ _ _ hr
    exact h fs (holds_iff.mpr h1)
  · intro he
    have : extra = [] := List.length_eq_zero_iff.mp he
    subst this
    exact h [] rfl

/-- C106: a search gives the field of the kind asked for with this number. -/
theorem C106_find (fs : List Field) (kind : Kind) (idx : Nat) : findField fs kind idx = (fs.filter (isKind kind))[idx]? :=
  findLoop_spec kind idx fs 0 (Nat.zero_le _)

/-- C106: a payment id put into a nonce is found again under the same kind and not under the other. -/
theorem C106_payment_id (pid : Bytes) :
    (pid.length = 32 → hasLong (setLong pid) = true ∧ hasShort (setLong pid) = false ∧ nonceLong (setLong pid) = some pid ∧ nonceShort (setLong pid) = none) ∧
    (pid.length = 8 → hasShort (setShort pid) = true ∧ hasLong (setShort pid) = false ∧ nonceShort (setShort pid) = some pid ∧ nonceLong (setShort pid) = none) := by
  constructor <;> intro h <;> simp [hasLong, hasShort, setLong, setShort, nonceLong, nonceShort, h]

/-- C106: a payment id is read exactly from the nonces that announce one, and no nonce announces both. -/
theorem C106_announced (n : Bytes) :
    ((nonceLong n).isSome = hasLong n) ∧ ((nonceShort n).isSome = hasShort n) ∧ ¬ (hasLong n = true ∧ hasShort n = true) := by
  refine ⟨?_, ?_, ?_⟩
  · by_cases h1 : n.length = 33
    · rw [nonceLong, hasLong, h1, if_neg (by simp)]
      by_cases h2 : n[0]? = some 0
      · rw [if_neg (by simpa using h2), h2]; rfl
      · rw [if_pos h2]; simp only [Option.isSome_none, beq_self_eq_true, Bool.true_and]; exact (beq_eq_false_iff_ne.mpr h2).symm
    · simp [nonceLong, hasLong, h1, Ne.symm h1]
  · by_cases h1 : n.length = 9
    · rw [nonceShort, hasShort, h1, if_neg (by simp)]
      by_cases h2 : n[0]? = some 1
      · rw [if_neg (by simpa using h2), h2]; rfl
      · rw [if_pos h2]; simp only [Option.isSome_none, beq_self_eq_true, Bool.true_and]; exact (beq_eq_false_iff_ne.mpr h2).symm
    · simp [nonceShort, hasShort, h1, Ne.symm h1]
  · rintro ⟨h1, h2⟩
    simp [hasLong] at h1
    simp [hasShort] at h2
    omega

/-- A nonce with a payment id, a key and two additional keys. -/
def demo : Bytes := [2, 9, 1, 1, 2, 3, 4, 5, 6, 7, 8] ++ (1 :: List.replicate 32 7) ++ (4 :: 2 :: List.replicate 64 9)

/-- Non-vacuity. -/
example : Holds demo [.nonce [1, 1, 2, 3, 4, 5, 6, 7, 8], .pubKey (List.replicate 32 7), .additional [List.replicate 32 9, List.replicate 32 9]] := by
  unfold Holds; decide +kernel

example : removeField demo .additional = some ([2, 9, 1, 1, 2, 3, 4, 5, 6, 7, 8] ++ (1 :: List.replicate 32 7)) := by decide +kernel

example : ∃ n : Bytes, 128 ≤ n.length ∧ n.length ≤ 255 ∧ ∀ x ∈ n, 128 ≤ x.toNat := ⟨List.replicate 128 200, by decide +kernel, by decide +kernel, by decide +kernel⟩

end Verif.ExtraEdit
