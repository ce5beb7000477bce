import Verif.Props.Keys
import Verif.Props.CurveCodec
import Verif.Lemmas.Amounts

/-! C37: hidden amounts. -/

namespace Verif.Key
open Verif Ed Edwards

theorem commitment_check {mask amount : ℤ} (h0 : 0 ≤ amount) (h1 : amount < l) :
    ∃ C, decodePoint (encodePoint (genC mask amount)) = some C ∧ pointEq (addKeys2 mask amount hPt) C = some true := by
  obtain ⟨h, hh⟩ := rep_hPt
  have hr : Rep (addKeys2 mask amount hPt) (mask • base + amount • h) := rep_add (rep_B mask) (rep_smul hh h0)
  have he : genC mask amount = addKeys2 mask amount hPt := by rw [genC, addKeys2, Int.emod_eq_of_lt h0 h1]
  refine ⟨canon (mask • base + amount • h), by rw [he, encodePoint_rep hr, decode_encPt], ?_⟩
  rw [pointEq, if_pos (show isOnCurve _ = true from rep_on hr), (pointEqual_iff hr (rep_canon _)).mpr rfl]

/-- C37, first encoding. Amount and mask hidden by the signer under the amount key `sk`, serialized, parsed by the host and decoded
with the same key come back, and the commitment of the output opens. -/
theorem C37_amount_v1 (H : Bytes → Bytes) (mask amount sk : ℤ) (hm : 0 ≤ mask ∧ mask < l) (ha : 0 ≤ amount ∧ amount < 2 ^ 64) :
    ∃ e e', ecdhEncode H mask amount (encodeInt sk) false = some e ∧ ecdhParse (ecdhSerialize e false) true = some e' ∧
      ecdhDecodeSimple H e' (encodePoint (genC mask amount)) sk false = some (amount, mask) := by
  have hl64 : (2 : ℤ) ^ 64 < l := by decide +kernel
  have hal : amount < l := lt_trans ha.2 hl64
  have hmod : amount % l = amount := Int.emod_eq_of_lt ha.1 hal
  have henc : ecdhEncode H mask amount (encodeInt sk) false = some (encodeInt (scAdd mask (hs H (encodeInt sk))),
      encodeInt (scAdd amount (hs H (encodeInt (hs H (encodeInt sk)))))) := by
    rw [ecdhEncode, if_neg (by omega), if_neg (by simp), hmod]
  have hlen : ∀ n, (encodeInt n).length = 32 := encodeInt_length
  refine ⟨_, (encodeInt (scAdd mask (hs H (encodeInt sk))), encodeInt (scAdd amount (hs H (encodeInt (hs H (encodeInt sk)))))), henc, ?_, ?_⟩
  · rw [ecdhSerialize, if_neg (by simp), ecdhParse, if_pos rfl, if_neg (by simp [hlen])]
    simp [hlen, List.take_of_length_le, List.drop_of_length_le]
  · have hr : ∀ n, decodeScalar (encodeInt (n % l)) = some (n % l) := fun n =>
      C35_scalar_roundtrip _ (emod_l_range n).1 (emod_l_range n).2
    have hdec : ecdhDecode H (encodeInt (scAdd mask (hs H (encodeInt sk))), encodeInt (scAdd amount (hs H (encodeInt (hs H (encodeInt sk))))))
        (encodeInt sk) false = some (mask, amount) := by
      simp only [ecdhDecode]
      rw [show scAdd mask (hs H (encodeInt sk)) = (mask + hs H (encodeInt sk)) % l from rfl,
        show scAdd amount (hs H (encodeInt (hs H (encodeInt sk)))) = (amount + hs H (encodeInt (hs H (encodeInt sk)))) % l from rfl, hr, hr]
      dsimp only
      rw [if_neg (by simp)]
      congr 2
      · exact sub_add_cancel_l hm.1 hm.2
      · exact sub_add_cancel_l ha.1 hal
    obtain ⟨C, hC, hCe⟩ := commitment_check (mask := mask) ha.1 hal
    rw [ecdhDecodeSimple, hdec]
    dsimp only
    rw [hC]
    dsimp only
    rw [hCe]

/-- C37, second encoding: the amount is masked to eight bytes, the mask is the one derived from the amount key. -/
theorem C37_amount_v2 (H : Bytes → Bytes) (hH : ∀ d, (H d).length = 32) (amount sk : ℤ) (ha : 0 ≤ amount ∧ amount < 2 ^ 64) :
    ∃ e e', ecdhEncode H (commitmentMask H (encodeInt sk)) amount (encodeInt sk) true = some e ∧
      (ecdhSerialize e true).length = 8 ∧ ecdhParse (ecdhSerialize e true) false = some e' ∧
      ecdhDecodeSimple H e' (encodePoint (genC (commitmentMask H (encodeInt sk)) amount)) sk true =
        some (amount, commitmentMask H (encodeInt sk)) := by
  have hl64 : (2 : ℤ) ^ 64 < l := by decide +kernel
  have hal : amount < l := lt_trans ha.2 hl64
  have hmod : amount % l = amount := Int.emod_eq_of_lt ha.1 hal
  have hk : 8 ≤ (ecdhHash H (encodeInt sk)).length := by rw [ecdhHash, hH]; omega
  have henc : ecdhEncode H (commitmentMask H (encodeInt sk)) amount (encodeInt sk) true =
      some (List.replicate 32 0, xor8 (encodeInt amount) (ecdhHash H (encodeInt sk))) := by
    rw [ecdhEncode, if_neg (by omega), if_pos rfl, hmod]
  have hxl : (xor8 (encodeInt amount) (ecdhHash H (encodeInt sk))).length = 32 := by rw [xor8_length _ _ hk, encodeInt_length]
  have hxd : (xor8 (encodeInt amount) (ecdhHash H (encodeInt sk))).drop 8 = List.replicate 24 0 := by
    rw [xor8_drop _ _ hk (by rw [encodeInt_length]; omega), encodeInt_small amount ha.1 ha.2]
  refine ⟨_, (List.replicate 32 0, xor8 (encodeInt amount) (ecdhHash H (encodeInt sk))), henc, ?_, ?_, ?_⟩
  · simp [ecdhSerialize, hxl]
  · rw [ecdhSerialize, if_pos rfl, ecdhParse, if_neg (by simp)]
    have : (List.replicate 32 (0 : UInt8)).drop 8 = (xor8 (encodeInt amount) (ecdhHash H (encodeInt sk))).drop 8 := by rw [hxd]; rfl
    rw [this, List.take_append_drop]
  · obtain ⟨v, -, -, hv, hve⟩ := small_value _ hxl hxd
    have hz : decodeScalar (List.replicate 32 0) = some 0 := by decide +kernel
    have hdec : ecdhDecode H (List.replicate 32 0, xor8 (encodeInt amount) (ecdhHash H (encodeInt sk))) (encodeInt sk) true =
        some (commitmentMask H (encodeInt sk), amount) := by
      simp only [ecdhDecode]
      rw [hz, hv]
      dsimp only
      rw [if_pos trivial, hve, xor8_invol _ _ hk, C35_scalar_roundtrip amount ha.1 hal]
      rfl
    obtain ⟨C, hC, hCe⟩ := commitment_check (mask := commitmentMask H (encodeInt sk)) ha.1 hal
    rw [ecdhDecodeSimple, hdec]
    dsimp only
    rw [hC]
    dsimp only
    rw [hCe]

/-- C37. Amounts of more than 64 bits are refused by the signer. -/
theorem C37_large_refused (H : Bytes → Bytes) (mask amount : ℤ) (key : Bytes) (v2 : Bool) (h : 2 ^ 64 ≤ amount) :
    ecdhEncode H mask amount key v2 = none := by rw [ecdhEncode, if_pos h]

/-- C37. Whatever bytes arrive: an amount and mask returned by the decoder open the commitment published with the output. -/
theorem C37_decoded_opens (H : Bytes → Bytes) (e : Bytes × Bytes) (comm : Bytes) (sk amount mask : ℤ) (v2 : Bool)
    (h : ecdhDecodeSimple H e comm sk v2 = some (amount, mask)) :
    ∃ C, decodePoint comm = some C ∧ (0 ≤ amount ∧ amount < l) ∧ (0 ≤ mask ∧ mask < l) ∧ pointEqual (genC mask amount) C = true := by
  unfold ecdhDecodeSimple at h
  split at h
  · simp at h
  rename_i m am hd
  split at h
  · simp at h
  rename_i C hC
  split at h
  · rename_i hp
    obtain ⟨rfl, rfl⟩ : am = amount ∧ m = mask := by simpa using h
    have hr : (0 ≤ am ∧ am < l) ∧ 0 ≤ m ∧ m < l := by
      unfold ecdhDecode at hd
      split at hd
      · split at hd
        · obtain ⟨a', ha', he⟩ := Option.map_eq_some_iff.mp hd
          simp only [Prod.mk.injEq] at he
          obtain ⟨rfl, rfl⟩ := he
          exact ⟨C35_scalar_range _ _ ha', hs_range _ _⟩
        · dsimp only at hd
          rw [Option.some.injEq, Prod.mk.injEq] at hd
          obtain ⟨rfl, rfl⟩ := hd
          exact ⟨emod_l_range _, emod_l_range _⟩
      · simp at hd
    refine ⟨C, hC, hr.1, hr.2, ?_⟩
    rw [pointEq] at hp
    split at hp
    · rw [genC, Int.emod_eq_of_lt hr.1.1 hr.1.2]
      simpa [addKeys2] using hp
    · simp at hp
  · simp at h

example : (∀ d, (demoH d).length = 32) ∧ ecdhDecodeSimple demoH (List.replicate 32 0, xor8 (encodeInt 1000) (ecdhHash demoH (encodeInt 77)))
    (encodePoint (genC (commitmentMask demoH (encodeInt 77)) 1000)) 77 true = some (1000, commitmentMask demoH (encodeInt 77)) :=
  ⟨fun d => by simp [demoH], by decide +kernel⟩
example : ecdhEncode demoH (l - 1) (2 ^ 64 - 1) (encodeInt 77) false ≠ none := by decide +kernel

end Verif.Key
