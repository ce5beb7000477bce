import Verif.Props.Amounts
import Verif.Lemmas.Extra

/-! C36: payment ids and the extra field. -/

namespace Verif.Key
open Verif Ed Edwards

/-- C36. The extra field of every transaction parses, consumes all bytes, and yields: the nonce if there is a payment id, the transaction
public key, and the additional public keys in the order of the outputs if they are needed. -/
theorem C36_extra_parses (H : Bytes → Bytes) (hH : ∀ d, (H d).length = 32) (pid ex : Bytes) (r : ℤ) (dsts : List Dst)
    (change : Option (Bytes × Bytes)) (h : processPaymentId H pid r dsts change = some ex) (k : TxKeys) (adds : List Bytes)
    (hadds : ∀ a ∈ adds, a.length = 32) :
    ∃ nonce : List Field, parseExtra (txExtra ex k adds).length (txExtra ex k adds) =
        some (nonce ++ [.pubKey (encodePoint k.rPub)] ++ if k.needAdditional then [.additional adds] else []) ∧
      (pid = [] → nonce = []) ∧
      (pid.length = 32 → ∃ n, nonce = [.nonce n] ∧ nonceLong n = some pid) ∧
      (pid.length = 8 → ∃ n V e, nonce = [.nonce n] ∧ nonceShort n = some e ∧ nonceLong n = none ∧
        decodePoint (destView dsts change) = some V ∧ encryptPaymentId H pid V r = some e) := by
  have hkl : (encodePoint k.rPub).length = 32 := by rw [encodePoint, packBits_length]
  -- the part after the nonce
  have htail : ∀ fuel, 2 ≤ fuel → parseExtra fuel (1 :: (encodePoint k.rPub ++
      if k.needAdditional then 4 :: (Varint.dumpNat adds.length ++ (adds.flatten ++ [])) else [])) =
      some (Field.pubKey (encodePoint k.rPub) :: if k.needAdditional then [.additional adds] else []) := by
    intro fuel hf
    obtain ⟨f, rfl⟩ : ∃ f, fuel = f + 2 := ⟨fuel - 2, by omega⟩
    rw [parse_step, readField_key _ _ hkl]
    dsimp only
    split
    · rw [parse_step, readField_additional adds hadds]
      dsimp only
      rw [parseExtra]; rfl
    · rw [parseExtra]; rfl
  have hx : txExtra ex k adds = ex ++ (1 :: (encodePoint k.rPub ++
      if k.needAdditional then 4 :: (Varint.dumpNat adds.length ++ (adds.flatten ++ [])) else [])) := by
    unfold txExtra
    dsimp only
    split <;> simp
  have hlen : 3 ≤ (1 :: (encodePoint k.rPub ++
      if k.needAdditional then 4 :: (Varint.dumpNat adds.length ++ (adds.flatten ++ [])) else [])).length := by
    simp only [List.length_cons, List.length_append]; omega
  have hnonce : ∀ (n : Bytes), n.length < 128 → ex = 2 :: UInt8.ofNat n.length :: n →
      parseExtra (txExtra ex k adds).length (txExtra ex k adds) =
        some ([.nonce n] ++ [.pubKey (encodePoint k.rPub)] ++ if k.needAdditional then [.additional adds] else []) := by
    intro n hn he
    rw [hx, he]
    generalize hT : (1 :: (encodePoint k.rPub ++
      if k.needAdditional then 4 :: (Varint.dumpNat adds.length ++ (adds.flatten ++ [])) else [])) = T at *
    rw [List.cons_append, List.cons_append, List.length_cons, parse_step, readField_nonce n T hn]
    dsimp only
    rw [htail _ (by simp only [List.length_cons, List.length_append]; omega)]
    rfl
  rcases process_shape H hH pid ex r dsts change h with ⟨h0, rfl⟩ | ⟨h32, he⟩ | ⟨h8, V, e, -, hV, he', hel, he⟩
  · refine ⟨[], ?_, fun _ => rfl, fun hc => by simp [h0] at hc, fun hc => by simp [h0] at hc⟩
    rw [hx, List.nil_append, htail _ (by omega)]
    rfl
  · refine ⟨[.nonce (0 :: pid)], hnonce _ (by simp [h32]) he, fun hc => by simp [hc] at h32, fun _ => ⟨_, rfl, ?_⟩, fun hc => by omega⟩
    simp [nonceLong, h32]
  · refine ⟨[.nonce (1 :: e)], hnonce _ (by simp [hel]) he, fun hc => by simp [hc] at h8, fun hc => by omega, fun _ => ⟨_, V, e, rfl, ?_, ?_, hV, he'⟩⟩
    · simp [nonceShort, hel]
    · simp [nonceLong, hel]

/-- C36. A short payment id is recovered by the recipient: extra holds the encrypted id and the transaction key, and decrypting with the
recipient's private view key returns the id. The recipient's address is the main address or a sub-address, marked as such; all amounts
except change are positive and no destination has the all-zero address. (The program encrypts only if there is one recipient.) -/
theorem C36_payment_id_recovered_partial (H : Bytes → Bytes) (hH : ∀ d, (H d).length = 32)
    (a : ℤ) (ha : 0 < a ∧ a < l) (S : Ext) (hS : isOnCurve S = true) (i j : ℕ) (D C : Ext) (haddr : subAddressKeys H a S i j = some (D, C))
    (r : ℤ) (hr : 0 ≤ r ∧ r < l) (dsts : List Dst) (change : Option (Bytes × Bytes)) (d : Dst) (hd : d ∈ dsts)
    (hda : d.spend = encodePoint D ∧ d.view = encodePoint C) (hdc : change ≠ some d.addr) (hflag : d.isSub = true ↔ ¬(i = 0 ∧ j = 0))
    (hsame : ∀ e ∈ dsts, e.addr = d.addr → e.isSub = d.isSub) (hpos : ∀ e ∈ dsts, change ≠ some e.addr → e.amount ≠ 0)
    (hnull : ∀ e ∈ dsts, e.addr ≠ (nullKey, nullKey))
    (pid ex : Bytes) (hp : pid.length = 8) (hex : processPaymentId H pid r dsts change = some ex) (k : TxKeys)
    (hk : txKeys r dsts change = some k) (adds : List Bytes) (hadds : ∀ a ∈ adds, a.length = 32) :
    ∃ (n e : Bytes) (R : Ext), parseExtra (txExtra ex k adds).length (txExtra ex k adds) = some [.nonce n, .pubKey (encodePoint k.rPub)] ∧
      nonceShort n = some e ∧ decodePoint (encodePoint k.rPub) = some R ∧ encryptPaymentId H e R a = some pid := by
  obtain ⟨s, hSr⟩ := (isOnCurve_iff S).mp hS
  obtain ⟨-, pd, hDr, hCr⟩ := subKeys_eq (le_of_lt ha.1) hSr haddr
  obtain ⟨nonce, hparse, -, -, h8⟩ := C36_extra_parses H hH pid ex r dsts change hex k adds hadds
  obtain ⟨n, V, e, rfl, hn, -, hV, he⟩ := h8 hp
  have hnn : destView dsts change ≠ nullKey := by
    rcases process_shape H hH pid ex r dsts change hex with ⟨h0, -⟩ | ⟨h0, -⟩ | ⟨-, _, _, h0, -⟩
    · simp [h0] at hp
    · omega
    · exact h0
  obtain ⟨ad, hview, -, hall⟩ := (destView_unique change dsts (nullKey, nullKey) 0 hpos hnn).2 rfl rfl
  change destView dsts change = ad.2 at hview
  obtain rfl := hall d hd hdc (hnull d hd)
  have hcl := classify_single change d hdc dsts hd fun e he hce =>
    ⟨hall e he hce (hnull e he), hsame e he (hall e he hce (hnull e he))⟩
  obtain ⟨-, hkn, -, hkone, hkoth⟩ := txKeys_inv hr.1 hk
  have hneed : k.needAdditional = false := by
    rw [hcl] at hkn
    cases hc : k.needAdditional with
    | false => rfl
    | true =>
      have := hkn.mp hc
      split at this <;> simp at this
  -- the encrypted id
  have hr0 : 0 < r := by
    obtain ⟨dv, hdv, -⟩ := Option.map_eq_some_iff.mp he
    exact (keyDerivation_inv hdv).1
  rw [hview, show d.addr.2 = d.view from rfl, hda.2] at hV
  -- the transaction key
  obtain ⟨v, pr, hVr, hRr, hsecret⟩ : ∃ v pr : Point, Rep V v ∧ Rep k.rPub pr ∧ (8 : ℤ) • r • v = (8 : ℤ) • a • pr := by
    cases hds : d.isSub with
    | false =>
      have h00 : i = 0 ∧ j = 0 := by
        by_contra hc
        have := hflag.mpr hc
        rw [hds] at this
        simp at this
      rw [if_pos h00] at hCr
      rw [encodePoint_rep hCr, decode_encPt] at hV
      cases hV
      have hrp := hkoth (by rw [hcl, hds]; simp)
      exact ⟨_, r • base, rep_canon _, by rw [hrp]; exact rep_B r, by rw [smul_comm r a base]⟩
    | true =>
      rw [if_neg (hflag.mp hds)] at hCr
      rw [encodePoint_rep hCr, decode_encPt] at hV
      cases hV
      obtain ⟨ad', D2, had2, hD2, hrp⟩ := hkone (by rw [hcl, hds]; simp)
      rw [hcl, hds, if_pos rfl] at had2
      cases had2
      rw [show d.addr.1 = d.spend from rfl, hda.1, encodePoint_rep hDr, decode_encPt] at hD2
      cases hD2
      exact ⟨_, r • pd, rep_canon _, by rw [hrp]; exact rep_smul (rep_canon pd) hr.1, by rw [smul_comm r a pd]⟩
  rw [encrypt_rep H pid hVr hr0 hr.2] at he
  cases he
  refine ⟨n, _, canon pr, ?_, hn, by rw [encodePoint_rep hRr, decode_encPt], ?_⟩
  · rw [hparse, hneed]; rfl
  · rw [encrypt_rep H _ (rep_canon pr) ha.1 ha.2, hsecret, xor8_invol _ _ (by rw [hH]; omega)]

/-- C36 fails in one case: the payment goes to a sub-address, the view key is found although there is another destination because that one
has amount zero, and then the transaction key is not the one the encryption assumes. The recipient decrypts something else. -/
theorem C36_false_zero_amount : ∃ (dsts : List Dst) (pid : Bytes) (x : Bytes), pid.length = 8 ∧
    demoPid dsts pid = some x ∧ x ≠ pid :=
  ⟨[demoDst 1 1 3, demoDst 0 0 0], [1, 2, 3, 4, 5, 6, 7, 8], (demoPid [demoDst 1 1 3, demoDst 0 0 0] [1, 2, 3, 4, 5, 6, 7, 8]).getD [],
    rfl, by decide +kernel, by decide +kernel⟩

example : demoPid [demoDst 1 1 3] [1, 2, 3, 4, 5, 6, 7, 8] = some [1, 2, 3, 4, 5, 6, 7, 8] ∧
    demoPid [demoDst 0 0 3] [1, 2, 3, 4, 5, 6, 7, 8] = some [1, 2, 3, 4, 5, 6, 7, 8] ∧
    destView [demoDst 1 1 3] none = (demoDst 1 1 3).view := by decide +kernel

end Verif.Key
