import Verif.Lemmas.RctHelpers
import Verif.Props.Amounts
import Verif.Props.Bulletproof

/-! C116: the helpers of xmr/ring_ct.py. -/

namespace Verif.Rct
open Verif Ed Edwards
open Verif.Key hiding rep_smul

/-- C116. The commitment, mask and proof of a single Bulletproof belong together: the mask is the one asked for (the random one if none was),
the commitment is mask times the base point plus amount times `H`, and the proof verifies, also against amount and mask. -/
theorem C116_range_bp (H : Bytes → Bytes) (rnd : Bp.Rand) (hL : ∀ i, 0 ≤ rnd.sL i) (hR : ∀ i, 0 ≤ rnd.sR i) (amount : ℕ) (last : Option ℤ)
    (fresh : ℤ) {C : Ext} {mask : ℤ} {π : Bp.Proof} (h : proveRangeOne H rnd amount last fresh = some (C, mask, π)) :
    mask = last.getD fresh ∧ amount < 2 ^ 64 ∧ (∀ hp, Rep hPt hp → Rep C (mask • base + amount • hp)) ∧
      (Bp.Nonzero H π → ∀ wy wz, Bp.verify H π wy wz = some () ∧ Bp.verifyBp H π [amount] [mask] wy wz = some ()) := by
  unfold proveRangeOne at h
  dsimp only at h
  obtain ⟨m, hmask⟩ : ∃ m, m = last.getD fresh := ⟨_, rfl⟩
  rw [← hmask] at h
  split at h
  · simp at h
  rename_i π' hπ
  split at h
  · simp at h
  rename_i v hv
  rw [Option.map_eq_some_iff] at h
  obtain ⟨V, hV, he⟩ := h
  simp only [Prod.mk.injEq] at he
  obtain ⟨rfl, rfl, rfl⟩ := he
  have hπ' := hπ
  rw [Bp.proveRangeBp] at hπ'
  split at hπ'
  · simp at hπ'
  rename_i hb
  have hb' : amount < 2 ^ 64 := by simpa using hb
  refine ⟨hmask, hb', ?_, fun hnz wy wz => ⟨Bp.C44_complete H rnd hL hR [amount] [m] rfl (by simp) hπ hnz wy wz, ?_⟩⟩
  · intro hp hh
    obtain ⟨p, rfl, hVp, -⟩ := Bp.proveBatch_ok H rnd hL hR _ [m] (by simp) (by simp) (Bp.amounts_bound hb) hπ'
    have hhS : hp = (Bp.hS : Point) := rep_unique hh Sig.rep_hBase
    have e1 : v = Bp.enc ((Bp.inv8 : Fl) • ((m : Fl) • baseS + ((amount : ℤ) : Fl) • Bp.hS)) := by
      have e2 : (Bp.bytes p).V = p.V.map Bp.enc := rfl
      rw [e2, hVp, List.map_cons, List.map_nil, Bp.vPts_cons] at hv
      simpa using hv.symm
    rw [e1, Bp.decode_enc] at hV
    have hV := (Option.some.inj hV).symm
    subst hV
    have := Key.rep_mul8 (Bp.rep_sub_canon ((Bp.inv8 : Fl) • ((m : Fl) • baseS + ((amount : ℤ) : Fl) • Bp.hS)))
    have e3 : (8 : ℤ) • ((((Bp.inv8 : Fl) • ((m : Fl) • baseS + ((amount : ℤ) : Fl) • Bp.hS) : Sub)) : Point) = m • base + amount • hp := by
      rw [← Bp.coe_smul, smul_smul]
      have : ((8 : ℤ) : Fl) * (Bp.inv8 : Fl) = 1 := by exact_mod_cast Bp.cast_inv8
      rw [this, one_smul, hhS]
      show (((m : Fl) • baseS : Sub) : Point) + ((((amount : ℤ) : Fl) • Bp.hS : Sub) : Point) = _
      rw [Bp.coe_smul, Bp.coe_smul, natCast_zsmul]
      rfl
    rw [e3] at this
    exact this
  · exact Bp.C44_verify_bp H rnd hL hR [amount] [m] rfl (by simp) hπ hnz wy wz π'.V

/-- C116. Every amount of at most 64 bits gets a proof, unless a challenge of the transcript is zero. -/
theorem C116_range_bp_made (H : Bytes → Bytes) (h0 : ∀ d, hs H d ≠ 0) (rnd : Bp.Rand) (hL : ∀ i, 0 ≤ rnd.sL i) (hR : ∀ i, 0 ≤ rnd.sR i)
    (amount : ℕ) (ha : amount < 2 ^ 64) (last : Option ℤ) (fresh : ℤ) :
    ∃ C π, proveRangeOne H rnd amount last fresh = some (C, last.getD fresh, π) ∧ ∀ wy wz, Bp.verify H π wy wz = some () := by
  obtain ⟨m, hm⟩ : ∃ m, last.getD fresh = m := ⟨_, rfl⟩
  obtain ⟨π, hπ, hv⟩ := Bp.C44_produces H h0 rnd hL hR [amount] [m] (by simp) (by simpa using ha) rfl (by simp)
  have hπ' := hπ
  rw [Bp.proveRangeBp] at hπ'
  split at hπ'
  · simp at hπ'
  rename_i hb
  obtain ⟨p, rfl, hVp, -⟩ := Bp.proveBatch_ok H rnd hL hR _ [m] (by simp) (by simp) (Bp.amounts_bound hb) hπ'
  obtain ⟨c, hc⟩ : ∃ c, c = (Bp.inv8 : Fl) • ((m : Fl) • baseS + ((amount : ℤ) : Fl) • Bp.hS) := ⟨_, rfl⟩
  have e1 : (Bp.bytes p).V[0]? = some (Bp.enc c) := by
    have e2 : (Bp.bytes p).V = p.V.map Bp.enc := rfl
    rw [e2, hVp, List.map_cons, List.map_nil, Bp.vPts_cons, hc]
    simp
  refine ⟨mul8 (canon (c : Point)), Bp.bytes p, ?_, hv⟩
  unfold proveRangeOne
  dsimp only
  rw [hm, hπ]
  dsimp only
  rw [e1]
  dsimp only
  rw [Bp.decode_enc, Option.map_some]

/-- C116, first encoding (of the compact encoding it is false, see `C116_false_v2`). What was hidden for a receiver's key comes back with the receiver's secret key: `ecdh_decode` returns mask and amount, and `decode_rct`
returns the amount without a warning if the output carries the commitment of that mask and amount. -/
theorem C116_owner_partial (H : Bytes → Bytes) (b esk : ℤ) (hb : 0 ≤ b) (he : 0 ≤ esk) (receiver : Ext) (hr : Rep receiver (b • base)) (mask amount : ℤ)
    (hm : 0 ≤ mask ∧ mask < l) (ha : 0 ≤ amount ∧ amount < l) (s : Option Ext) :
    ∃ e, encodeTo H ⟨mask, amount, s⟩ receiver esk false = some e ∧ decodeBy H e b false = some ⟨mask, amount, none⟩ ∧
      decodeRct H e b (genC mask amount) = some (amount, false) := by
  have hS := rep_B esk
  have h1 : encodePoint (smul receiver esk) = encPt (esk • b • base) := encodePoint_rep (Key.rep_smul hr he)
  have h2 : encodePoint (smul (scalarmultB esk) b) = encPt (esk • b • base) := by
    rw [encodePoint_rep (Key.rep_smul hS hb), smul_comm]
  obtain ⟨k, hk⟩ : ∃ k, encPt (esk • b • base) = k := ⟨_, rfl⟩
  rw [hk] at h1 h2
  have hd : decodeBy H ⟨Key.scAdd mask (hs H k), Key.scAdd amount (hs H (encodeInt (hs H k))), some (scalarmultB esk)⟩ b false =
      some ⟨mask, amount, none⟩ := by
    unfold decodeBy encdec Deriv.hashed
    dsimp only
    rw [h2, if_neg (by simp), if_neg (by simp), sub_add_cancel_l hm.1 hm.2, sub_add_cancel_l ha.1 ha.2]
  refine ⟨_, ?_, hd, ?_⟩
  · unfold encodeTo encdec Deriv.hashed
    dsimp only
    rw [h1, if_neg (by simp), if_pos rfl]
  · obtain ⟨hp, hh⟩ := rep_hPt
    rw [decodeRct, hd]
    dsimp only
    have hc : Rep (genC mask amount) (mask • base + amount • hp) := by
      rw [genC, Int.emod_eq_of_lt ha.1 ha.2]
      exact rep_add (rep_B mask) (Key.rep_smul hh ha.1)
    have h3 := rep_sub hc (rep_add (rep_B mask) (Key.rep_smul hh ha.1))
    rw [pointEq, if_pos (show isOnCurve _ = true from rep_on h3), (pointEqual_iff h3 rep_ident).mpr (sub_self _)]
    rfl

/-- C116. With the derivation given by both sides the compact encoding returns the amount and the derived mask. -/
theorem C116_shared_v2 (H : Bytes → Bytes) (hH : ∀ d, (H d).length = 32) (key : Bytes) (mask amount : ℤ) (ha : 0 ≤ amount ∧ amount < 2 ^ 64) :
    ∃ e, encodeWith H ⟨mask, amount, none⟩ key true = some e ∧ e.mask = commitmentMask H key ∧
      decodeWith H e key true = some ⟨commitmentMask H key, amount, none⟩ := by
  have hl64 : (2 : ℤ) ^ 64 < l := by decide +kernel
  have hk : 8 ≤ (ecdhHash H key).length := by rw [ecdhHash, hH]; omega
  have hxl : (xor8 (encodeInt amount) (ecdhHash H key)).length = 32 := by rw [xor8_length _ _ hk, encodeInt_length]
  have hxd : (xor8 (encodeInt amount) (ecdhHash H key)).drop 8 = List.replicate 24 0 := by
    rw [xor8_drop _ _ hk (by rw [encodeInt_length]; omega), encodeInt_small amount ha.1 ha.2]
  obtain ⟨v, -, -, hv, hve⟩ := small_value _ hxl hxd
  refine ⟨⟨commitmentMask H key, v, none⟩, ?_, rfl, ?_⟩
  · rw [encodeWith, encdec, if_pos rfl, Deriv.copied]
    dsimp only
    rw [hv]
    rfl
  · rw [decodeWith, encdec, if_pos rfl, Deriv.copied]
    dsimp only
    rw [hve, xor8_invol _ _ hk, C35_scalar_roundtrip amount ha.1 (lt_trans ha.2 hl64)]
    rfl

/-- C116. The warning says exactly whether the decoded mask and amount open the commitment of the output. -/
theorem C116_warning (H : Bytes → Bytes) (e : Ecdh) (sk : ℤ) (C : Ext) (c hp : Point) (hC : Rep C c) (hh : Rep hPt hp) (a : ℤ) (w : Bool)
    (h : decodeRct H e sk C = some (a, w)) :
    ∃ d, decodeBy H e sk false = some d ∧ d.amount = a ∧ (w = false ↔ c = d.mask • base + d.amount • hp) := by
  unfold decodeRct at h
  split at h
  · simp at h
  rename_i d hd
  refine ⟨d, hd, ?_⟩
  have hn : 0 ≤ d.amount := by
    unfold decodeBy at hd
    split at hd
    · simp at hd
    rw [encdec, if_neg (by simp)] at hd
    dsimp only at hd
    rw [if_neg (by simp)] at hd
    rw [← Option.some.inj hd]
    exact (emod_l_range _).1
  have h3 := rep_sub hC (rep_add (rep_B d.mask) (Key.rep_smul hh hn))
  rw [pointEq, if_pos (show isOnCurve _ = true from rep_on h3), Option.map_some, Option.some.injEq, Prod.mk.injEq] at h
  refine ⟨h.1, ?_⟩
  rw [← h.2, Bool.not_eq_false', pointEqual_iff h3 rep_ident, sub_eq_zero]

/-- C116 is false of amounts that do not match: the sender of an output worth `amount` has `decode_rct` return any other amount, with nothing but
a line in the log. -/
theorem C116_false_amount (H : Bytes → Bytes) (b esk : ℤ) (hb : 0 ≤ b) (he : 0 ≤ esk) (receiver : Ext) (hr : Rep receiver (b • base))
    (mask amount other : ℤ) (hm : 0 ≤ mask ∧ mask < l) (ha : 0 ≤ amount ∧ amount < l) (ho : 0 ≤ other ∧ other < l) (hne : other ≠ amount) :
    ∃ e, encodeTo H ⟨mask, other, none⟩ receiver esk false = some e ∧ decodeRct H e b (genC mask amount) = some (other, true) := by
  obtain ⟨e, h1, h2, -⟩ := C116_owner_partial H b esk hb he receiver hr mask other hm ho none
  refine ⟨e, h1, ?_⟩
  obtain ⟨hp, hh⟩ := rep_hPt
  have hhS : hp = (Bp.hS : Point) := rep_unique hh Sig.rep_hBase
  have hc : Rep (genC mask amount) (mask • base + amount • hp) := by
    rw [genC, Int.emod_eq_of_lt ha.1 ha.2]
    exact rep_add (rep_B mask) (Key.rep_smul hh ha.1)
  rw [decodeRct, h2]
  dsimp only
  have h3 := rep_sub hc (rep_add (rep_B mask) (Key.rep_smul hh ho.1))
  have h4 : pointEqual (Ed.sub (genC mask amount) (Ed.add (scalarmultB mask) (smul hPt other))) ident = false := by
    rw [Bool.eq_false_iff]
    intro h5
    have h6 := (pointEqual_iff h3 rep_ident).mp h5
    rw [sub_eq_zero] at h6
    have h7 : amount • hp = other • hp := add_left_cancel h6
    rw [hhS, ← Bp.coe_smul, ← Bp.coe_smul] at h7
    have h8 : ((amount : Fl) - other) • Bp.hS = 0 := by rw [sub_smul, Subtype.ext h7, sub_self]
    rcases smul_eq_zero.mp h8 with h9 | h9
    · exact hne (Bp.eq_l ho ha (sub_eq_zero.mp h9).symm)
    · have h0 : Rep hPt 0 := by
        have h10 : (Bp.hS : Point) = 0 := by rw [h9]; rfl
        rw [← h10, ← hhS]
        exact hh
      have : pointEqual hPt ident = true := (pointEqual_iff h0 rep_ident).mpr rfl
      exact absurd this (by decide +kernel)
  rw [pointEq, if_pos (show isOnCurve _ = true from rep_on h3), h4]
  rfl

/-- C116 is false of the compact encoding: the receiver's secret key never decodes what `ecdh_encode` hid for the receiver's public key; the call
raises, whatever was hidden. -/
theorem C116_false_v2 (H : Bytes → Bytes) (b esk : ℤ) (hb : 0 < b ∧ b < l) (he : 0 < esk ∧ esk < l) (receiver : Ext) (u : Ecdh) :
    ∀ e, encodeTo H u receiver esk true = some e → decodeBy H e b true = none := by
  intro e h
  have hs : e.sender = some (scalarmultB esk) := by
    unfold encodeTo encdec at h
    rw [if_pos rfl, Deriv.copied] at h
    dsimp only at h
    rw [Option.map_eq_some_iff] at h
    obtain ⟨a, -, rfl⟩ := h
    rfl
  rw [decodeBy, hs]
  dsimp only
  rw [encdec, if_pos rfl]
  cases hc : (Deriv.point (smul (scalarmultB esk) b)).copied with
  | none => rfl
  | some k =>
    exfalso
    have h0 := copied_point (Key.rep_smul (rep_B esk) hb.1.le) hc
    rw [← mul_zsmul, ← addOrderOf_dvd_iff_zsmul_eq_zero, order_base] at h0
    have hp : Prime (lN : ℤ) := Nat.prime_iff_prime_int.mp Fact.out
    have hl : l = (lN : ℤ) := rfl
    rw [hl] at hb he
    rcases hp.dvd_or_dvd h0 with h | h
    · exact absurd (Int.le_of_dvd hb.1 h) (by linarith)
    · exact absurd (Int.le_of_dvd he.1 h) (by linarith)

/-! ## Cases -/

/-- A small hash for the cases below. -/
def demoH (b : Bytes) : Bytes := UInt8.ofNat (b.length + 3) :: UInt8.ofNat (b.foldl (fun a x => a + x.toNat) 0) :: List.replicate 30 0

/-- A hidden amount and its decoding with the receiver's key. -/
example : ((encodeTo demoH ⟨11, 1000, none⟩ (scalarmultB 5) 7 false).bind fun e => decodeRct demoH e 5 (genC 11 1000)) = some (1000, false) := by
  decide +kernel

/-- The same output with another amount hidden: the wrong amount is returned. -/
example : ((encodeTo demoH ⟨11, 999, none⟩ (scalarmultB 5) 7 false).bind fun e => decodeRct demoH e 5 (genC 11 1000)) = some (999, true) := by
  decide +kernel

/-- The compact encoding hides the amount, and the receiver's key does not decode it. -/
example : ((encodeTo demoH ⟨11, 1000, none⟩ (scalarmultB 5) 7 true).map fun e => (e.amount == 1000, (decodeBy demoH e 5 true).isSome)) =
    some (false, false) := by
  decide +kernel

example : ∃ r r', proveRangeOne Bp.oneH ⟨3, 4, 5, 6, fun i => i, fun i => 2 * i⟩ 7 (some 11) 12 = some r ∧ r.2.1 = 11 ∧
    proveRangeOne Bp.oneH ⟨3, 4, 5, 6, fun i => i, fun i => 2 * i⟩ 7 none 12 = some r' ∧ r'.2.1 = 12 := by
  obtain ⟨C, π, h, -⟩ := C116_range_bp_made Bp.oneH Bp.oneH_ne ⟨3, 4, 5, 6, fun i => i, fun i => 2 * i⟩ (fun i => by simp) (fun i => by simp) 7
    (by norm_num) (some 11) 12
  obtain ⟨C', π', h', -⟩ := C116_range_bp_made Bp.oneH Bp.oneH_ne ⟨3, 4, 5, 6, fun i => i, fun i => 2 * i⟩ (fun i => by simp) (fun i => by simp) 7
    (by norm_num) none 12
  exact ⟨_, _, h, rfl, h', rfl⟩

end Verif.Rct
