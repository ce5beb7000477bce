import Verif.Lemmas.OffProof
import Verif.Props.Bulletproof

/-!
C78: splitting the Bulletproof prover between a device and a host that works on blinded vectors does not change the proof.

`computeBp` is the host talking to the device, `proveBatch` the prover that has everything in memory (C44), with the same nonces. `Fits` says which
parameters the theorems are about; the `Rand` are the nonces of the proof, `blind` the blinding factors the device draws.
-/

namespace Verif.Off
open Verif Ed Key Sig Bp KeyV

/-- C78: whatever the blinding factors, the method and the chunk size: a proof which the host obtains is the proof computed in memory. -/
theorem C78_same_proof (H : Bytes → Bytes) (rnd : Rand) {blind : ℕ → ℕ → ℤ} (hbl : Blinds blind) {cfg : Cfg} {sv gamma : List ℤ}
    (hF : Fits cfg sv.length) {p : Proof} (h : computeBp H rnd blind cfg sv gamma = some p) : proveBatch H rnd sv gamma = some p :=
  computeBp_prove hbl hF h

/-- C78: the host obtains a proof whenever there is one without zero challenges. -/
theorem C78_completes (H : Bytes → Bytes) (rnd : Rand) {blind : ℕ → ℕ → ℤ} (hbl : Blinds blind) {cfg : Cfg} {sv gamma : List ℤ}
    (hF : Fits cfg sv.length) {p : Proof} (h : proveBatch H rnd sv gamma = some p) (hnz : Nonzero H p) :
    computeBp H rnd blind cfg sv gamma = some p :=
  prove_computeBp hbl hF h hnz

/-- C78: two runs with different blinding factors, methods and chunks which both end give the same proof. -/
theorem C78_blinding_irrelevant (H : Bytes → Bytes) (rnd : Rand) {blind blind' : ℕ → ℕ → ℤ} (hbl : Blinds blind) (hbl' : Blinds blind')
    {cfg cfg' : Cfg} {sv gamma : List ℤ} (hF : Fits cfg sv.length) (hF' : Fits cfg' sv.length) {p p' : Proof}
    (h : computeBp H rnd blind cfg sv gamma = some p) (h' : computeBp H rnd blind' cfg' sv gamma = some p') : p = p' :=
  Option.some.inj ((C78_same_proof H rnd hbl hF h).symm.trans (C78_same_proof H rnd hbl' hF' h'))

/-- C78: for amounts below 2^64 the verifier accepts what the host obtains. -/
theorem C78_verifies (H : Bytes → Bytes) (rnd : Rand) (hL : ∀ i, 0 ≤ rnd.sL i) (hR : ∀ i, 0 ≤ rnd.sR i) {blind : ℕ → ℕ → ℤ} (hbl : Blinds blind)
    {cfg : Cfg} {amounts : List ℕ} {masks : List ℤ} (hF : Fits cfg amounts.length) (hlen : amounts.length = masks.length)
    (hb : ∀ a ∈ amounts, a < 2 ^ 64) {p : Proof} (h : computeBp H rnd blind cfg (amounts.map fun a : ℕ => (a : ℤ)) masks = some p)
    (hnz : Nonzero H p) (wy wz : ℤ) : verify H p wy wz = some () := by
  have hp := C78_same_proof H rnd hbl (by rw [List.length_map]; exact hF) h
  have h32 : amounts.length ≤ 32 := by
    have := hF.amounts
    simp only [List.mem_cons, List.not_mem_nil, or_false] at this
    omega
  refine C44_complete H rnd hL hR amounts masks hlen h32 ?_ hnz wy wz
  rw [proveRangeBp, if_neg, hp]
  intro h
  obtain ⟨a, ha, h⟩ := List.any_eq_true.mp h
  rw [decide_eq_true_eq] at h
  exact absurd (hb a ha) (by omega)

/-- C78: if no hash is zero modulo `l`, the host obtains a proof, and the verifier accepts it. -/
theorem C78_produces (H : Bytes → Bytes) (h0 : ∀ d, Key.hs H d ≠ 0) (rnd : Rand) (hL : ∀ i, 0 ≤ rnd.sL i) (hR : ∀ i, 0 ≤ rnd.sR i)
    {blind : ℕ → ℕ → ℤ} (hbl : Blinds blind) {cfg : Cfg} {amounts : List ℕ} {masks : List ℤ} (hF : Fits cfg amounts.length)
    (hlen : amounts.length = masks.length) (hb : ∀ a ∈ amounts, a < 2 ^ 64) :
    ∃ p, computeBp H rnd blind cfg (amounts.map fun a : ℕ => (a : ℤ)) masks = some p ∧ ∀ wy wz, verify H p wy wz = some () := by
  have hne : amounts ≠ [] := by rintro rfl; exact absurd hF.amounts (by decide)
  obtain ⟨p, hp⟩ := proveBatch_some H h0 rnd hL hR (amounts.map fun a : ℕ => (a : ℤ)) masks (by rw [List.length_map, hlen]) (by simpa using hne)
    fun v hv => by obtain ⟨a, -, rfl⟩ := List.mem_map.mp hv; exact Int.natCast_nonneg a
  have h := C78_completes H rnd hbl (by rw [List.length_map]; exact hF) hp (nonzero_of H h0 p)
  exact ⟨p, h, fun wy wz => C78_verifies H rnd hL hR hbl hF hlen hb h (nonzero_of H h0 p) wy wz⟩

/-- The parameters the host starts with (bulletproof_cl.py 143-147) fit a single amount, and every other number of amounts. -/
example : ∀ m ∈ [1, 2, 4, 8, 16, 32], Fits ⟨3, 64, 32, 32⟩ m := fun m hm =>
  ⟨hm, by decide, ⟨5, rfl⟩, ⟨6, rfl⟩, ⟨5, rfl⟩, by decide,
    by simp only [List.mem_cons, List.not_mem_nil, or_false] at hm; show 32 ≤ 64 * m; omega,
    fun h => absurd h (by decide), fun h => absurd h (by decide)⟩

/-- Each method with small chunks. -/
theorem fits_two (k : ℕ) (hk : k ≤ 3) : Fits ⟨k, 16, 8, 16⟩ 2 :=
  ⟨by decide, hk, ⟨4, rfl⟩, ⟨4, rfl⟩, ⟨3, rfl⟩, fun _ => Nat.le_of_ble_eq_true rfl, Nat.le_of_ble_eq_true rfl, fun _ => Nat.le_of_ble_eq_true rfl,
    fun _ => ⟨Nat.le_of_ble_eq_true rfl, Nat.le_of_ble_eq_true rfl⟩⟩

example (k : ℕ) (hk : k ≤ 3) : ∃ p, computeBp oneH ⟨3, 4, 5, 6, fun i => i, fun i => 2 * i⟩ (fun k i => ((k + 3 * i) % 100 : ℕ) + 1) ⟨k, 16, 8, 16⟩
    ([7, 2 ^ 64 - 1].map fun a : ℕ => (a : ℤ)) [11, 13] = some p ∧ ∀ wy wz, verify oneH p wy wz = some () :=
  C78_produces oneH oneH_ne _ (fun i => by simp) (fun i => by simp)
    (fun k i => ⟨Int.natCast_succ_pos _, lt_of_le_of_lt (b := 100) (by have := Nat.mod_lt (k + 3 * i) (y := 100) (by omega); omega) (by decide)⟩)
    (fits_two k hk) rfl (by simp)

/-- C78, what the parameters must satisfy: if the device computes the dot products and chunks are half of the first vectors (a single amount and
chunks of 32, say), the host never obtains a proof, whatever the amounts: in the second round it sends no part of the dot products and the device
refuses to fold. -/
theorem C78_false_half_chunks (H : Bytes → Bytes) (rnd : Rand) {blind : ℕ → ℕ → ℤ} (hbl : Blinds blind) (v mask : ℤ) :
    computeBp H rnd blind ⟨0, 64, 32, 32⟩ [v] [mask] = none :=
  computeBp_stuck (lgM := 0) (β := 5) (τ := 6) (o := 5) hbl
    ⟨⟨rfl, rfl, rfl, fun h => absurd h (by decide), fun _ => by decide⟩, rfl,
      (by decide : logM 1 = 0), by decide, by decide, fun _ => by decide⟩ rfl rfl

end Verif.Off
