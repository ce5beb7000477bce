import Verif.Model.Key
import Verif.Lemmas.EdOrder
import Verif.Lemmas.Elligator
import Mathlib.Tactic.Module

/-! Group meaning of the key functions. -/

namespace Verif.Key
open Verif Ed Edwards

theorem emod_l_range (a : ℤ) : 0 ≤ a % l ∧ a % l < l := ⟨Int.emod_nonneg _ (ne_of_gt l_pos), Int.emod_lt_of_pos _ l_pos⟩

theorem rep_smul {P : Ext} {p : Point} (h : Rep P p) {e : ℤ} (he : 0 ≤ e) : Rep (smul P e) (e • p) := by
  have := Ed.rep_smul h e.toNat
  rwa [← natCast_zsmul, Int.toNat_of_nonneg he] at this

theorem mod_smul {p : Point} (hp : lN • p = 0) (a : ℤ) : (a % l) • p = a • p := by
  have h : a • p = (a % l + l * (a / l)) • p := by rw [Int.emod_add_mul_ediv]
  rw [h, add_smul, mul_comm, mul_smul, l_eq, natCast_zsmul p lN, hp, smul_zero, add_zero]

theorem rep_B (e : ℤ) : Rep (scalarmultB e) (e • base) := by
  have h := rep_scalarmultB (e % l).toNat
  have h2 : scalarmultB (((e % l).toNat : ℕ) : ℤ) = scalarmultB e := by
    rw [Int.toNat_of_nonneg (emod_l_range e).1]
    unfold scalarmultB
    rw [Int.emod_emod]
  rwa [h2, ← natCast_zsmul, Int.toNat_of_nonneg (emod_l_range e).1, mod_smul l_base] at h

theorem hs_range (H : Bytes → Bytes) (d : Bytes) : 0 ≤ hs H d ∧ hs H d < l := emod_l_range _

theorem frombytes_some (P : Ext) : geFrombytesCheck P = some 0 := by
  unfold geFrombytesCheck
  dsimp only
  split
  · rw [if_neg (by have := mod_q_range (P.x * P.x % q * ((P.y * P.y % q * d % q + 1) % q) % q + (P.y * P.y % q - 1) % q); omega)]
  · rfl

theorem scCheck_eq {e : ℤ} (h0 : 0 < e) (h1 : e < l) : scCheck e = 0 := by
  have := Int.emod_eq_of_lt (le_of_lt h0) h1
  rw [scCheck, this, if_neg (ne_of_gt h0), if_pos rfl]

theorem scCheck_zero {e : ℤ} (h : scCheck e = 0) : 0 < e ∧ e < l := by
  unfold scCheck at h
  split at h
  · simp at h
  · split at h
    · rename_i h0 h1
      have := emod_l_range e
      omega
    · simp at h

theorem rep_on {P : Ext} {p : Point} (h : Rep P p) : checkPoint P = true := (isOnCurve_iff P).mpr ⟨p, h⟩

theorem rep_mul8 {P : Ext} {p : Point} (h : Rep P p) : Rep (mul8 P) ((8 : ℤ) • p) := by
  have := Ed.rep_smul h 8
  rwa [← natCast_zsmul] at this

theorem keyDerivation_rep {P : Ext} {p : Point} (h : Rep P p) {e : ℤ} (h0 : 0 < e) (h1 : e < l) :
    ∃ D, keyDerivation P e = some D ∧ Rep D ((8 : ℤ) • e • p) := by
  refine ⟨mul8 (smul P e), ?_, rep_mul8 (rep_smul h (le_of_lt h0))⟩
  simp [keyDerivation, scCheck_eq h0 h1, frombytes_some, rep_on h]

theorem keyDerivation_inv {P D : Ext} {e : ℤ} (h : keyDerivation P e = some D) :
    0 < e ∧ e < l ∧ ∃ p, Rep P p ∧ Rep D ((8 : ℤ) • e • p) := by
  unfold keyDerivation at h
  rw [frombytes_some] at h
  split at h
  · simp at h
  · rename_i hc
    push Not at hc
    obtain ⟨h0, h1⟩ := scCheck_zero hc
    simp only [ne_eq, not_true_eq_false, if_false] at h
    split at h
    · rename_i ho
      obtain ⟨p, hp⟩ := (isOnCurve_iff P).mp ho
      cases h
      exact ⟨h0, h1, p, hp, rep_mul8 (rep_smul hp (le_of_lt h0))⟩
    · simp at h

/-- Shared scalar of a derivation. -/
def sh (H : Bytes → Bytes) (p : Point) (i : ℕ) : ℤ := hs H (encPt p ++ Varint.dumpNat i)

theorem toScalar_rep (H : Bytes → Bytes) {D : Ext} {p : Point} (h : Rep D p) (i : ℕ) : derivationToScalar H D i = some (sh H p i) := by
  rw [derivationToScalar, if_pos (rep_on h), encodePoint_rep h, sh]

theorem derivePublic_rep (H : Bytes → Bytes) {D : Ext} {p : Point} (h : Rep D p) (i : ℕ) {S : Ext} {s : Point} (hS : Rep S s) :
    ∃ P, derivePublicKey H D i S = some P ∧ Rep P (s + sh H p i • base) := by
  refine ⟨add S (scalarmultB (sh H p i)), ?_, rep_add hS (rep_B _)⟩
  simp [derivePublicKey, frombytes_some, rep_on hS, toScalar_rep H h]

theorem deriveSub_rep (H : Bytes → Bytes) {D : Ext} {p : Point} (h : Rep D p) (i : ℕ) {S : Ext} {s : Point} (hS : Rep S s) :
    ∃ P, deriveSubPublic H S D i = some P ∧ Rep P (s - sh H p i • base) := by
  refine ⟨Ed.sub S (scalarmultB (sh H p i)), ?_, rep_sub hS (rep_B _)⟩
  simp [deriveSubPublic, rep_on hS, toScalar_rep H h]

theorem rep_hp (H : Bytes → Bytes) (d : Bytes) : ∃ p : Point, Rep (hp H d) p ∧ lN • p = 0 := by
  obtain ⟨p, h⟩ := hashPoint_on ((bitSum (H d) 256 : ℤ) % q)
  exact ⟨8 • p, Ed.rep_smul h 8, l_eight p⟩

end Verif.Key
