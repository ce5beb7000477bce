import Verif.Model.RctHelpers
import Verif.Lemmas.Key

/-! Points that can be written into a `bytearray` as if they were bytes. -/

namespace Verif.Rct
open Verif Ed Edwards
open Verif.Key hiding rep_smul

/-- The only point whose four coordinates are bytes is the neutral one. -/
theorem copied_point {P : Ext} {p : Point} (hP : Rep P p) {k : Bytes} (h : (Deriv.point P).copied = some k) : p = 0 := by
  have hall : ∀ c ∈ [P.x, P.y, P.z, P.t], 0 ≤ c ∧ c < 256 := by
    intro c hc
    by_contra hn
    rw [Deriv.copied] at h
    have : ∀ (L : List ℤ), c ∈ L → (L.mapM fun c => if 0 ≤ c ∧ c < 256 then some (UInt8.ofNat c.toNat) else none) = none := by
      intro L
      induction L with
      | nil => intro h; simp at h
      | cons x L ih =>
        intro hm
        rw [List.mapM_cons]
        rcases List.mem_cons.mp hm with rfl | hm
        · rw [if_neg hn]; rfl
        · rw [ih hm]
          split <;> rfl
    rw [this _ hc] at h
    simp at h
  obtain ⟨hx0, hx1⟩ := hall P.x (by simp)
  obtain ⟨hy0, hy1⟩ := hall P.y (by simp)
  obtain ⟨hz0, hz1⟩ := hall P.z (by simp)
  obtain ⟨ht0, ht1⟩ := hall P.t (by simp)
  have hon : isOnCurve P = true := rep_on hP
  obtain ⟨x, y, z, t⟩ := P
  dsimp only at *
  simp only [isOnCurve, Bool.and_eq_true, bne_iff_ne, beq_iff_eq] at hon
  obtain ⟨⟨hz, hxy⟩, hcv⟩ := hon
  have hq : (10 : ℤ) ^ 70 < q := by decide +kernel
  have hd : (121666 * d + 121665) % q = 0 := by decide +kernel
  have bound : ∀ a b : ℤ, 0 ≤ a → a < 256 → 0 ≤ b → b < 256 → 0 ≤ a * b ∧ a * b < 65536 := by
    intro a b h0 h1 h2 h3
    exact ⟨mul_nonneg h0 h2, by nlinarith⟩
  obtain ⟨xy0, xy1⟩ := bound x y hx0 hx1 hy0 hy1
  obtain ⟨zt0, zt1⟩ := bound z t hz0 hz1 ht0 ht1
  obtain ⟨xx0, xx1⟩ := bound x x hx0 hx1 hx0 hx1
  obtain ⟨yy0, yy1⟩ := bound y y hy0 hy1 hy0 hy1
  obtain ⟨zz0, zz1⟩ := bound z z hz0 hz1 hz0 hz1
  obtain ⟨tt0, tt1⟩ := bound t t ht0 ht1 ht0 ht1
  rw [Int.emod_eq_of_lt xy0 (by linarith), Int.emod_eq_of_lt zt0 (by linarith)] at hxy
  have hdv : q ∣ 121666 * (y * y - x * x - z * z) + 121665 * (t * t) := by
    have h1 := Int.dvd_of_emod_eq_zero hcv
    have h2 := Int.dvd_of_emod_eq_zero hd
    have h3 := dvd_add (Dvd.dvd.mul_left h1 121666) (Dvd.dvd.mul_left h2 (t * t))
    generalize d = D at h3
    have e : 121666 * (y * y - x * x - z * z) + 121665 * (t * t) =
        121666 * (y * y - x * x - z * z - D * t * t) + t * t * (121666 * D + 121665) := by ring
    rw [e]
    exact h3
  have h0 : 121666 * (y * y - x * x - z * z) + 121665 * (t * t) = 0 := by
    apply Int.eq_zero_of_abs_lt_dvd hdv
    rw [abs_lt]
    constructor <;> linarith
  have ht : t * t = 0 := by
    generalize t * t = tt at h0 tt0 tt1 ⊢
    generalize y * y - x * x - z * z = A at h0
    clear * - h0 tt0 tt1
    omega
  have ht : t = 0 := mul_self_eq_zero.mp ht
  subst ht
  have hyz : y * y = x * x + z * z := by linarith
  have hz' : z ≠ 0 := by rintro rfl; simp at hz
  have hx : x = 0 := by
    rcases mul_eq_zero.mp (hxy.trans (mul_zero z)) with h | h
    · exact h
    · subst h
      exact absurd (mul_self_eq_zero.mp (by linarith : z * z = 0)) hz'
  subst hx
  have hyz' : y = z := by
    rcases mul_self_eq_mul_self_iff.mp (by linarith : y * y = z * z) with h | h
    · exact h
    · omega
  subst hyz'
  refine (pointEqual_iff hP rep_ident).mp ?_
  simp [pointEqual, ident]

end Verif.Rct
