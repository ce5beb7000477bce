import Verif.Lemmas.Euclid
import Verif.Lemmas.Ed25519
import Verif.Props.Curve

/-! C103: inverses by the extended Euclidean algorithm, and conversions of coordinates. -/

namespace Verif.Euclid
open Verif

/-- C103: for any two integers the greatest common divisor and coefficients giving it. -/
theorem C103_gcd (a b : ℤ) : (extendedGcd a b).1 = Int.gcd a b ∧ a * (extendedGcd a b).2.1 + b * (extendedGcd a b).2.2 = (extendedGcd a b).1 := by
  obtain ⟨h1, h2⟩ := extendedGcd_spec a b
  exact ⟨h1, by rw [h2, h1]⟩

/-- C103: `modinv` is the inverse for a positive modulus, and raises exactly if there is none. -/
theorem C103_modinv (a m : ℤ) (hm : 0 < m) :
    (∀ r, modinv a m = some r → IsInverse a m r) ∧ (modinv a m = none ↔ ¬ Coprime a m) := by
  obtain ⟨h1, h2⟩ := extendedGcd_spec a m
  unfold modinv
  dsimp only
  rw [coprime_iff, h1]
  by_cases h : Int.gcd a m = 1
  · rw [if_neg (by simpa using h), if_neg (by omega)]
    refine ⟨fun r hr => ?_, by simp [h]⟩
    obtain rfl := Option.some.inj hr
    refine ⟨Int.fmod_nonneg_of_pos _ hm, Int.fmod_lt_of_pos _ hm, ?_⟩
    rw [h] at h2
    generalize (extendedGcd a m).2.1 = u at h2 ⊢
    generalize (extendedGcd a m).2.2 = v at h2
    refine ⟨-v - a * u.fdiv m, ?_⟩
    rw [Int.fmod_def]
    push_cast at h2
    linarith [h2, mul_sub a u (m * u.fdiv m)]
  · rw [if_pos h]
    exact ⟨fun r hr => (by cases hr), by simp [h]⟩

/-- C103: modulo a negative number the remainder is negative or zero, and still an inverse; modulo zero it raises. -/
theorem C103_modinv_neg (a m : ℤ) (hm : m < 0) (r : ℤ) (h : modinv a m = some r) : m < r ∧ r ≤ 0 ∧ m ∣ a * r - 1 := by
  obtain ⟨h1, h2⟩ := extendedGcd_spec a m
  unfold modinv at h
  dsimp only at h
  rw [h1] at h
  by_cases hg : Int.gcd a m = 1
  · rw [if_neg (by simpa using hg), if_neg (by omega)] at h
    obtain rfl := Option.some.inj h
    rw [hg] at h2
    generalize (extendedGcd a m).2.1 = u at h2 ⊢
    generalize (extendedGcd a m).2.2 = v at h2
    have r1 := Int.fmod_lt_of_pos (-u) (b := -m) (by omega)
    have r2 := Int.fmod_nonneg_of_pos (-u) (b := -m) (by omega)
    rw [Int.neg_fmod_neg] at r1 r2
    refine ⟨by omega, by omega, -v - a * u.fdiv m, ?_⟩
    rw [Int.fmod_def]
    push_cast at h2
    linarith [h2, mul_sub a u (m * u.fdiv m)]
  · rw [if_pos hg] at h; cases h

theorem C103_modinv_zero (a : ℤ) : modinv a 0 = none := by
  unfold modinv
  dsimp only
  split <;> [rfl; simp]

/-- C103: `mul_inverse_egcd` returns for every modulus from 2 on: the inverse, or -1 if there is none. -/
theorem C103_mul_inverse (x n : ℤ) (hn : 2 ≤ n) :
    ∃ r, mulInverse x n 1 0 0 = some r ∧ (Coprime x n → IsInverse x n r) ∧ (¬ Coprime x n → r = -1) := by
  rw [mulInverse]
  have hn0 : n ≠ 0 := by omega
  simp only [if_neg (show ¬ n < 1 by omega), if_neg (show ¬ n < 2 by omega), dif_neg hn0, if_true]
  have r1 := Int.fmod_nonneg_of_pos x (b := n) (by omega)
  have e := Int.fmod_def x n
  obtain ⟨r, h1, h2, h3⟩ := mulInverse_loop x n hn (x.fmod n).toNat (x.fmod n) n 0 (1 - x.fdiv n * 0) (by omega) r1 hn
    ⟨-1, by ring⟩ ⟨x.fdiv n, by rw [e]; ring⟩ (Or.inr (by ring)) (by rw [e, Int.gcd_sub_mul_left_right, Int.gcd_comm])
  refine ⟨r, h1, fun h => h2 ((coprime_iff _ _).mp h), fun h => h3 fun hg => h ((coprime_iff _ _).mpr hg)⟩

/-- C103: for smaller moduli it raises, although the code has an answer (-1) for moduli below 1: the pair is computed before it is indexed. -/
theorem C103_mul_inverse_small (x n : ℤ) (hn : n < 2) : mulInverse x n 1 0 0 = none := by
  rw [mulInverse]
  simp only [if_pos hn, if_true]
  split <;> rfl

/-- C103: both functions agree with the inversions used by the signer. -/
theorem C103_agree (x : ℤ) (h : x % Ed.q ≠ 0) : modinv x Ed.q = some (Ed.inv x) ∧ mulInverse x Ed.q 1 0 0 = some (Ed.inv x) := by
  have hq : (2 : ℤ) ≤ Ed.q := by decide +kernel
  obtain ⟨⟨i1, i2⟩, i3, -⟩ := Ed.C50_inv x
  have i3 := i3 h
  generalize Ed.inv x = i at *
  generalize Ed.q = m at *
  have hi : m ∣ x * i - 1 := by
    refine ⟨i * x / m, ?_⟩
    have := Int.emod_add_mul_ediv (i * x) m
    rw [i3] at this
    linarith [mul_comm x i]
  have hc : Coprime x m := by
    intro k h1 h2
    have h3 := Int.dvd_sub (Dvd.dvd.mul_right h1 i) (h2.trans hi)
    rw [sub_sub_cancel] at h3
    have := Nat.dvd_one.mp (Int.natAbs_dvd_natAbs.mpr h3)
    omega
  have uniq : ∀ r, IsInverse x m r → r = i := by
    rintro r ⟨r1, r2, r3⟩
    have h4 : m ∣ r - i := by
      have h5 : r - i = r * (1 - x * i) + i * (x * r - 1) := by ring
      rw [h5]
      refine Int.dvd_add (Dvd.dvd.mul_left ?_ _) (Dvd.dvd.mul_left r3 _)
      obtain ⟨c, hc⟩ := hi
      exact ⟨-c, by linarith⟩
    obtain ⟨c, hc⟩ := h4
    rcases lt_trichotomy c 0 with hc0 | hc0 | hc0
    · have : m * c ≤ m * (-1) := mul_le_mul_of_nonneg_left (by omega) (by omega)
      omega
    · subst hc0; omega
    · have : m * 1 ≤ m * c := mul_le_mul_of_nonneg_left (by omega) (by omega)
      omega
  constructor
  · obtain ⟨g1, g2⟩ := C103_modinv x m (by omega)
    cases hr : modinv x m with
    | none => exact absurd hc (g2.mp hr)
    | some r => rw [uniq r (g1 r hr)]
  · obtain ⟨r, g1, g2, -⟩ := C103_mul_inverse x m hq
    rw [g1, uniq r (g2 hc)]

/-- Non-vacuity: an inverse, a missing one, a negative modulus, a negative argument. -/
example : modinv 3 7 = some 5 ∧ modinv 4 6 = none ∧ modinv 3 (-7) = some (-2) ∧ mulInverse (-3) 7 1 0 0 = some 2 ∧ mulInverse 4 6 1 0 0 = some (-1) ∧
    mulInverse 5 0 1 0 0 = none ∧ extendedGcd (-12) 18 = (6, 1, 1) := by decide +kernel

end Verif.Euclid

namespace Verif.Ed
open Verif Edwards

/-- C103: from affine coordinates to extended ones, and back, reduces the coordinates. -/
theorem C103_xy_round (x y : ℤ) : extToXy (xyToExt x y) = (x % q, y % q) := by
  have h1 : ((inv 1 : ℤ) : Fq) = 1 := by rw [cast_inv, Int.cast_one, inv_one]
  unfold extToXy xyToExt
  dsimp only
  refine Prod.ext ?_ ?_
  · refine eq_of_cast (mod_q_range _) (mod_q_range _) ?_
    rw [cast_mod_q, Int.cast_mul, h1, mul_one]
  · refine eq_of_cast (mod_q_range _) (mod_q_range _) ?_
    rw [cast_mod_q, Int.cast_mul, h1, mul_one]

/-- C103: affine coordinates of a point of the curve give extended coordinates of that point. -/
theorem C103_xy_point (x y : ℤ) (p : Point) (hx : (x : Fq) = p.x) (hy : (y : Fq) = p.y) : Rep (xyToExt x y) p := by
  constructor
  · show ((1 : ℤ) : Fq) ≠ 0
    rw [Int.cast_one]; exact one_ne_zero
  · show ((x % q : ℤ) : Fq) = p.x * ((1 : ℤ) : Fq)
    rw [cast_mod_q, Int.cast_one, mul_one, hx]
  · show ((y % q : ℤ) : Fq) = p.y * ((1 : ℤ) : Fq)
    rw [cast_mod_q, Int.cast_one, mul_one, hy]
  · show ((x * y % q : ℤ) : Fq) = p.x * p.y * ((1 : ℤ) : Fq)
    rw [cast_mod_q, Int.cast_one, mul_one, Int.cast_mul, hx, hy]

/-- C103: extended coordinates of a point give its affine coordinates, reduced. -/
theorem C103_ext_point {P : Ext} {p : Point} (h : Rep P p) :
    (((extToXy P).1 : Fq) = p.x ∧ ((extToXy P).2 : Fq) = p.y) ∧
    (0 ≤ (extToXy P).1 ∧ (extToXy P).1 < q) ∧ (0 ≤ (extToXy P).2 ∧ (extToXy P).2 < q) := by
  refine ⟨⟨?_, ?_⟩, mod_q_range _, mod_q_range _⟩
  · show ((P.x * inv P.z % q : ℤ) : Fq) = p.x
    rw [cast_mod_q, Int.cast_mul, cast_inv, h.x, mul_assoc, mul_inv_cancel₀ h.z, mul_one]
  · show ((P.y * inv P.z % q : ℤ) : Fq) = p.y
    rw [cast_mod_q, Int.cast_mul, cast_inv, h.y, mul_assoc, mul_inv_cancel₀ h.z, mul_one]

/-- C103: a completed point `((X : Z), (Y : T))` is turned into extended coordinates of the point `(X / Z, Y / T)`. -/
theorem C103_completed (X Y Z T : ℤ) (p : Point) (hZ : (Z : Fq) ≠ 0) (hT : (T : Fq) ≠ 0) (hx : (X : Fq) / Z = p.x) (hy : (Y : Fq) / T = p.y) :
    Rep (p1p1ToExt ⟨X, Y, Z, T⟩) p := by
  have h1 : (X : Fq) = p.x * Z := by rw [← hx, div_mul_cancel₀ _ hZ]
  have h2 : (Y : Fq) = p.y * T := by rw [← hy, div_mul_cancel₀ _ hT]
  constructor
  · show ((Z * T % q : ℤ) : Fq) ≠ 0
    rw [cast_mod_q, Int.cast_mul]; exact mul_ne_zero hZ hT
  · show ((X * T % q : ℤ) : Fq) = p.x * ((Z * T % q : ℤ) : Fq)
    rw [cast_mod_q, cast_mod_q, Int.cast_mul, Int.cast_mul, h1]; ring
  · show ((Y * Z % q : ℤ) : Fq) = p.y * ((Z * T % q : ℤ) : Fq)
    rw [cast_mod_q, cast_mod_q, Int.cast_mul, Int.cast_mul, h2]; ring
  · show ((X * Y % q : ℤ) : Fq) = p.x * p.y * ((Z * T % q : ℤ) : Fq)
    rw [cast_mod_q, cast_mod_q, Int.cast_mul, Int.cast_mul, h1, h2]; ring

/-- Non-vacuity: a point whose third coordinate is not one. -/
example : extToXy (double B) ≠ ((double B).x, (double B).y) ∧ pointEqual (xyToExt (extToXy (double B)).1 (extToXy (double B)).2) (double B) = true := by
  decide +kernel

end Verif.Ed
