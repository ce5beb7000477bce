import Verif.Model.Ed25519
import Verif.Lemmas.Primes
import Verif.Lemmas.Edwards
import Mathlib.FieldTheory.Finite.Basic

/-! Facts about the curve arithmetic model. -/

namespace Verif.Ed
open Verif Verif.Edwards

/-- The size of the field. -/
def qN : ℕ := 57896044618658097711785492504343953926634992332820282019728792003956564819949
/-- The order of the base point. -/
def lN : ℕ := 7237005577332262213973186563042994240857116359379907606001950938285454250989

theorem q_eq : q = (qN : ℤ) := by decide +kernel
theorem l_eq : l = (lN : ℤ) := by decide +kernel
theorem q_pos : 0 < q := by decide +kernel
theorem l_pos : 0 < l := by decide +kernel

instance : Fact qN.Prime := ⟨Primes.prime_57896044618658097711785492504343953926634992332820282019728792003956564819949⟩
instance : Fact lN.Prime := ⟨Primes.prime_7237005577332262213973186563042994240857116359379907606001950938285454250989⟩

/-- The field of coordinates. -/
abbrev Fq := ZMod qN
/-- The field of scalars. -/
abbrev Fl := ZMod lN

@[simp] theorem cast_mod_q (a : ℤ) : ((a % q : ℤ) : Fq) = (a : Fq) := by rw [q_eq, ZMod.intCast_mod]
@[simp] theorem cast_mod_l (a : ℤ) : ((a % l : ℤ) : Fl) = (a : Fl) := by rw [l_eq, ZMod.intCast_mod]
@[simp] theorem cast_q : ((q : ℤ) : Fq) = 0 := by rw [q_eq]; simp

theorem mod_q_eq_zero (a : ℤ) : a % q = 0 ↔ (a : Fq) = 0 := by
  rw [q_eq, ZMod.intCast_zmod_eq_zero_iff_dvd]
  exact ⟨Int.dvd_of_emod_eq_zero, Int.emod_eq_zero_of_dvd⟩

theorem mod_q_eq (a b : ℤ) : a % q = b % q ↔ (a : Fq) = (b : Fq) := by
  rw [q_eq, ZMod.intCast_eq_intCast_iff]; rfl

/-- Two integers in range are equal if their classes are. -/
theorem eq_of_cast {a b : ℤ} (ha : 0 ≤ a ∧ a < q) (hb : 0 ≤ b ∧ b < q) (h : (a : Fq) = (b : Fq)) : a = b := by
  have := (mod_q_eq a b).mpr h
  rwa [Int.emod_eq_of_lt ha.1 ha.2, Int.emod_eq_of_lt hb.1 hb.2] at this

theorem mod_q_range (a : ℤ) : 0 ≤ a % q ∧ a % q < q :=
  ⟨Int.emod_nonneg _ (ne_of_gt q_pos), Int.emod_lt_of_pos _ q_pos⟩

theorem cast_pow2 (x : ℤ) (p : ℕ) : ((pow2 x p : ℤ) : Fq) = (x : Fq) ^ (2 ^ p) := by
  induction p generalizing x with
  | zero => simp [pow2]
  | succ p ih => rw [pow2, ih, cast_mod_q, Int.cast_mul, ← sq, ← pow_mul, pow_succ, mul_comm]

/-- The addition chain computes the power with exponent `q - 2`. -/
theorem cast_inv_pow (z : ℤ) : ((inv z : ℤ) : Fq) = (z : Fq) ^ (2 ^ 255 - 21) := by
  simp only [inv, cast_mod_q, Int.cast_mul, cast_pow2]
  generalize (z : Fq) = a
  simp only [← pow_succ, ← pow_mul, ← pow_add, ← pow_succ']
  norm_num [← pow_succ, ← pow_mul, ← pow_add, ← pow_succ', ← sq]

theorem cast_inv (z : ℤ) : ((inv z : ℤ) : Fq) = (z : Fq)⁻¹ := by
  rw [cast_inv_pow]
  by_cases h : (z : Fq) = 0
  · rw [h, inv_zero, zero_pow]; norm_num
  · have h1 := ZMod.pow_card_sub_one_eq_one h
    apply eq_inv_of_mul_eq_one_left
    rw [← pow_succ]
    exact h1

theorem inv_range (z : ℤ) : 0 ≤ inv z ∧ inv z < q := mod_q_range _

theorem cast_expmod_l (fuel : ℕ) (b : ℤ) (e : ℕ) (h : e < 2 ^ fuel) : ((expmod l fuel b e : ℤ) : Fl) = (b : Fl) ^ e := by
  induction fuel generalizing e with
  | zero => have : e = 0 := by simpa using h
            simp [expmod, this]
  | succ k ih =>
    simp only [expmod]
    have h2 : e / 2 < 2 ^ k := by rw [pow_succ] at h; omega
    split
    · rename_i h0; simp [h0]
    · split
      · rw [cast_mod_l, Int.cast_mul, cast_mod_l, Int.cast_pow, ih _ h2, ← pow_mul, ← pow_succ]; congr 1; omega
      · rw [cast_mod_l, Int.cast_pow, ih _ h2, ← pow_mul]; congr 1; omega

theorem cast_expmod_q (fuel : ℕ) (b : ℤ) (e : ℕ) (h : e < 2 ^ fuel) : ((expmod q fuel b e : ℤ) : Fq) = (b : Fq) ^ e := by
  induction fuel generalizing e with
  | zero => have : e = 0 := by simpa using h
            simp [expmod, this]
  | succ k ih =>
    simp only [expmod]
    have h2 : e / 2 < 2 ^ k := by rw [pow_succ] at h; omega
    split
    · rename_i h0; simp [h0]
    · split
      · rw [cast_mod_q, Int.cast_mul, cast_mod_q, Int.cast_pow, ih _ h2, ← pow_mul, ← pow_succ]; congr 1; omega
      · rw [cast_mod_q, Int.cast_pow, ih _ h2, ← pow_mul]; congr 1; omega

theorem expmod_range {m : ℤ} (hm : 1 < m) (fuel : ℕ) (b : ℤ) (e : ℕ) : 0 ≤ expmod m fuel b e ∧ expmod m fuel b e < m := by
  have hr (a : ℤ) : 0 ≤ a % m ∧ a % m < m := ⟨Int.emod_nonneg _ (by omega), Int.emod_lt_of_pos _ (by omega)⟩
  cases fuel with
  | zero => simp only [expmod]; omega
  | succ k =>
    simp only [expmod]
    split
    · omega
    · split <;> exact hr _

/-! ## The curve -/

/-- `d` in the field. -/
def dF : Fq := (d : Fq)

theorem d_val : d = 37095705934669439343138083508754565189542113879843219016388785533085940283555 := by decide +kernel

theorem cast_d : ((d : ℤ) : Fq) = dF := rfl

theorem dF_eq : dF = -121665 / 121666 := by
  rw [dF, d, cast_mod_q, Int.cast_mul, cast_inv, div_eq_mul_inv]
  norm_num

theorem I_val : I = 19681161376707505956807079304988542015446066515923890162744021073123829784752 := by decide +kernel

theorem I_sq : ((I : ℤ) : Fq) ^ 2 = -1 := by
  rw [← Int.cast_pow, eq_neg_iff_add_eq_zero, ← Int.cast_one, ← Int.cast_add, ← mod_q_eq_zero, I_val]
  decide +kernel

theorem two_ne : (2 : Fq) ≠ 0 := by
  have : ((2 : ℤ) : Fq) ≠ 0 := by rw [Ne, ← mod_q_eq_zero]; decide +kernel
  simpa using this

/-- `d` is not a square. -/
theorem d_nonsquare (s : Fq) : s ^ 2 ≠ dF := by
  intro h
  have h0 : dF ^ ((qN - 1) / 2) = -1 := by
    have := Primes.powMod_zmod qN 256 37095705934669439343138083508754565189542113879843219016388785533085940283555 ((qN - 1) / 2)
      (by decide +kernel)
    rw [dF, d_val]
    push_cast
    push_cast at this
    rw [← this]
    have hv : Primes.powMod qN 256 37095705934669439343138083508754565189542113879843219016388785533085940283555 ((qN - 1) / 2) = qN - 1 := by
      decide +kernel
    rw [hv, Nat.cast_sub (by decide +kernel)]
    simp
  have hs : s ≠ 0 := by
    rintro rfl
    rw [← h, zero_pow (by norm_num), zero_pow (by decide +kernel)] at h0
    exact one_ne_zero (neg_eq_zero.mp h0.symm)
  have h1 : s ^ (qN - 1) = 1 := ZMod.pow_card_sub_one_eq_one hs
  rw [← h, ← pow_mul, show 2 * ((qN - 1) / 2) = qN - 1 by decide +kernel, h1] at h0
  have : (2 : Fq) = 0 := by linear_combination h0
  exact two_ne this

instance complete : Fact (Complete Fq dF) := ⟨⟨d_nonsquare, ⟨_, I_sq⟩, two_ne⟩⟩

/-- Points of the curve in affine coordinates. -/
abbrev Point := Pt dF

/-- Extended coordinates that stand for an affine point. -/
structure Rep (P : Ext) (p : Point) : Prop where
  z : (P.z : Fq) ≠ 0
  x : (P.x : Fq) = p.x * P.z
  y : (P.y : Fq) = p.y * P.z
  t : (P.t : Fq) = p.x * p.y * P.z

theorem rep_ident : Rep ident 0 := by
  constructor <;> simp [ident, Pt.zero_x, Pt.zero_y]

theorem rep_add {P Q : Ext} {p r : Point} (hP : Rep P p) (hQ : Rep Q r) : Rep (add P Q) (p + r) := by
  have hp := den_pos complete.out p.on r.on
  have hn := den_neg complete.out p.on r.on
  have hx : (p + r).x * (1 + dF * p.x * r.x * p.y * r.y) = p.x * r.y + r.x * p.y := div_mul_cancel₀ _ hp
  have hy : (p + r).y * (1 - dF * p.x * r.x * p.y * r.y) = p.y * r.y + p.x * r.x := div_mul_cancel₀ _ hn
  generalize (p + r) = s at *
  constructor
  · simp only [add, cast_mod_q, Int.cast_mul, Int.cast_sub, Int.cast_add, Int.cast_ofNat, cast_d, hP.x, hP.y, hP.t, hQ.x, hQ.y, hQ.t]
    have : (P.z * 2 * Q.z - p.x * p.y * P.z * 2 * dF * (r.x * r.y * Q.z)) *
        (P.z * 2 * Q.z + p.x * p.y * P.z * 2 * dF * (r.x * r.y * Q.z)) =
        (2 * P.z * Q.z) * (2 * P.z * Q.z) * (1 - dF * p.x * r.x * p.y * r.y) * (1 + dF * p.x * r.x * p.y * r.y) := by
      ring
    rw [this]
    exact mul_ne_zero (mul_ne_zero (mul_ne_zero (mul_ne_zero (mul_ne_zero two_ne hP.z) hQ.z)
      (mul_ne_zero (mul_ne_zero two_ne hP.z) hQ.z)) hn) hp
  · simp only [add, cast_mod_q, Int.cast_mul, Int.cast_sub, Int.cast_add, Int.cast_ofNat, cast_d, hP.x, hP.y, hP.t, hQ.x, hQ.y, hQ.t]
    linear_combination (-4 * (P.z : Fq) ^ 2 * (Q.z : Fq) ^ 2 * (1 - dF * p.x * r.x * p.y * r.y)) * hx
  · simp only [add, cast_mod_q, Int.cast_mul, Int.cast_sub, Int.cast_add, Int.cast_ofNat, cast_d, hP.x, hP.y, hP.t, hQ.x, hQ.y, hQ.t]
    linear_combination (-4 * (P.z : Fq) ^ 2 * (Q.z : Fq) ^ 2 * (1 + dF * p.x * r.x * p.y * r.y)) * hy
  · simp only [add, cast_mod_q, Int.cast_mul, Int.cast_sub, Int.cast_add, Int.cast_ofNat, cast_d, hP.x, hP.y, hP.t, hQ.x, hQ.y, hQ.t]
    linear_combination (-4 * (P.z : Fq) ^ 2 * (Q.z : Fq) ^ 2 * (p.y * r.y + p.x * r.x)) * hx -
      (4 * (P.z : Fq) ^ 2 * (Q.z : Fq) ^ 2 * s.x * (1 + dF * p.x * r.x * p.y * r.y)) * hy

theorem rep_double {P : Ext} {p : Point} (hP : Rep P p) : Rep (double P) (p + p) := by
  have hp := den_pos complete.out p.on p.on
  have hn := den_neg complete.out p.on p.on
  have hx : (p + p).x * (1 + dF * p.x * p.x * p.y * p.y) = p.x * p.y + p.x * p.y := div_mul_cancel₀ _ hp
  have hy : (p + p).y * (1 - dF * p.x * p.x * p.y * p.y) = p.y * p.y + p.x * p.x := div_mul_cancel₀ _ hn
  have ho : p.y ^ 2 - p.x ^ 2 = 1 + dF * p.x ^ 2 * p.y ^ 2 := p.on
  have hg : -p.x ^ 2 + p.y ^ 2 ≠ 0 := by
    intro h; apply hp; linear_combination h - ho
  have hf : -p.x ^ 2 + p.y ^ 2 - 2 ≠ 0 := by
    intro h; apply hn; linear_combination ho - h
  have hx' : (p + p).x * (-p.x ^ 2 + p.y ^ 2) = 2 * p.x * p.y := by linear_combination hx + (p + p).x * ho
  have hy' : (p + p).y * (-p.x ^ 2 + p.y ^ 2 - 2) = -p.x ^ 2 - p.y ^ 2 := by linear_combination (p + p).y * ho - hy
  generalize (p + p) = s at *
  constructor
  · simp only [double, cast_mod_q, Int.cast_mul, Int.cast_sub, Int.cast_add, Int.cast_neg, Int.cast_ofNat, hP.x, hP.y]
    have : (-(p.x * P.z * (p.x * P.z)) + p.y * P.z * (p.y * P.z) - 2 * P.z * P.z) * (-(p.x * P.z * (p.x * P.z)) + p.y * P.z * (p.y * P.z))
        = (P.z : Fq) ^ 2 * (P.z : Fq) ^ 2 * (-p.x ^ 2 + p.y ^ 2 - 2) * (-p.x ^ 2 + p.y ^ 2) := by ring
    rw [this]
    exact mul_ne_zero (mul_ne_zero (mul_ne_zero (pow_ne_zero 2 hP.z) (pow_ne_zero 2 hP.z)) hf) hg
  · simp only [double, cast_mod_q, Int.cast_mul, Int.cast_sub, Int.cast_add, Int.cast_neg, Int.cast_ofNat, hP.x, hP.y]
    linear_combination (-(P.z : Fq) ^ 4 * (-p.x ^ 2 + p.y ^ 2 - 2)) * hx'
  · simp only [double, cast_mod_q, Int.cast_mul, Int.cast_sub, Int.cast_add, Int.cast_neg, Int.cast_ofNat, hP.x, hP.y]
    linear_combination (-(P.z : Fq) ^ 4 * (-p.x ^ 2 + p.y ^ 2)) * hy'
  · simp only [double, cast_mod_q, Int.cast_mul, Int.cast_sub, Int.cast_add, Int.cast_neg, Int.cast_ofNat, hP.x, hP.y]
    linear_combination (-(P.z : Fq) ^ 4 * (-p.x ^ 2 - p.y ^ 2)) * hx' - ((P.z : Fq) ^ 4 * s.x * (-p.x ^ 2 + p.y ^ 2)) * hy'

theorem rep_neg {P : Ext} {p : Point} (hP : Rep P p) : Rep (neg P) (-p) := by
  constructor
  · exact hP.z
  · simp only [neg, cast_mod_q, Int.cast_mul, Int.cast_neg, Int.cast_one, hP.x, Pt.neg_x]; ring
  · simp only [neg, hP.y, Pt.neg_y]
  · simp only [neg, cast_mod_q, Int.cast_mul, Int.cast_neg, Int.cast_one, hP.t, Pt.neg_x, Pt.neg_y]; ring

theorem rep_sub {P Q : Ext} {p r : Point} (hP : Rep P p) (hQ : Rep Q r) : Rep (sub P Q) (p - r) := by
  rw [sub_eq_add_neg]; exact rep_add hP (rep_neg hQ)

theorem rep_smulFuel {P : Ext} {p : Point} (hP : Rep P p) (fuel e : ℕ) (h : e < 2 ^ fuel) : Rep (smulFuel fuel P e) (e • p) := by
  induction fuel generalizing e with
  | zero => have : e = 0 := by simpa using h
            subst this; simpa [smulFuel] using rep_ident
  | succ k ih =>
    simp only [smulFuel]
    have h2 : e / 2 < 2 ^ k := by rw [pow_succ] at h; omega
    split
    · rename_i h0; subst h0; simpa using rep_ident
    · have hd := rep_double (ih _ h2)
      rw [← two_nsmul, ← mul_nsmul'] at hd
      split
      · have := rep_add hd hP
        rw [← succ_nsmul] at this
        convert this using 2; omega
      · convert hd using 2; omega

theorem rep_smul {P : Ext} {p : Point} (hP : Rep P p) (e : ℕ) : Rep (scalarmult P e) (e • p) :=
  rep_smulFuel hP _ e Nat.lt_log2_self

/-- Two points given by the same coordinates are the same. -/
theorem rep_unique {P : Ext} {p r : Point} (h1 : Rep P p) (h2 : Rep P r) : p = r := by
  refine Pt.ext' ?_ ?_
  · exact mul_right_cancel₀ h1.z (h1.x.symm.trans h2.x)
  · exact mul_right_cancel₀ h1.z (h1.y.symm.trans h2.y)

theorem pointEqual_iff {P Q : Ext} {p r : Point} (hP : Rep P p) (hQ : Rep Q r) : pointEqual P Q = true ↔ p = r := by
  have hx : (P.x * Q.z - Q.x * P.z) % q = 0 ↔ p.x = r.x := by
    rw [mod_q_eq_zero, Int.cast_sub, Int.cast_mul, Int.cast_mul, hP.x, hQ.x, sub_eq_zero]
    refine ⟨fun h => ?_, fun h => by rw [h]; ring⟩
    apply mul_right_cancel₀ (mul_ne_zero hP.z hQ.z)
    linear_combination h
  have hy : (P.y * Q.z - Q.y * P.z) % q = 0 ↔ p.y = r.y := by
    rw [mod_q_eq_zero, Int.cast_sub, Int.cast_mul, Int.cast_mul, hP.y, hQ.y, sub_eq_zero]
    refine ⟨fun h => ?_, fun h => by rw [h]; ring⟩
    apply mul_right_cancel₀ (mul_ne_zero hP.z hQ.z)
    linear_combination h
  simp only [pointEqual, ne_eq, hx, hy]
  constructor
  · intro h
    by_cases h1 : p.x = r.x
    · by_cases h2 : p.y = r.y
      · exact Pt.ext' h1 h2
      · simp [h1, h2] at h
    · simp [h1] at h
  · rintro rfl; simp

theorem isOnCurve_iff (P : Ext) : isOnCurve P = true ↔ ∃ p : Point, Rep P p := by
  simp only [isOnCurve, Bool.and_eq_true, bne_iff_ne, ne_eq, beq_iff_eq, mod_q_eq_zero, mod_q_eq]
  push_cast
  simp only [cast_d]
  constructor
  · rintro ⟨⟨hz, ht⟩, h⟩
    have hx : ((P.x : Fq) / P.z) * P.z = P.x := div_mul_cancel₀ _ hz
    have hy : ((P.y : Fq) / P.z) * P.z = P.y := div_mul_cancel₀ _ hz
    have hxy : (P.x : Fq) / P.z * (P.y / P.z) * P.z = P.t := by
      apply mul_left_cancel₀ hz
      rw [← ht]; linear_combination (P.y : Fq) * hx + ((P.x : Fq) / P.z * P.z) * hy
    refine ⟨⟨P.x / P.z, P.y / P.z, ?_⟩, hz, hx.symm, hy.symm, hxy.symm⟩
    unfold On
    apply mul_left_cancel₀ (pow_ne_zero 2 hz)
    generalize hu : (P.x : Fq) / P.z = u at *
    generalize hv : (P.y : Fq) / P.z = v at *
    rw [← hx, ← hy, ← hxy] at h
    linear_combination h
  · rintro ⟨p, hp⟩
    refine ⟨⟨hp.z, ?_⟩, ?_⟩
    · rw [hp.x, hp.y, hp.t]; ring
    · have ho : p.y ^ 2 - p.x ^ 2 = 1 + dF * p.x ^ 2 * p.y ^ 2 := p.on
      rw [hp.x, hp.y, hp.t]
      linear_combination (P.z : Fq) ^ 2 * ho

end Verif.Ed
