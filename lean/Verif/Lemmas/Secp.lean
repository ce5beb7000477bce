import Verif.Model.Secp
import Verif.Lemmas.SecpPrimes
import Verif.Lemmas.Ed25519
import Mathlib.AlgebraicGeometry.EllipticCurve.Affine.Point
import Mathlib.GroupTheory.OrderOfElement

/-! The affine arithmetic of SECP256k1 computes in the group of points of the elliptic curve `y² = x³ + 7`. -/

namespace Verif.Secp
open Verif

/-- The field size and the group order as natural numbers. -/
abbrev pN : ℕ := 115792089237316195423570985008687907853269984665640564039457584007908834671663

instance : Fact pN.Prime := ⟨Primes.prime_115792089237316195423570985008687907853269984665640564039457584007908834671663⟩
theorem n_prime : n.Prime := by
  have : n = 115792089237316195423570985008687907852837564279074904382605163141518161494337 := by decide +kernel
  rw [this]
  exact Primes.prime_115792089237316195423570985008687907852837564279074904382605163141518161494337

abbrev Fp := ZMod pN
theorem p_eq : p = (pN : ℤ) := by decide +kernel

/-- The curve. -/
def curve : WeierstrassCurve.Affine Fp := ⟨0, 0, 0, 0, 7⟩
/-- Its points, a commutative group. -/
abbrev Point := curve.Point

theorem cast_emod (a : ℤ) : ((a % p : ℤ) : Fp) = (a : Fp) := by
  rw [p_eq]; exact ZMod.intCast_mod a pN

theorem cast_eq_zero {a : ℤ} : ((a : ℤ) : Fp) = 0 ↔ a % p = 0 := by
  rw [ZMod.intCast_zmod_eq_zero_iff_dvd, p_eq, Int.dvd_iff_emod_eq_zero] <;> rfl

theorem p_pos : 0 < p := by decide +kernel
theorem emod_range (a : ℤ) : 0 ≤ a % p ∧ a % p < p := ⟨Int.emod_nonneg _ (by decide +kernel), Int.emod_lt_of_pos _ p_pos⟩

theorem cast_inj {a b : ℤ} (ha : 0 ≤ a ∧ a < p) (hb : 0 ≤ b ∧ b < p) : ((a : ℤ) : Fp) = b ↔ a = b := by
  constructor
  · intro h
    have h0 : ((a - b : ℤ) : Fp) = 0 := by push_cast; rw [h, sub_self]
    rw [cast_eq_zero] at h0
    have := Int.emod_emod_of_dvd a (dvd_refl p)
    have := Int.dvd_of_emod_eq_zero h0
    obtain ⟨c, hc⟩ := this
    have hc0 : c = 0 := by
      rcases lt_trichotomy c 0 with h | h | h
      · nlinarith [ha.1, hb.2, p_pos]
      · exact h
      · nlinarith [ha.2, hb.1, p_pos]
    subst hc0; linarith
  · intro h; rw [h]

theorem cast_expmod (fuel : ℕ) (b : ℤ) (e : ℕ) (h : e < 2 ^ fuel) : ((Ed.expmod p fuel b e : ℤ) : Fp) = (b : Fp) ^ e := by
  induction fuel generalizing e with
  | zero => have : e = 0 := by simpa using h
            simp [Ed.expmod, this]
  | succ k ih =>
    simp only [Ed.expmod]
    split
    · rename_i h0; simp [h0]
    · have h2 : e / 2 < 2 ^ k := by rw [pow_succ] at h; omega
      split
      · rename_i h1
        rw [cast_emod, Int.cast_mul, cast_emod, Int.cast_pow, ih _ h2, ← pow_mul, ← pow_succ]
        congr 1; omega
      · rw [cast_emod, Int.cast_pow, ih _ h2, ← pow_mul]
        congr 1; omega

theorem cast_inv (a : ℤ) : ((inv a : ℤ) : Fp) = (a : Fp)⁻¹ := by
  rw [inv, cast_expmod _ _ _ (by decide +kernel)]
  have he : (2 ^ 256 - 2 ^ 32 - 979 : ℕ) = pN - 2 := by decide +kernel
  rw [he]
  by_cases h : (a : Fp) = 0
  · rw [h, zero_pow (by decide +kernel), inv_zero]
  · have hf := ZMod.pow_card_sub_one_eq_one h
    have : (a : Fp) ^ (pN - 2) * a = 1 := by
      rw [← pow_succ]
      exact hf
    exact eq_inv_of_mul_eq_one_left this

theorem seven_ne : (7 : Fp) ≠ 0 := by
  have h := (cast_eq_zero (a := 7)).not.mpr (by decide +kernel)
  exact_mod_cast h
theorem two_ne : (2 : Fp) ≠ 0 := by
  have h := (cast_eq_zero (a := 2)).not.mpr (by decide +kernel)
  exact_mod_cast h
theorem three_ne : (3 : Fp) ≠ 0 := by
  have h := (cast_eq_zero (a := 3)).not.mpr (by decide +kernel)
  exact_mod_cast h

theorem nonsingular_iff (x y : Fp) : curve.Nonsingular x y ↔ y ^ 2 = x ^ 3 + 7 := by
  rw [WeierstrassCurve.Affine.nonsingular_iff, WeierstrassCurve.Affine.equation_iff]
  simp only [curve]
  constructor
  · rintro ⟨h, -⟩; linear_combination h
  · intro h
    refine ⟨by linear_combination h, ?_⟩
    by_contra hc
    push_neg at hc
    obtain ⟨h1, h2⟩ := hc
    have hy : y = 0 := by
      have : 2 * y = 0 := by linear_combination h2
      exact (mul_eq_zero.mp this).resolve_left two_ne
    have hx : x = 0 := by
      have : 3 * x ^ 2 = 0 := by linear_combination -h1
      exact pow_eq_zero_iff (by norm_num) |>.mp ((mul_eq_zero.mp this).resolve_left three_ne)
    rw [hx, hy] at h
    apply seven_ne
    linear_combination -h

/-- Coordinates represent a point of the curve. -/
def Rep : Pt → Point → Prop
  | none, W => W = 0
  | some (x, y), W => (0 ≤ x ∧ x < p) ∧ (0 ≤ y ∧ y < p) ∧ ∃ h, W = .some (x : Fp) (y : Fp) h

theorem rep_unique {P Q : Pt} {W : Point} (h1 : Rep P W) (h2 : Rep Q W) : P = Q := by
  match P, Q, h1, h2 with
  | none, none, _, _ => rfl
  | none, some (x, y), h1, ⟨_, _, _, h2⟩ => rw [show W = 0 from h1] at h2; cases h2
  | some (x, y), none, ⟨_, _, _, h1⟩, h2 => rw [show W = 0 from h2] at h1; cases h1
  | some (x, y), some (x', y'), ⟨a, b, _, h1⟩, ⟨a', b', _, h2⟩ =>
    rw [h1] at h2
    injection h2 with e1 e2
    rw [(cast_inj a a').mp e1, (cast_inj b b').mp e2]

theorem rep_inj {P : Pt} {W V : Point} (h1 : Rep P W) (h2 : Rep P V) : W = V := by
  match P, h1, h2 with
  | none, h1, h2 => rw [show W = 0 from h1, show V = 0 from h2]
  | some (x, y), ⟨_, _, _, h1⟩, ⟨_, _, _, h2⟩ => rw [h1, h2]

theorem exists_rep (W : Point) : ∃ P, Rep P W := by
  match W with
  | .zero => exact ⟨none, rfl⟩
  | .some x y h =>
    refine ⟨some (x.val, y.val), ⟨Int.natCast_nonneg _, ?_⟩, ⟨Int.natCast_nonneg _, ?_⟩, ?_⟩
    · rw [p_eq]; exact Int.ofNat_lt.2 (ZMod.val_lt x)
    · rw [p_eq]; exact Int.ofNat_lt.2 (ZMod.val_lt y)
    · have hx : (((x.val : ℕ) : ℤ) : Fp) = x := by rw [Int.cast_natCast, ZMod.natCast_zmod_val]
      have hy : (((y.val : ℕ) : ℤ) : Fp) = y := by rw [Int.cast_natCast, ZMod.natCast_zmod_val]
      exact ⟨by rw [hx, hy]; exact h, by simp only [hx, hy]⟩

theorem negY_eq (x y : Fp) : curve.negY x y = -y := by simp [WeierstrassCurve.Affine.negY, curve]

theorem some_congr {x y x' y' : Fp} {h : curve.Nonsingular x y} (h' : curve.Nonsingular x' y') (hx : x = x') (hy : y = y') :
    (WeierstrassCurve.Affine.Point.some x y h : Point) = .some x' y' h' := by subst hx; subst hy; rfl

theorem rep_double {P : Pt} {W : Point} (h : Rep P W) : Rep (double P) (2 • W) := by
  match P, h with
  | none, h => rw [show W = 0 from h]; exact nsmul_zero 2
  | some (x, y), ⟨hx, hy, hn, hW⟩ =>
    rw [two_nsmul, hW]
    simp only [double]
    split
    · rename_i h0
      refine WeierstrassCurve.Affine.Point.add_self_of_Y_eq ?_
      rw [negY_eq, h0]; simp
    · rename_i h0
      have hyF : (y : Fp) ≠ 0 := by
        intro hc
        exact h0 ((cast_inj hy ⟨le_refl _, p_pos⟩).mp (by simpa using hc))
      have hne : (y : Fp) ≠ curve.negY (x : Fp) (y : Fp) := by
        rw [negY_eq]
        intro hc
        have : 2 * (y : Fp) = 0 := by linear_combination hc
        exact hyF ((mul_eq_zero.mp this).resolve_left two_ne)
      rw [WeierstrassCurve.Affine.Point.add_self_of_Y_ne hne]
      refine ⟨emod_range _, emod_range _, ?_⟩
      have hs : curve.slope (x : Fp) x y y = ((3 * x * x * inv (2 * y) % p : ℤ) : Fp) := by
        rw [WeierstrassCurve.Affine.slope_of_Y_ne rfl hne, negY_eq, cast_emod]
        push_cast
        rw [cast_inv]
        push_cast
        simp only [curve]
        rw [div_eq_mul_inv]
        ring_nf
      have hX : curve.addX (x : Fp) x (curve.slope (x : Fp) x y y) = (((3 * x * x * inv (2 * y) % p) * (3 * x * x * inv (2 * y) % p) - 2 * x) % p : ℤ) := by
        rw [cast_emod, hs]
        generalize (3 * x * x * inv (2 * y) % p) = l
        simp only [WeierstrassCurve.Affine.addX, curve]
        push_cast
        ring
      have hY : curve.addY (x : Fp) x y (curve.slope (x : Fp) x y y) = (((3 * x * x * inv (2 * y) % p) * (x - ((3 * x * x * inv (2 * y) % p) * (3 * x * x * inv (2 * y) % p) - 2 * x) % p) - y) % p : ℤ) := by
        simp only [WeierstrassCurve.Affine.addY, WeierstrassCurve.Affine.negAddY]
        rw [hX, negY_eq, hs, cast_emod (_ - y)]
        generalize (3 * x * x * inv (2 * y) % p) = l
        generalize ((l * l - 2 * x) % p) = x3
        push_cast
        ring
      have hnn := WeierstrassCurve.Affine.nonsingular_add hn hn (fun hxy => hne hxy.2)
      refine ⟨?_, some_congr _ hX hY⟩
      rw [← hX, ← hY]; exact hnn

theorem rep_add {P Q : Pt} {W V : Point} (h : Rep P W) (k : Rep Q V) : Rep (add P Q) (W + V) := by
  match P, Q, h, k with
  | none, Q, h, k => rw [show W = 0 from h, zero_add]; simpa [add] using k
  | some P, none, h, k => rw [show V = 0 from k, add_zero]; simpa [add] using h
  | some (x1, y1), some (x2, y2), ⟨hx1, hy1, hn1, hW⟩, ⟨hx2, hy2, hn2, hV⟩ =>
    simp only [add]
    by_cases hx : x1 = x2
    · rw [if_pos hx]
      subst hx
      by_cases hy : (y1 + y2) % p = 0
      · rw [if_pos hy, hW, hV]
        refine WeierstrassCurve.Affine.Point.add_of_Y_eq rfl ?_
        rw [negY_eq]
        have := cast_eq_zero.mpr hy
        push_cast at this
        linear_combination this
      · rw [if_neg hy]
        have e1 := (nonsingular_iff _ _).mp hn1
        have e2 := (nonsingular_iff _ _).mp hn2
        have hne : (y1 : Fp) + y2 ≠ 0 := by
          intro hc
          exact hy (cast_eq_zero.mp (by push_cast; exact hc))
        have : ((y1 : Fp) - y2) * (y1 + y2) = 0 := by linear_combination e1 - e2
        have hyy : (y1 : Fp) = y2 := by
          have := (mul_eq_zero.mp this).resolve_right hne
          linear_combination this
        have hy' := (cast_inj hy1 hy2).mp hyy
        subst hy'
        have hWV : V = W := by rw [hW, hV]
        rw [hWV, ← two_nsmul]
        exact rep_double (P := some (x1, y1)) ⟨hx1, hy1, hn1, hW⟩
    · rw [if_neg hx, hW, hV]
      have hxF : (x1 : Fp) ≠ x2 := fun hc => hx ((cast_inj hx1 hx2).mp hc)
      rw [WeierstrassCurve.Affine.Point.add_of_X_ne hxF]
      refine ⟨emod_range _, emod_range _, ?_⟩
      have hs : curve.slope (x1 : Fp) x2 y1 y2 = (((y2 - y1) * inv (x2 - x1) % p : ℤ) : Fp) := by
        rw [WeierstrassCurve.Affine.slope_of_X_ne hxF, cast_emod]
        push_cast
        rw [cast_inv]
        push_cast
        have h1 : (x1 : Fp) - x2 ≠ 0 := sub_ne_zero.mpr hxF
        have h2 : (x2 : Fp) - x1 ≠ 0 := sub_ne_zero.mpr (Ne.symm hxF)
        field_simp
        ring
      have hX : curve.addX (x1 : Fp) x2 (curve.slope (x1 : Fp) x2 y1 y2) = ((((y2 - y1) * inv (x2 - x1) % p) * ((y2 - y1) * inv (x2 - x1) % p) - x1 - x2) % p : ℤ) := by
        rw [cast_emod, hs]
        generalize ((y2 - y1) * inv (x2 - x1) % p) = l
        simp only [WeierstrassCurve.Affine.addX, curve]
        push_cast
        ring
      have hY : curve.addY (x1 : Fp) x2 y1 (curve.slope (x1 : Fp) x2 y1 y2) = ((((y2 - y1) * inv (x2 - x1) % p) * (x1 - (((y2 - y1) * inv (x2 - x1) % p) * ((y2 - y1) * inv (x2 - x1) % p) - x1 - x2) % p) - y1) % p : ℤ) := by
        simp only [WeierstrassCurve.Affine.addY, WeierstrassCurve.Affine.negAddY]
        rw [hX, negY_eq, hs, cast_emod (_ - y1)]
        generalize ((y2 - y1) * inv (x2 - x1) % p) = l
        generalize ((l * l - x1 - x2) % p) = x3
        push_cast
        ring
      have hnn := WeierstrassCurve.Affine.nonsingular_add hn1 hn2 (fun hxy => hxF hxy.1)
      refine ⟨?_, some_congr _ hX hY⟩
      rw [← hX, ← hY]; exact hnn

theorem rep_mulFuel {P : Pt} {W : Point} (h : Rep P W) (k e : ℕ) (he : e < 2 ^ k) : Rep (mulFuel k P e) (e • W) := by
  induction k generalizing e with
  | zero => have : e = 0 := by simpa using he
            subst this; simp only [mulFuel]; exact zero_nsmul _
  | succ k ih =>
    simp only [mulFuel]
    split
    · rename_i h0; subst h0; exact zero_nsmul _
    · have h2 : e / 2 < 2 ^ k := by rw [pow_succ] at he; omega
      have hd := rep_double (ih _ h2)
      rw [← mul_nsmul'] at hd
      split
      · have := rep_add hd h
        rwa [← succ_nsmul, show 2 * (e / 2) + 1 = e by omega] at this
      · rwa [show 2 * (e / 2) = e by omega] at hd

theorem rep_mul {P : Pt} {W : Point} (h : Rep P W) (e : ℕ) : Rep (mul P e) (e • W) :=
  rep_mulFuel h _ _ (Nat.lt_log2_self)

theorem g_contains : contains (0x79BE667EF9DCBBAC55A06295CE870B07029BFCDB2DCE28D959F2815B16F81798)
  (0x483ADA7726A3C4655DA4FBFC0E1108A8FD17B448A68554199C47D08FFB10D4B8) = true := by decide +kernel

theorem contains_iff (x y : ℤ) : contains x y = true ↔ curve.Nonsingular (x : Fp) (y : Fp) := by
  rw [nonsingular_iff, contains, decide_eq_true_iff, ← cast_eq_zero]
  push_cast
  constructor
  · intro h; linear_combination h
  · intro h; linear_combination h

/-- The generator. -/
def G : Point := .some _ _ ((contains_iff _ _).mp g_contains)
theorem rep_g : Rep g G := ⟨by decide +kernel, by decide +kernel, (contains_iff _ _).mp g_contains, rfl⟩

theorem mul_n : mulFuel 256 g n = none := by decide +kernel

theorem smul_G_of_none {k e : ℕ} (h : mulFuel k g e = none) (he : e < 2 ^ k) : e • G = 0 := by
  have := rep_mulFuel rep_g k e he
  rw [h] at this
  exact this

theorem n_lt : n < 2 ^ 256 := by decide +kernel
theorem n_G : n • G = 0 := smul_G_of_none mul_n n_lt

theorem G_ne : G ≠ 0 := by intro h; cases h

theorem order_G : addOrderOf G = n := by
  haveI : Fact n.Prime := ⟨n_prime⟩
  exact addOrderOf_eq_prime n_G G_ne

theorem smul_G_ne {k : ℕ} (h1 : 0 < k) (h2 : k < n) : k • G ≠ 0 := by
  intro h
  have := addOrderOf_dvd_of_nsmul_eq_zero h
  rw [order_G] at this
  exact absurd (Nat.le_of_dvd h1 this) (by omega)

end Verif.Secp
