import Mathlib.Algebra.Field.Basic
import Mathlib.Tactic.LinearCombination
import Mathlib.Tactic.FieldSimp
import Mathlib.Tactic.Ring
import Mathlib.Algebra.Group.Even

/-! The group of a twisted Edwards curve `y² - x² = 1 + d x² y²` over a field with a square root of -1 in which `d` is not a square. -/

namespace Verif.Edwards

variable {F : Type} [Field F]

/-- The curve equation. -/
def On (d x y : F) : Prop := y ^ 2 - x ^ 2 = 1 + d * x ^ 2 * y ^ 2

/-- What makes the addition law complete. -/
structure Complete (F : Type) [Field F] (d : F) : Prop where
  nonsquare : ∀ s : F, s ^ 2 ≠ d
  imag : ∃ i : F, i ^ 2 = -1
  two : (2 : F) ≠ 0

/-- The denominators of the addition law do not vanish. -/
theorem den_ne {d : F} (hc : Complete F d) {x1 y1 x2 y2 : F} (h1 : On d x1 y1) (h2 : On d x2 y2) {e : F} (he : e ^ 2 = 1) :
    1 + e * (d * x1 * x2 * y1 * y2) ≠ 0 := by
  obtain ⟨i, hi⟩ := hc.imag
  intro h
  unfold On at h1 h2
  have hk : d * x1 * x2 * y1 * y2 = -e := by linear_combination e * h - (d * x1 * x2 * y1 * y2) * he
  have hk2 : (d * x1 * x2 * y1 * y2) ^ 2 = 1 := by rw [hk]; linear_combination he
  -- X = i x satisfies X² + y² = 1 - d X² y²
  have hxy1 : x1 * y1 ≠ 0 := by
    intro h0
    have : d * x1 * x2 * y1 * y2 = 0 := by linear_combination d * x2 * y2 * h0
    rw [this] at hk2; simp at hk2
  have key : ∀ s : F, s ^ 2 = 1 → d * (x1 * y1 * (i * x2 + s * y2)) ^ 2 = (i * (x1 + s * i * e * y1)) ^ 2 := by
    intro s hs
    have e1 : (d * x1 * x2 * y1 * y2) * (x1 * y1) * (2 * s * i) = -e * (x1 * y1) * (2 * s * i) := by rw [hk]
    have e2 : d * x1 ^ 2 * y1 ^ 2 * (d * x2 ^ 2 * y2 ^ 2) = 1 := by linear_combination hk2
    linear_combination (d * x1 ^ 2 * y1 ^ 2 * x2 ^ 2) * hi + (d * x1 ^ 2 * y1 ^ 2 * y2 ^ 2) * hs + e1 + e2 +
      (d * x1 ^ 2 * y1 ^ 2) * h2 - h1 - (x1 ^ 2 + 2 * x1 * s * i * e * y1) * hi - (i ^ 4 * e ^ 2 * y1 ^ 2) * hs -
      (i ^ 4 * y1 ^ 2) * he - (y1 ^ 2 * (i ^ 2 - 1)) * hi
  have nz : ∀ s : F, s ^ 2 = 1 → i * x2 + s * y2 = 0 := by
    intro s hs
    by_contra hne
    have hne' : x1 * y1 * (i * x2 + s * y2) ≠ 0 := mul_ne_zero hxy1 hne
    refine hc.nonsquare ((i * (x1 + s * i * e * y1)) / (x1 * y1 * (i * x2 + s * y2))) ?_
    rw [div_pow, ← key s hs, mul_div_assoc, div_self (pow_ne_zero 2 hne'), mul_one]
  have a := nz 1 (by ring)
  have b := nz (-1) (by ring)
  have hy : y2 = 0 := by
    have : 2 * y2 = 0 := by linear_combination a - b
    exact (mul_eq_zero.mp this).resolve_left hc.two
  rw [hy] at hk2; simp at hk2

theorem den_pos {d : F} (hc : Complete F d) {x1 y1 x2 y2 : F} (h1 : On d x1 y1) (h2 : On d x2 y2) :
    1 + d * x1 * x2 * y1 * y2 ≠ 0 := by
  have := den_ne hc h1 h2 (e := 1) (by ring)
  simpa using this

theorem den_neg {d : F} (hc : Complete F d) {x1 y1 x2 y2 : F} (h1 : On d x1 y1) (h2 : On d x2 y2) :
    1 - d * x1 * x2 * y1 * y2 ≠ 0 := by
  have := den_ne hc h1 h2 (e := -1) (by ring)
  intro h; apply this; linear_combination h

def addX (d x1 y1 x2 y2 : F) : F := (x1 * y2 + x2 * y1) / (1 + d * x1 * x2 * y1 * y2)
def addY (d x1 y1 x2 y2 : F) : F := (y1 * y2 + x1 * x2) / (1 - d * x1 * x2 * y1 * y2)

/-- The sum is on the curve. -/
theorem on_add {d : F} (hc : Complete F d) {x1 y1 x2 y2 : F} (h1 : On d x1 y1) (h2 : On d x2 y2) :
    On d (addX d x1 y1 x2 y2) (addY d x1 y1 x2 y2) := by
  have p0 := den_pos hc h1 h2
  have m0 := den_neg hc h1 h2
  have hX : addX d x1 y1 x2 y2 * (1 + d * x1 * x2 * y1 * y2) = x1 * y2 + x2 * y1 := div_mul_cancel₀ _ p0
  have hY : addY d x1 y1 x2 y2 * (1 - d * x1 * x2 * y1 * y2) = y1 * y2 + x1 * x2 := div_mul_cancel₀ _ m0
  unfold On at h1 h2 ⊢
  have g : (y1 * y2 + x1 * x2) ^ 2 * (1 + d * x1 * x2 * y1 * y2) ^ 2 - (x1 * y2 + x2 * y1) ^ 2 * (1 - d * x1 * x2 * y1 * y2) ^ 2
      = (1 + d * x1 * x2 * y1 * y2) ^ 2 * (1 - d * x1 * x2 * y1 * y2) ^ 2 +
        d * (x1 * y2 + x2 * y1) ^ 2 * (y1 * y2 + x1 * x2) ^ 2 := by
    linear_combination (y2^4 - 4*x2^2*y2^2 - 2*x2^2*y2^2*d + 2*x2^2*y2^4 + x2^4 - 2*x2^4*y2^2 - 2*x2^4*y2^4*d - x2^4*y2^4*d^2 -
    y1^2*x2^2*y2^4*d + y1^2*x2^4*y2^2*d + y1^2*x2^4*y2^4*d^2 + x1^2*x2^2*y2^4*d - x1^2*x2^4*y2^2*d - x1^2*x2^4*y2^4*d^2 +
    x1^2*y1^2*x2^4*y2^4*d^3)*h1 + (1 + y2^2 - x2^2 + 2*x2^2*y2^2 + x2^2*y2^2*d - y1^2*y2^2 + y1^2*x2^2 - 2*y1^2*x2^2*y2^2 -
    2*y1^2*x2^2*y2^2*d + y1^4*x2^2*y2^2*d + x1^2*y2^2 - x1^2*x2^2 + 2*x1^2*x2^2*y2^2 + 2*x1^2*x2^2*y2^2*d + x1^4*x2^2*y2^2*d)*h2
  rw [← hX, ← hY] at g
  have hne : (1 + d * x1 * x2 * y1 * y2) ^ 2 * (1 - d * x1 * x2 * y1 * y2) ^ 2 ≠ 0 :=
    mul_ne_zero (pow_ne_zero 2 p0) (pow_ne_zero 2 m0)
  apply mul_left_cancel₀ hne
  linear_combination g

/-- A sum of a sum as fractions over the inner denominators. -/
theorem addX_frac {d a b c e x y : F} (hb : b ≠ 0) (he : e ≠ 0) (hd : 1 + d * (a / b) * x * (c / e) * y ≠ 0) :
    b * e + d * a * x * c * y ≠ 0 ∧ addX d (a / b) (c / e) x y * (b * e + d * a * x * c * y) = a * y * e + x * c * b := by
  have h1 : b * e + d * a * x * c * y = b * e * (1 + d * (a / b) * x * (c / e) * y) := by field_simp
  have h2 : b * e * ((a / b) * y + x * (c / e)) = a * y * e + x * c * b := by field_simp
  refine ⟨by rw [h1]; exact mul_ne_zero (mul_ne_zero hb he) hd, ?_⟩
  rw [h1, ← h2, addX, mul_comm (b * e), ← mul_assoc, div_mul_cancel₀ _ hd, mul_comm]

theorem addY_frac {d a b c e x y : F} (hb : b ≠ 0) (he : e ≠ 0) (hd : 1 - d * (a / b) * x * (c / e) * y ≠ 0) :
    b * e - d * a * x * c * y ≠ 0 ∧ addY d (a / b) (c / e) x y * (b * e - d * a * x * c * y) = c * y * b + a * x * e := by
  have h1 : b * e - d * a * x * c * y = b * e * (1 - d * (a / b) * x * (c / e) * y) := by field_simp
  have h2 : b * e * ((c / e) * y + (a / b) * x) = c * y * b + a * x * e := by field_simp
  refine ⟨by rw [h1]; exact mul_ne_zero (mul_ne_zero hb he) hd, ?_⟩
  rw [h1, ← h2, addY, mul_comm (b * e), ← mul_assoc, div_mul_cancel₀ _ hd, mul_comm]

theorem addX_comm (d x1 y1 x2 y2 : F) : addX d x1 y1 x2 y2 = addX d x2 y2 x1 y1 := by
  unfold addX; congr 1 <;> ring

theorem addY_comm (d x1 y1 x2 y2 : F) : addY d x1 y1 x2 y2 = addY d x2 y2 x1 y1 := by
  unfold addY; congr 1 <;> ring

theorem cancel_frac {u v n1 m1 n2 m2 : F} (h1 : m1 ≠ 0) (h2 : m2 ≠ 0) (e1 : u * m1 = n1) (e2 : v * m2 = n2) (h : n1 * m2 = n2 * m1) :
    u = v := by
  apply mul_left_cancel₀ (mul_ne_zero h1 h2)
  rw [← e1, ← e2] at h
  linear_combination h

/-- Associativity. -/
theorem assoc {d : F} (hc : Complete F d) {x1 y1 x2 y2 x3 y3 : F} (h1 : On d x1 y1) (h2 : On d x2 y2) (h3 : On d x3 y3) :
    addX d (addX d x1 y1 x2 y2) (addY d x1 y1 x2 y2) x3 y3 = addX d x1 y1 (addX d x2 y2 x3 y3) (addY d x2 y2 x3 y3) ∧
    addY d (addX d x1 y1 x2 y2) (addY d x1 y1 x2 y2) x3 y3 = addY d x1 y1 (addX d x2 y2 x3 y3) (addY d x2 y2 x3 y3) := by
  have p12 := den_pos hc h1 h2
  have m12 := den_neg hc h1 h2
  have p23 := den_pos hc h2 h3
  have m23 := den_neg hc h2 h3
  have o12 := on_add hc h1 h2
  have o23 := on_add hc h2 h3
  obtain ⟨a1, a2⟩ := addX_frac p12 m12 (den_pos hc o12 h3)
  obtain ⟨b1, b2⟩ := addY_frac p12 m12 (den_neg hc o12 h3)
  obtain ⟨c1, c2⟩ := addX_frac p23 m23 (den_pos hc o23 h1)
  obtain ⟨e1, e2⟩ := addY_frac p23 m23 (den_neg hc o23 h1)
  unfold On at h1 h2 h3
  constructor
  · rw [addX_comm d x1 y1 (addX d x2 y2 x3 y3)]
    refine cancel_frac a1 c1 a2 c2 ?_
    linear_combination (-y1*x2*y2^4*x3^2*y3*d - y1*x2^2*y2^3*x3*d - y1*x2^2*y2^3*x3^3*d - y1*x2^3*y2^2*y3*d + y1*x2^3*y2^2*y3^3*d +
    y1*x2^3*y2^4*x3^2*y3*d^2 + y1*x2^4*y2*x3*y3^2*d + y1*x2^4*y2^3*x3*y3^2*d^2 + x1*x2*y2^4*x3*y3^2*d - x1*x2^2*y2^3*y3*d +
    x1*x2^2*y2^3*y3^3*d - x1*x2^3*y2^2*x3*d - x1*x2^3*y2^2*x3^3*d - x1*x2^3*y2^4*x3*y3^2*d^2 - x1*x2^4*y2*x3^2*y3*d -
    x1*x2^4*y2^3*x3^2*y3*d^2)*h1 + (y1*y2*x3 - y1*y2*x3*y3^2 + y1*y2*x3^3 + y1*y2*x3^3*y3^2*d + y1*x2*y3 - y1*x2*y3^3 + y1*x2*x3^2*y3
    + y1*x2*x3^2*y3^3*d - y1*x2*y2^2*x3^2*y3*d - y1*x2^2*y2*x3*y3^2*d - y1^3*y2*x3 + y1^3*y2*x3*y3^2 - y1^3*y2*x3^3 -
    y1^3*y2*x3^3*y3^2*d - y1^3*x2*y3 + y1^3*x2*y3^3 - y1^3*x2*x3^2*y3 - y1^3*x2*x3^2*y3^3*d + y1^3*x2*y2^2*x3^2*y3*d +
    y1^3*x2^2*y2*x3*y3^2*d + x1*y2*y3 - x1*y2*y3^3 + x1*y2*x3^2*y3 + x1*y2*x3^2*y3^3*d + x1*x2*x3 - x1*x2*x3*y3^2 + x1*x2*x3^3 +
    x1*x2*x3^3*y3^2*d + x1*x2*y2^2*x3*y3^2*d + x1*x2^2*y2*x3^2*y3*d - x1*y1^2*y2*y3 + x1*y1^2*y2*y3^3 - x1*y1^2*y2*x3^2*y3 -
    x1*y1^2*y2*x3^2*y3^3*d - x1*y1^2*x2*x3 + x1*y1^2*x2*x3*y3^2 - x1*y1^2*x2*x3^3 - x1*y1^2*x2*x3^3*y3^2*d - x1*y1^2*x2*y2^2*x3*y3^2*d
    + x1*y1^2*x2*y2^2*x3^3*y3^2*d^2 - x1*y1^2*x2^2*y2*x3^2*y3*d - x1*y1^2*x2^2*y2*x3^2*y3^3*d^2 + x1^2*y1*y2*x3 - x1^2*y1*y2*x3*y3^2 +
    x1^2*y1*y2*x3^3 + x1^2*y1*y2*x3^3*y3^2*d + x1^2*y1*x2*y3 - x1^2*y1*x2*y3^3 + x1^2*y1*x2*x3^2*y3 + x1^2*y1*x2*x3^2*y3^3*d -
    x1^2*y1*x2*y2^2*x3^2*y3*d - x1^2*y1*x2*y2^2*x3^2*y3^3*d^2 - x1^2*y1*x2^2*y2*x3*y3^2*d + x1^2*y1*x2^2*y2*x3^3*y3^2*d^2 + x1^3*y2*y3
    - x1^3*y2*y3^3 + x1^3*y2*x3^2*y3 + x1^3*y2*x3^2*y3^3*d + x1^3*x2*x3 - x1^3*x2*x3*y3^2 + x1^3*x2*x3^3 + x1^3*x2*x3^3*y3^2*d +
    x1^3*x2*y2^2*x3*y3^2*d + x1^3*x2^2*y2*x3^2*y3*d)*h2 + (-y1*y2*x3 + y1*y2^3*x3 - y1*x2*y3 + y1*x2*y2^2*y3 - y1*x2^2*y2*x3 -
    y1*x2^3*y3 + y1^3*y2*x3 - y1^3*y2^3*x3 + y1^3*x2*y3 - y1^3*x2*y2^2*y3 + y1^3*x2^2*y2*x3 + y1^3*x2^3*y3 - x1*y2*y3 + x1*y2^3*y3 -
    x1*x2*x3 + x1*x2*y2^2*x3 - x1*x2^2*y2*y3 - x1*x2^3*x3 + x1*y1^2*y2*y3 - x1*y1^2*y2^3*y3 + x1*y1^2*x2*x3 - x1*y1^2*x2*y2^2*x3 -
    x1*y1^2*x2*y2^2*x3*d + x1*y1^2*x2^2*y2*y3 + x1*y1^2*x2^2*y2*y3*d + x1*y1^2*x2^3*x3 - x1^2*y1*y2*x3 + x1^2*y1*y2^3*x3 -
    x1^2*y1*x2*y3 + x1^2*y1*x2*y2^2*y3 + x1^2*y1*x2*y2^2*y3*d - x1^2*y1*x2^2*y2*x3 - x1^2*y1*x2^2*y2*x3*d - x1^2*y1*x2^3*y3 -
    x1^3*y2*y3 + x1^3*y2^3*y3 - x1^3*x2*x3 + x1^3*x2*y2^2*x3 - x1^3*x2^2*y2*y3 - x1^3*x2^3*x3)*h3
  · rw [addY_comm d x1 y1 (addX d x2 y2 x3 y3)]
    refine cancel_frac b1 e1 b2 e2 ?_
    linear_combination (y1*x2*y2^4*x3*y3^2*d - y1*x2^2*y2^3*y3*d + y1*x2^2*y2^3*y3^3*d - y1*x2^3*y2^2*x3*d - y1*x2^3*y2^2*x3^3*d -
    y1*x2^3*y2^4*x3*y3^2*d^2 - y1*x2^4*y2*x3^2*y3*d - y1*x2^4*y2^3*x3^2*y3*d^2 - x1*x2*y2^4*x3^2*y3*d - x1*x2^2*y2^3*x3*d -
    x1*x2^2*y2^3*x3^3*d - x1*x2^3*y2^2*y3*d + x1*x2^3*y2^2*y3^3*d + x1*x2^3*y2^4*x3^2*y3*d^2 + x1*x2^4*y2*x3*y3^2*d +
    x1*x2^4*y2^3*x3*y3^2*d^2)*h1 + (y1*y2*y3 - y1*y2*y3^3 + y1*y2*x3^2*y3 + y1*y2*x3^2*y3^3*d + y1*x2*x3 - y1*x2*x3*y3^2 + y1*x2*x3^3
    + y1*x2*x3^3*y3^2*d + y1*x2*y2^2*x3*y3^2*d + y1*x2^2*y2*x3^2*y3*d - y1^3*y2*y3 + y1^3*y2*y3^3 - y1^3*y2*x3^2*y3 -
    y1^3*y2*x3^2*y3^3*d - y1^3*x2*x3 + y1^3*x2*x3*y3^2 - y1^3*x2*x3^3 - y1^3*x2*x3^3*y3^2*d - y1^3*x2*y2^2*x3*y3^2*d -
    y1^3*x2^2*y2*x3^2*y3*d + x1*y2*x3 - x1*y2*x3*y3^2 + x1*y2*x3^3 + x1*y2*x3^3*y3^2*d + x1*x2*y3 - x1*x2*y3^3 + x1*x2*x3^2*y3 +
    x1*x2*x3^2*y3^3*d - x1*x2*y2^2*x3^2*y3*d - x1*x2^2*y2*x3*y3^2*d - x1*y1^2*y2*x3 + x1*y1^2*y2*x3*y3^2 - x1*y1^2*y2*x3^3 -
    x1*y1^2*y2*x3^3*y3^2*d - x1*y1^2*x2*y3 + x1*y1^2*x2*y3^3 - x1*y1^2*x2*x3^2*y3 - x1*y1^2*x2*x3^2*y3^3*d + x1*y1^2*x2*y2^2*x3^2*y3*d
    + x1*y1^2*x2*y2^2*x3^2*y3^3*d^2 + x1*y1^2*x2^2*y2*x3*y3^2*d - x1*y1^2*x2^2*y2*x3^3*y3^2*d^2 + x1^2*y1*y2*y3 - x1^2*y1*y2*y3^3 +
    x1^2*y1*y2*x3^2*y3 + x1^2*y1*y2*x3^2*y3^3*d + x1^2*y1*x2*x3 - x1^2*y1*x2*x3*y3^2 + x1^2*y1*x2*x3^3 + x1^2*y1*x2*x3^3*y3^2*d +
    x1^2*y1*x2*y2^2*x3*y3^2*d - x1^2*y1*x2*y2^2*x3^3*y3^2*d^2 + x1^2*y1*x2^2*y2*x3^2*y3*d + x1^2*y1*x2^2*y2*x3^2*y3^3*d^2 + x1^3*y2*x3
    - x1^3*y2*x3*y3^2 + x1^3*y2*x3^3 + x1^3*y2*x3^3*y3^2*d + x1^3*x2*y3 - x1^3*x2*y3^3 + x1^3*x2*x3^2*y3 + x1^3*x2*x3^2*y3^3*d -
    x1^3*x2*y2^2*x3^2*y3*d - x1^3*x2^2*y2*x3*y3^2*d)*h2 + (-y1*y2*y3 + y1*y2^3*y3 - y1*x2*x3 + y1*x2*y2^2*x3 - y1*x2^2*y2*y3 -
    y1*x2^3*x3 + y1^3*y2*y3 - y1^3*y2^3*y3 + y1^3*x2*x3 - y1^3*x2*y2^2*x3 + y1^3*x2^2*y2*y3 + y1^3*x2^3*x3 - x1*y2*x3 + x1*y2^3*x3 -
    x1*x2*y3 + x1*x2*y2^2*y3 - x1*x2^2*y2*x3 - x1*x2^3*y3 + x1*y1^2*y2*x3 - x1*y1^2*y2^3*x3 + x1*y1^2*x2*y3 - x1*y1^2*x2*y2^2*y3 -
    x1*y1^2*x2*y2^2*y3*d + x1*y1^2*x2^2*y2*x3 + x1*y1^2*x2^2*y2*x3*d + x1*y1^2*x2^3*y3 - x1^2*y1*y2*y3 + x1^2*y1*y2^3*y3 -
    x1^2*y1*x2*x3 + x1^2*y1*x2*y2^2*x3 + x1^2*y1*x2*y2^2*x3*d - x1^2*y1*x2^2*y2*y3 - x1^2*y1*x2^2*y2*y3*d - x1^2*y1*x2^3*x3 -
    x1^3*y2*x3 + x1^3*y2^3*x3 - x1^3*x2*y3 + x1^3*x2*y2^2*y3 - x1^3*x2^2*y2*x3 - x1^3*x2^3*y3)*h3

/-- Points of the curve. -/
structure Pt (d : F) where
  x : F
  y : F
  on : On d x y

namespace Pt

@[ext] theorem ext' {d : F} {P Q : Pt d} (hx : P.x = Q.x) (hy : P.y = Q.y) : P = Q := by
  cases P; cases Q; cases hx; cases hy; rfl

variable {d : F} [hc : Fact (Complete F d)]

noncomputable instance : Add (Pt d) where
  add P Q := ⟨addX d P.x P.y Q.x Q.y, addY d P.x P.y Q.x Q.y, on_add hc.out P.on Q.on⟩

instance : Zero (Pt d) where
  zero := ⟨0, 1, by unfold On; ring⟩

instance : Neg (Pt d) where
  neg P := ⟨-P.x, P.y, by have := P.on; unfold On at *; linear_combination this⟩

theorem add_x (P Q : Pt d) : (P + Q).x = addX d P.x P.y Q.x Q.y := rfl
theorem add_y (P Q : Pt d) : (P + Q).y = addY d P.x P.y Q.x Q.y := rfl
omit hc in
theorem zero_x : (0 : Pt d).x = 0 := rfl
omit hc in
theorem zero_y : (0 : Pt d).y = 1 := rfl
omit hc in
theorem neg_x (P : Pt d) : (-P).x = -P.x := rfl
omit hc in
theorem neg_y (P : Pt d) : (-P).y = P.y := rfl

/-- The group of points. -/
noncomputable instance : AddCommGroup (Pt d) where
  nsmul := nsmulRec
  zsmul := zsmulRec
  add_assoc P Q R := ext' (assoc hc.out P.on Q.on R.on).1 (assoc hc.out P.on Q.on R.on).2
  add_comm P Q := ext' (addX_comm _ _ _ _ _) (addY_comm _ _ _ _ _)
  zero_add P := ext' (by show addX d 0 1 P.x P.y = P.x; simp [addX]) (by show addY d 0 1 P.x P.y = P.y; simp [addY])
  add_zero P := ext' (by show addX d P.x P.y 0 1 = P.x; simp [addX]) (by show addY d P.x P.y 0 1 = P.y; simp [addY])
  neg_add_cancel P := by
    have ho := P.on
    have hon : On d (-P.x) P.y := by unfold On at *; linear_combination ho
    have hn := den_neg hc.out hon P.on
    refine ext' ?_ ?_
    · show addX d (-P.x) P.y P.x P.y = 0
      unfold addX; rw [show -P.x * P.y + P.x * P.y = 0 by ring, zero_div]
    · show addY d (-P.x) P.y P.x P.y = 1
      unfold addY; rw [div_eq_one_iff_eq hn]; unfold On at ho; linear_combination ho

end Pt

end Verif.Edwards
