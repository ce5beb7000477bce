import Verif.Spec.Bulletproof
import Mathlib.Algebra.BigOperators.Intervals
import Mathlib.Algebra.Module.BigOperators
import Mathlib.Algebra.BigOperators.Ring.Finset
import Mathlib.Algebra.Field.Basic
import Mathlib.Tactic.Module
import Mathlib.Tactic.FieldSimp
import Mathlib.Tactic.LinearCombination
import Mathlib.Tactic.Ring

/-! The algebra of Bulletproofs, over any field and module. Vectors are functions of the index together with a length. -/

namespace Verif.Bp
open Finset

variable {F M : Type*} [Field F] [AddCommGroup M] [Module F M]

/-! ## Inner product argument -/

/-- Folding of a vector: `w v_i + w⁻¹ v_{n+i}`. -/
def foldS (w : F) (n : ℕ) (v : ℕ → F) (i : ℕ) : F := w * v i + w⁻¹ * v (n + i)
def foldP (w : F) (n : ℕ) (v : ℕ → M) (i : ℕ) : M := w • v i + w⁻¹ • v (n + i)

/-- What the argument is about: `Σ a_i G_i + b_i H_i + (Σ a_i b_i) x U`. -/
def ipa (n : ℕ) (a b : ℕ → F) (g h : ℕ → M) (x : F) (U : M) : M :=
  ∑ i ∈ range n, (a i • g i + b i • h i) + ((∑ i ∈ range n, a i * b i) * x) • U

/-- The cross terms of one round (not divided by eight). -/
def crossL (n : ℕ) (a b : ℕ → F) (g h : ℕ → M) (x : F) (U : M) : M :=
  ∑ i ∈ range n, (a i • g (n + i) + b (n + i) • h i) + ((∑ i ∈ range n, a i * b (n + i)) * x) • U
def crossR (n : ℕ) (a b : ℕ → F) (g h : ℕ → M) (x : F) (U : M) : M :=
  ∑ i ∈ range n, (a (n + i) • g i + b i • h (n + i)) + ((∑ i ∈ range n, a (n + i) * b i) * x) • U

theorem ipa_fold {w : F} (hw : w ≠ 0) (n : ℕ) (a b : ℕ → F) (g h : ℕ → M) (x : F) (U : M) :
    ipa n (foldS w n a) (foldS w⁻¹ n b) (foldP w⁻¹ n g) (foldP w n h) x U =
      ipa (n + n) a b g h x U + (w ^ 2 • crossL n a b g h x U + (w⁻¹) ^ 2 • crossR n a b g h x U) := by
  have e1 : ∑ i ∈ range n, (foldS w n a i • foldP w⁻¹ n g i + foldS w⁻¹ n b i • foldP w n h i) =
      ∑ i ∈ range n, ((a i • g i + b i • h i) + (a (n + i) • g (n + i) + b (n + i) • h (n + i)) +
        (w ^ 2 • (a i • g (n + i) + b (n + i) • h i) + (w⁻¹) ^ 2 • (a (n + i) • g i + b i • h (n + i)))) := by
    refine sum_congr rfl fun i _ => ?_
    simp only [foldS, foldP, inv_inv, smul_add, smul_smul]
    have h1 : (w * a i + w⁻¹ * a (n + i)) * w⁻¹ = a i + (w⁻¹) ^ 2 * a (n + i) := by field_simp
    have h2 : (w * a i + w⁻¹ * a (n + i)) * w = w ^ 2 * a i + a (n + i) := by field_simp
    have h3 : (w⁻¹ * b i + w * b (n + i)) * w = b i + w ^ 2 * b (n + i) := by field_simp
    have h4 : (w⁻¹ * b i + w * b (n + i)) * w⁻¹ = (w⁻¹) ^ 2 * b i + b (n + i) := by field_simp
    rw [h1, h2, h3, h4]
    module
  have e2 : ∑ i ∈ range n, foldS w n a i * foldS w⁻¹ n b i =
      ∑ i ∈ range n, (a i * b i + a (n + i) * b (n + i) + (w ^ 2 * (a i * b (n + i)) + (w⁻¹) ^ 2 * (a (n + i) * b i))) := by
    refine sum_congr rfl fun i _ => ?_
    simp only [foldS, inv_inv]
    field_simp
    ring
  unfold ipa crossL crossR
  rw [e1, e2, sum_range_add, sum_range_add]
  simp only [sum_add_distrib, ← mul_sum, ← smul_sum]
  module

/-! ## The coefficients of the generators after all rounds -/

theorem coef_add (ws : List F) (i k : ℕ) : coef ws (2 ^ ws.length * k + i) = coef ws i := by
  induction ws generalizing k i with
  | nil => rfl
  | cons w ws ih =>
    simp only [coef, List.length_cons]
    have e : 2 ^ (ws.length + 1) * k + i = 2 ^ ws.length * (2 * k) + i := by ring
    have e' : (2 ^ ws.length * (2 * k) + i) / 2 ^ ws.length % 2 = i / 2 ^ ws.length % 2 := by
      rw [Nat.mul_add_div (Nat.two_pow_pos _)]; omega
    simp only [e, ih, e']

theorem coef_lo (w : F) (ws : List F) {i : ℕ} (h : i < 2 ^ ws.length) : coef (w :: ws) i = w⁻¹ * coef ws i := by
  rw [coef, Nat.div_eq_of_lt h]; simp

theorem coef_hi (w : F) (ws : List F) {i : ℕ} (h : i < 2 ^ ws.length) : coef (w :: ws) (2 ^ ws.length + i) = w * coef ws i := by
  have := coef_add ws i 1
  rw [mul_one] at this
  rw [coef, this, Nat.add_div_left _ (Nat.two_pow_pos _), Nat.div_eq_of_lt h]; simp

theorem coef_ne {ws : List F} (h : ∀ w ∈ ws, w ≠ 0) (i : ℕ) : coef ws i ≠ 0 := by
  induction ws with
  | nil => exact one_ne_zero
  | cons w ws ih =>
    refine mul_ne_zero ?_ (ih fun x hx => h x (by simp [hx]))
    have := h w (by simp)
    split <;> simp [this]

/-- The folded generators, unfolded by one round. -/
theorem coef_foldP (w : F) (ws : List F) (g : ℕ → M) :
    ∑ i ∈ range (2 ^ ws.length), coef ws i • foldP w⁻¹ (2 ^ ws.length) g i = ∑ i ∈ range (2 ^ (w :: ws).length), coef (w :: ws) i • g i := by
  rw [List.length_cons, pow_succ, mul_two, sum_range_add, ← sum_add_distrib]
  refine sum_congr rfl fun i hi => ?_
  rw [coef_lo w ws (mem_range.mp hi), coef_hi w ws (mem_range.mp hi), foldP, inv_inv]
  module

theorem coef_foldP_inv (w : F) (ws : List F) (g : ℕ → M) :
    ∑ i ∈ range (2 ^ ws.length), (coef ws i)⁻¹ • foldP w (2 ^ ws.length) g i =
      ∑ i ∈ range (2 ^ (w :: ws).length), (coef (w :: ws) i)⁻¹ • g i := by
  rw [List.length_cons, pow_succ, mul_two, sum_range_add, ← sum_add_distrib]
  refine sum_congr rfl fun i hi => ?_
  rw [coef_lo w ws (mem_range.mp hi), coef_hi w ws (mem_range.mp hi), foldP, mul_inv, mul_inv, inv_inv]
  module

/-! ## Range proof -/

/-- The textbook polynomial: with `aL` a vector of bits and `aR = aL - 1`,
`⟨aL - z, y^i (aR + z) + z^{2+i/N} 2^{i%N}⟩ = Σ z^{j+2} v_j + δ(y, z)`. -/
theorem t0_value (N m : ℕ) (bit : ℕ → F) (hb : ∀ i, bit i * bit i = bit i) (y z : F) :
    ∑ i ∈ range (m * N), (bit i - z) * ((bit i - 1 + z) * y ^ i + z ^ (2 + i / N) * 2 ^ (i % N)) =
      ∑ j ∈ range m, z ^ (j + 2) * (∑ i ∈ range N, bit (j * N + i) * 2 ^ i) +
      ((z - z ^ 2) * ∑ i ∈ range (m * N), y ^ i - ∑ j ∈ range m, z ^ (j + 3) * ∑ i ∈ range N, 2 ^ i) := by
  have e : ∀ i ∈ range (m * N), (bit i - z) * ((bit i - 1 + z) * y ^ i + z ^ (2 + i / N) * 2 ^ (i % N)) =
      (z - z ^ 2) * y ^ i + (bit i - z) * (z ^ (2 + i / N) * 2 ^ (i % N)) := fun i _ => by linear_combination y ^ i * hb i
  rw [sum_congr rfl e, sum_add_distrib, ← mul_sum]
  have e2 : ∑ i ∈ range (m * N), (bit i - z) * (z ^ (2 + i / N) * 2 ^ (i % N)) =
      ∑ j ∈ range m, ∑ i ∈ range N, (bit (j * N + i) - z) * (z ^ (2 + j) * 2 ^ i) := by
    clear e
    induction m with
    | zero => simp
    | succ m ih =>
      rw [Nat.succ_mul, sum_range_add, ih, sum_range_succ]
      congr 1
      refine sum_congr rfl fun i hi => ?_
      have hi := mem_range.mp hi
      rw [show (m * N + i) / N = m by rw [mul_comm, Nat.mul_add_div (by omega), Nat.div_eq_of_lt hi]; simp,
        show (m * N + i) % N = i by rw [mul_comm, Nat.mul_add_mod, Nat.mod_eq_of_lt hi]]
  rw [e2]
  have e3 : ∀ j ∈ range m, ∑ i ∈ range N, (bit (j * N + i) - z) * (z ^ (2 + j) * 2 ^ i) =
      z ^ (j + 2) * (∑ i ∈ range N, bit (j * N + i) * 2 ^ i) - z ^ (j + 3) * ∑ i ∈ range N, 2 ^ i := fun j _ => by
    rw [mul_sum, mul_sum, ← sum_sub_distrib]
    exact sum_congr rfl fun i _ => by ring
  rw [sum_congr rfl e3, sum_sub_distrib]
  ring

end Verif.Bp
