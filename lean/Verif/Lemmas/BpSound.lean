import Verif.Spec.BpSound
import Verif.Lemmas.BpAlgebra
import Mathlib.LinearAlgebra.Lagrange
import Mathlib.LinearAlgebra.Dual.Lemmas
import Mathlib.Algebra.Ring.GeomSum

namespace Verif.Bp
open Finset

variable {F M : Type*} [Field F] [AddCommGroup M] [Module F M]

theorem Tree.mono {p q : Ch F → Pf F M → Prop} (h : ∀ c π, p c π → q c π) {m k : ℕ} {V : List M} : Tree F p m k V → Tree F q m k V := by
  have hr : ∀ (k : ℕ) (a b : List F → List M → List M → Prop), (∀ ws L R, a ws L R → b ws L R) → Rounds k a → Rounds k b := by
    intro k
    induction k with
    | zero => exact fun a b hab h => hab _ _ _ h
    | succ k ih => exact fun a b hab ⟨L, R, W, h1, h2, h3, h4⟩ => ⟨L, R, W, h1, h2, h3, fun w hw => ih _ _ (fun ws Ls Rs => hab _ _ _) (h4 w hw)⟩
  rintro ⟨A, S, Y, hY, hy⟩
  refine ⟨A, S, Y, hY, fun y hyY => ⟨(hy y hyY).1, ?_⟩⟩
  obtain ⟨Z, hZ, hz⟩ := (hy y hyY).2
  refine ⟨Z, hZ, fun z hzZ => ?_⟩
  obtain ⟨T1, T2, X, hX, hx⟩ := hz z hzZ
  refine ⟨T1, T2, X, hX, fun x hxX => ?_⟩
  obtain ⟨taux, mu, t, I, hI, hi⟩ := hx x hxX
  exact ⟨taux, mu, t, I, hI, fun xip hxi => hr _ _ _ (fun ws L R ⟨a, b, e⟩ => ⟨a, b, h _ _ e⟩) (hi xip hxi)⟩

/-! ## Polynomials with many zeros -/

theorem vanish (n : ℕ) (f : ℕ → F) (S : Finset F) (hS : n ≤ S.card) (h : ∀ s ∈ S, ∑ i ∈ range n, s ^ i * f i = 0) : ∀ i < n, f i = 0 := by
  have hz : (∑ i ∈ range n, Polynomial.C (f i) * Polynomial.X ^ i : Polynomial F) = 0 := by
    apply Polynomial.eq_zero_of_degree_lt_of_eval_finset_eq_zero S
    · refine lt_of_lt_of_le (b := (n : WithBot ℕ)) ?_ (by exact_mod_cast hS)
      refine Polynomial.mem_degreeLT.mp (Submodule.sum_mem _ fun i hi => Polynomial.mem_degreeLT.mpr ?_)
      exact lt_of_le_of_lt (Polynomial.degree_C_mul_X_pow_le _ _) (by exact_mod_cast mem_range.mp hi)
    · intro s hs
      rw [Polynomial.eval_finset_sum, ← h s hs]
      exact sum_congr rfl fun i _ => by rw [Polynomial.eval_mul, Polynomial.eval_C, Polynomial.eval_pow, Polynomial.eval_X, mul_comm]
  intro i hi
  have := congrArg (fun p => Polynomial.coeff p i) hz
  simpa [Polynomial.finset_sum_coeff, Polynomial.coeff_C_mul_X_pow, hi] using this

theorem vanishM (n : ℕ) (f : ℕ → M) (S : Finset F) (hS : n ≤ S.card) (h : ∀ s ∈ S, ∑ i ∈ range n, s ^ i • f i = 0) : ∀ i < n, f i = 0 := by
  intro i hi
  refine (Module.forall_dual_apply_eq_zero_iff F (f i)).mp fun φ => ?_
  refine vanish n (fun i => φ (f i)) S hS (fun s hs => ?_) i hi
  have := congrArg φ (h s hs)
  simpa [map_sum] using this

/-! ## The inner product argument -/

/-- Coordinates of the vectors of generators. -/
structure Coords (n : ℕ) (g h : ℕ → M) (U : M) (φ ψ : ℕ → M →ₗ[F] F) : Prop where
  gg : ∀ i < n, ∀ j < n, φ i (g j) = if i = j then 1 else 0
  gh : ∀ i < n, ∀ j < n, φ i (h j) = 0
  gU : ∀ i < n, φ i U = 0
  hg : ∀ i < n, ∀ j < n, ψ i (g j) = 0
  hh : ∀ i < n, ∀ j < n, ψ i (h j) = if i = j then 1 else 0
  hU : ∀ i < n, ψ i U = 0

theorem Coords.fold {n : ℕ} {g h : ℕ → M} {U : M} {φ ψ : ℕ → M →ₗ[F] F} (c : Coords (n + n) g h U φ ψ) {w : F} (hw : w ≠ 0) :
    Coords n (foldP w⁻¹ n g) (foldP w n h) U (fun i => w • φ i) (fun i => w⁻¹ • ψ i) where
  gg i hi j hj := by
    have h1 := c.gg i (by omega) j (by omega)
    have h2 := c.gg i (by omega) (n + j) (by omega)
    rw [if_neg (by omega)] at h2
    simp only [foldP, LinearMap.smul_apply, map_add, map_smul, h1, h2, smul_eq_mul, inv_inv]
    split <;> simp [hw]
  gh i hi j hj := by
    simp only [foldP, LinearMap.smul_apply, map_add, map_smul, c.gh i (by omega) j (by omega), c.gh i (by omega) (n + j) (by omega), smul_eq_mul]
    simp
  gU i hi := by simp [c.gU i (by omega)]
  hg i hi j hj := by
    simp only [foldP, LinearMap.smul_apply, map_add, map_smul, c.hg i (by omega) j (by omega), c.hg i (by omega) (n + j) (by omega), smul_eq_mul]
    simp
  hh i hi j hj := by
    have h1 := c.hh i (by omega) j (by omega)
    have h2 := c.hh i (by omega) (n + j) (by omega)
    rw [if_neg (by omega)] at h2
    simp only [foldP, LinearMap.smul_apply, map_add, map_smul, h1, h2, smul_eq_mul]
    split <;> simp [hw]
  hU i hi := by simp [c.hU i (by omega)]

theorem Coords.fold' {n : ℕ} {g h : ℕ → M} {U : M} {φ ψ : ℕ → M →ₗ[F] F} (c : Coords (n + n) g h U φ ψ) {w : F} (hw : w ≠ 0) :
    Coords n (foldP w⁻¹ n g) (foldP w n h) U (fun i => w⁻¹ • φ (n + i)) (fun i => w • ψ (n + i)) where
  gg i hi j hj := by
    have h1 := c.gg (n + i) (by omega) (n + j) (by omega)
    have h2 := c.gg (n + i) (by omega) j (by omega)
    rw [if_neg (by omega)] at h2
    simp only [foldP, LinearMap.smul_apply, map_add, map_smul, h1, h2, smul_eq_mul, inv_inv, Nat.add_left_cancel_iff]
    split <;> simp [hw]
  gh i hi j hj := by
    simp only [foldP, LinearMap.smul_apply, map_add, map_smul, c.gh (n + i) (by omega) j (by omega), c.gh (n + i) (by omega) (n + j) (by omega), smul_eq_mul]
    simp
  gU i hi := by simp [c.gU (n + i) (by omega)]
  hg i hi j hj := by
    simp only [foldP, LinearMap.smul_apply, map_add, map_smul, c.hg (n + i) (by omega) j (by omega), c.hg (n + i) (by omega) (n + j) (by omega), smul_eq_mul]
    simp
  hh i hi j hj := by
    have h1 := c.hh (n + i) (by omega) (n + j) (by omega)
    have h2 := c.hh (n + i) (by omega) j (by omega)
    rw [if_neg (by omega)] at h2
    simp only [foldP, LinearMap.smul_apply, map_add, map_smul, h1, h2, smul_eq_mul, Nat.add_left_cancel_iff]
    split <;> simp [hw]
  hU i hi := by simp [c.hU (n + i) (by omega)]

theorem ipa_phi {n : ℕ} {g h : ℕ → M} {U : M} {φ ψ : ℕ → M →ₗ[F] F} (c : Coords n g h U φ ψ) (a b : ℕ → F) (x : F) {i : ℕ} (hi : i < n) :
    φ i (ipa n a b g h x U) = a i := by
  simp only [ipa, map_add, map_sum, map_smul, smul_eq_mul, c.gU i hi, mul_zero, add_zero]
  rw [sum_congr rfl (g := fun j => if i = j then a i else 0)]
  · simp [hi]
  · intro j hj
    rw [c.gg i hi j (mem_range.mp hj), c.gh i hi j (mem_range.mp hj)]
    split
    · rename_i e; subst e; simp
    · simp

theorem ipa_psi {n : ℕ} {g h : ℕ → M} {U : M} {φ ψ : ℕ → M →ₗ[F] F} (c : Coords n g h U φ ψ) (a b : ℕ → F) (x : F) {i : ℕ} (hi : i < n) :
    ψ i (ipa n a b g h x U) = b i := by
  simp only [ipa, map_add, map_sum, map_smul, smul_eq_mul, c.hU i hi, mul_zero, add_zero]
  rw [sum_congr rfl (g := fun j => if i = j then b i else 0)]
  · simp [hi]
  · intro j hj
    rw [c.hg i hi j (mem_range.mp hj), c.hh i hi j (mem_range.mp hj)]
    split
    · rename_i e; subst e; simp
    · simp

/-- What the last round says: `P + Σ w² 8L + w⁻² 8R` is the product for the folded generators. -/
def IpEq (k : ℕ) (g h : ℕ → M) (x : F) (U P : M) (ws : List F) (L R : List M) : Prop :=
  ws.length = k ∧ L.length = k ∧ R.length = k ∧
  ∃ a b : F, P + lrSum ws L R = a • ∑ i ∈ range (2 ^ k), coef ws i • g i + b • ∑ i ∈ range (2 ^ k), (coef ws i)⁻¹ • h i + (a * b * x) • U

theorem Rounds.mono {n : ℕ} : ∀ {p q : List F → List M → List M → Prop}, (∀ ws L R, ws.length = n → L.length = n → R.length = n → p ws L R → q ws L R) →
    Rounds n p → Rounds n q := by
  induction n with
  | zero => exact fun hpq h => hpq [] [] [] rfl rfl rfl h
  | succ n ih =>
    rintro p q hpq ⟨L, R, W, h1, h2, h3, h4⟩
    exact ⟨L, R, W, h1, h2, h3, fun w hw => ih (fun ws Ls Rs e1 e2 e3 h => hpq _ _ _ (by simp [e1]) (by simp [e2]) (by simp [e3]) h) (h4 w hw)⟩

theorem Rounds.some {n : ℕ} : ∀ {p : List F → List M → List M → Prop}, Rounds n p → ∃ ws L R, p ws L R := by
  induction n with
  | zero => exact fun h => ⟨[], [], [], h⟩
  | succ n ih =>
    rintro p ⟨L, R, W, h1, h2, h3, h4⟩
    obtain ⟨w, hw⟩ : W.Nonempty := card_pos.mp (by omega)
    obtain ⟨ws, Ls, Rs, h⟩ := ih (h4 w hw)
    exact ⟨_, _, _, h⟩

theorem lrSum_cons (w : F) (ws : List F) (L R : M) (Ls Rs : List M) :
    lrSum (w :: ws) (L :: Ls) (R :: Rs) = w ^ 2 • (8 : F) • L + (w⁻¹) ^ 2 • (8 : F) • R + lrSum ws Ls Rs := by
  simp [lrSum]

theorem ip_sound (x : F) (U : M) : ∀ (k : ℕ) (P : M) (g h : ℕ → M) (φ ψ : ℕ → M →ₗ[F] F), Coords (2 ^ k) g h U φ ψ →
    Rounds k (IpEq k g h x U P) → ∃ a b : ℕ → F, P = ipa (2 ^ k) a b g h x U := by
  intro k
  induction k with
  | zero =>
    rintro P g h φ ψ - ⟨-, -, -, a, b, e⟩
    refine ⟨fun _ => a, fun _ => b, ?_⟩
    simpa [ipa, lrSum, coef] using e
  | succ k ih =>
    rintro P g h φ ψ c ⟨L, R, W, h1, h2, h3, h4⟩
    have e2 : 2 ^ (k + 1) = 2 ^ k + 2 ^ k := by rw [pow_succ]; omega
    rw [e2] at c ⊢
    -- each challenge gives an opening for the folded generators
    have hw : ∀ w ∈ W, ∃ a b : ℕ → F, P + (w ^ 2 • (8 : F) • L + (w⁻¹) ^ 2 • (8 : F) • R) = ipa (2 ^ k) a b (foldP w⁻¹ (2 ^ k) g) (foldP w (2 ^ k) h) x U := by
      intro w hw
      refine ih _ _ _ _ _ (c.fold (h2 w hw)) (Rounds.mono ?_ (h4 w hw))
      rintro ws Ls Rs l1 l2 l3 ⟨-, -, -, a, b, e⟩
      refine ⟨l1, l2, l3, a, b, ?_⟩
      have f1 := coef_foldP w ws g
      have f2 := coef_foldP_inv w ws h
      rw [List.length_cons, l1] at f1 f2
      rw [f1, f2, ← e, lrSum_cons]
      abel
    generalize hn : 2 ^ k = n at *
    generalize (8 : F) • L = L8 at *
    generalize (8 : F) • R = R8 at *
    -- squares are different
    classical
    have hS : 4 ≤ (W.image (· ^ 2)).card := by
      rw [card_image_of_injOn fun a ha b hb e => h3 a ha b hb e]
      exact h1
    have hsq : ∀ s ∈ W.image (· ^ 2), ∃ w ∈ W, w ^ 2 = s := fun s hs => by simpa using hs
    -- the folded vectors are the foldings of the coordinates of P
    have hfold : ∀ w ∈ W, P + (w ^ 2 • L8 + (w⁻¹) ^ 2 • R8) =
        ipa n (foldS w n fun i => φ i P) (foldS w⁻¹ n fun i => ψ i P) (foldP w⁻¹ n g) (foldP w n h) x U := by
      choose! a b hab using hw
      have ha : ∀ i < n, ∀ w ∈ W, a w i = w * (φ i P + (w ^ 2 * φ i L8 + (w⁻¹) ^ 2 * φ i R8)) ∧
          a w i = w⁻¹ * (φ (n + i) P + (w ^ 2 * φ (n + i) L8 + (w⁻¹) ^ 2 * φ (n + i) R8)) := fun i hi w hw => by
        have p0 := ipa_phi (c.fold (h2 w hw)) (a w) (b w) x hi
        have p1 := ipa_phi (c.fold' (h2 w hw)) (a w) (b w) x hi
        rw [← hab w hw] at p0 p1
        exact ⟨by rw [← p0]; simp, by rw [← p1]; simp⟩
      have hb : ∀ i < n, ∀ w ∈ W, b w i = w⁻¹ * (ψ i P + (w ^ 2 * ψ i L8 + (w⁻¹) ^ 2 * ψ i R8)) ∧
          b w i = w * (ψ (n + i) P + (w ^ 2 * ψ (n + i) L8 + (w⁻¹) ^ 2 * ψ (n + i) R8)) := fun i hi w hw => by
        have p0 := ipa_psi (c.fold (h2 w hw)) (a w) (b w) x hi
        have p1 := ipa_psi (c.fold' (h2 w hw)) (a w) (b w) x hi
        rw [← hab w hw] at p0 p1
        exact ⟨by rw [← p0]; simp, by rw [← p1]; simp⟩
      -- four squares: the coefficients vanish
      have four : ∀ p l r p' l' r' : F, (∀ w ∈ W, w * (p + (w ^ 2 * l + (w⁻¹) ^ 2 * r)) = w⁻¹ * (p' + (w ^ 2 * l' + (w⁻¹) ^ 2 * r'))) →
          l = 0 ∧ r = p' ∧ l' = p ∧ r' = 0 := by
        intro p l r p' l' r' hv
        have := vanish 4 (fun i => match i with | 0 => -r' | 1 => r - p' | 2 => p - l' | _ => l) (W.image (· ^ 2)) hS (fun s hs => by
          obtain ⟨w, hw, rfl⟩ := hsq s hs
          have hw0 := h2 w hw
          have e := hv w hw
          simp only [sum_range_succ, range_zero, sum_empty]
          field_simp at e
          linear_combination e)
        exact ⟨this 3 (by omega), sub_eq_zero.mp (this 1 (by omega)), (sub_eq_zero.mp (this 2 (by omega))).symm, neg_eq_zero.mp (this 0 (by omega))⟩
      intro w hw
      rw [hab w hw]
      have hw0 := h2 w hw
      have ea : ∀ i < n, a w i = foldS w n (fun i => φ i P) i := fun i hi => by
        obtain ⟨f1, f2, -, -⟩ := four _ _ _ _ _ _ fun w hw => (ha i hi w hw).1.symm.trans (ha i hi w hw).2
        rw [(ha i hi w hw).1, f1, f2, foldS]
        field_simp
        ring
      have eb : ∀ i < n, b w i = foldS w⁻¹ n (fun i => ψ i P) i := fun i hi => by
        obtain ⟨-, -, f1, f2⟩ := four _ _ _ _ _ _ fun w hw => (hb i hi w hw).2.symm.trans (hb i hi w hw).1
        rw [(hb i hi w hw).1, f1, f2, foldS, inv_inv]
        field_simp
        ring
      unfold ipa
      rw [sum_congr rfl fun i hi => by rw [ea i (mem_range.mp hi), eb i (mem_range.mp hi)],
        sum_congr (f := fun i => a w i * b w i) rfl fun i hi => by rw [ea i (mem_range.mp hi), eb i (mem_range.mp hi)]]
    refine ⟨fun i => φ i P, fun i => ψ i P, ?_⟩
    generalize hX : ipa (n + n) (fun i => φ i P) (fun i => ψ i P) g h x U = X0 at *
    have := vanishM 3 (fun i => match i with
      | 0 => R8 - crossR n (fun i => φ i P) (fun i => ψ i P) g h x U
      | 1 => P - X0
      | _ => L8 - crossL n (fun i => φ i P) (fun i => ψ i P) g h x U) (W.image (· ^ 2)) (by omega) (fun s hs => by
        obtain ⟨w, hw, rfl⟩ := hsq s hs
        have hw0 := h2 w hw
        have e := hfold w hw
        rw [ipa_fold hw0, hX] at e
        generalize crossR n (fun i => φ i P) (fun i => ψ i P) g h x U = X1 at *
        generalize crossL n (fun i => φ i P) (fun i => ψ i P) g h x U = X2 at *
        have e' := congrArg (fun v => w ^ 2 • v) e
        simp only [smul_add, smul_smul] at e'
        rw [show w ^ 2 * w⁻¹ ^ 2 = 1 by field_simp, one_smul, one_smul] at e'
        simp only [sum_range_succ, range_zero, sum_empty]
        have e'' := sub_eq_zero.mpr e'
        refine Eq.trans ?_ e''
        module)
    exact sub_eq_zero.mp (this 1 (by omega))

/-! ## The range proof -/

/-- The vectors behind `A` and `S`: the coordinates of eight times the point. -/
noncomputable def vecL (A : Gen →₀ F) (i : ℕ) : F := 8 * A (.Gi i)
noncomputable def vecR (A : Gen →₀ F) (i : ℕ) : F := 8 * A (.Hi i)

/-- `z^(2 + i / 64) 2^(i mod 64)`. -/
def zeta (z : F) (i : ℕ) : F := z ^ (2 + i / 64) * 2 ^ (i % 64)

theorem coords (n : ℕ) {y : F} (hy : y ≠ 0) : Coords n (formal F).Gi (fun i => (y⁻¹) ^ i • (formal F).Hi i) (formal F).U
    (fun i => Finsupp.lapply (.Gi i)) (fun i => y ^ i • Finsupp.lapply (.Hi i)) where
  gg i _ j _ := by simp [formal, Finsupp.single_apply, eq_comm]
  gh i _ j _ := by simp [formal, Finsupp.single_apply]
  gU i _ := by simp [formal, Finsupp.single_apply]
  hg i _ j _ := by simp [formal, Finsupp.single_apply]
  hh i _ j _ := by
    simp only [formal, LinearMap.smul_apply, map_smul, Finsupp.lapply_apply, Finsupp.single_apply, smul_eq_mul, Gen.Hi.injEq]
    by_cases h : j = i
    · subst h; simp [hy]
    · simp [h, Ne.symm h]
  hU i _ := by simp [formal, Finsupp.single_apply]

/-- What the inner product argument of a range proof is about. -/
def ipPoint (g : Gens M) (n : ℕ) (y z x xip : F) (A S : M) (mu t : F) : M :=
  (8 : F) • (A + x • S) - mu • g.G + (t * xip) • g.U - ∑ i ∈ range n, (z • g.Gi i - ((z * y ^ i + zeta z i) * (y⁻¹) ^ i) • g.Hi i)

theorem eq2_ip (g : Gens M) (m : ℕ) (y z x xip : F) (ws : List F) (V : List M) (A S T1 T2 : M) (taux mu : F) (L R : List M) (a b t : F) :
    eq2 g m ⟨y, z, x, xip, ws⟩ ⟨V, A, S, T1, T2, taux, mu, L, R, a, b, t⟩ = 0 ↔
    ipPoint g (m * 64) y z x xip A S mu t + lrSum ws L R = a • ∑ i ∈ range (m * 64), coef ws i • g.Gi i +
      b • ∑ i ∈ range (m * 64), (coef ws i)⁻¹ • (y⁻¹) ^ i • g.Hi i + (a * b * xip) • g.U := by
  rw [← sub_eq_zero (a := ipPoint _ _ _ _ _ _ _ _ _ _ + _)]
  refine Eq.congr ?_ rfl
  have e : ∑ i ∈ range (m * 64), ((a * coef ws i + z) • g.Gi i + (b * (y⁻¹) ^ i * (coef ws i)⁻¹ - (z * y ^ i + zeta z i) * (y⁻¹) ^ i) • g.Hi i) =
      ∑ i ∈ range (m * 64), (z • g.Gi i - ((z * y ^ i + zeta z i) * (y⁻¹) ^ i) • g.Hi i) +
      (a • ∑ i ∈ range (m * 64), coef ws i • g.Gi i + b • ∑ i ∈ range (m * 64), (coef ws i)⁻¹ • (y⁻¹) ^ i • g.Hi i) := by
    rw [smul_sum, smul_sum, ← sum_add_distrib, ← sum_add_distrib]
    exact sum_congr rfl fun i _ => by module
  simp only [eq2, ipPoint]
  simp only [zeta] at e ⊢
  rw [e]
  module

/-- With two challenges for the inner product, `t` is the inner product of the two vectors. -/
theorem ip_part {m k : ℕ} (hk : 2 ^ k = m * 64) {y z x mu t : F} (hy : y ≠ 0) {A S : Gen →₀ F} {I : Finset F} (hI : 2 ≤ I.card)
    (h : ∀ xip ∈ I, Rounds k fun (ws : List F) (L R : List (Gen →₀ F)) => ∃ a b : F, ipPoint (formal F) (m * 64) y z x xip A S mu t + lrSum ws L R =
      a • ∑ i ∈ range (m * 64), coef ws i • (formal F).Gi i +
      b • ∑ i ∈ range (m * 64), (coef ws i)⁻¹ • (y⁻¹) ^ i • (formal F).Hi i + (a * b * xip) • (formal F).U) :
    t = ∑ i ∈ range (m * 64), (vecL A i + x * vecL S i - z) * (y ^ i * (vecR A i + x * vecR S i + z) + zeta z i) := by
  have main : ∀ xip ∈ I, ∃ al be : ℕ → F, ipPoint (formal F) (m * 64) y z x xip A S mu t =
      ipa (m * 64) al be (formal F).Gi (fun i => (y⁻¹) ^ i • (formal F).Hi i) xip (formal F).U := fun xip hx => by
    have := ip_sound xip (formal F).U k (ipPoint (formal F) (m * 64) y z x xip A S mu t) (formal F).Gi (fun i => (y⁻¹) ^ i • (formal F).Hi i)
      _ _ (coords (2 ^ k) hy) (Rounds.mono (fun ws L R h1 h2 h3 ⟨a, b, e⟩ => ⟨h1, h2, h3, a, b, by rw [hk]; exact e⟩) (h xip hx))
    rwa [hk] at this
  have hphi : ∀ xip : F, ∀ i < m * 64, (ipPoint (formal F) (m * 64) y z x xip A S mu t) (.Gi i) = vecL A i + x * vecL S i - z := fun xip i hi => by
    have e : (∑ j ∈ range (m * 64), (z • (formal F).Gi j - ((z * y ^ j + zeta z j) * (y⁻¹) ^ j) • (formal F).Hi j)) (.Gi i) = z := by
      rw [Finsupp.finset_sum_apply]
      simp only [formal, Finsupp.sub_apply, Finsupp.smul_apply, Finsupp.single_apply, smul_eq_mul, Gen.Gi.injEq, reduceCtorEq, if_false, mul_zero, sub_zero]
      rw [sum_eq_single i (fun j _ hj => by simp [hj]) (fun h => absurd (mem_range.mpr hi) h)]
      simp
    simp only [ipPoint, Finsupp.sub_apply, Finsupp.add_apply, e]
    simp [formal, vecL]
    ring
  have hpsi : ∀ xip : F, ∀ i < m * 64, y ^ i * (ipPoint (formal F) (m * 64) y z x xip A S mu t) (.Hi i) =
      y ^ i * (vecR A i + x * vecR S i + z) + zeta z i := fun xip i hi => by
    have e : (∑ j ∈ range (m * 64), (z • (formal F).Gi j - ((z * y ^ j + zeta z j) * (y⁻¹) ^ j) • (formal F).Hi j)) (.Hi i) =
        - ((z * y ^ i + zeta z i) * (y⁻¹) ^ i) := by
      rw [Finsupp.finset_sum_apply]
      simp only [formal, Finsupp.sub_apply, Finsupp.smul_apply, Finsupp.single_apply, smul_eq_mul, Gen.Hi.injEq, reduceCtorEq, if_false, mul_zero, zero_sub]
      rw [sum_eq_single i (fun j _ hj => by simp [hj]) (fun h => absurd (mem_range.mpr hi) h)]
      simp
    simp only [ipPoint, Finsupp.sub_apply, Finsupp.add_apply, e]
    have hyi : y ^ i * (y⁻¹) ^ i = 1 := by rw [← mul_pow, mul_inv_cancel₀ hy, one_pow]
    simp [formal, vecR]
    linear_combination (z * y ^ i + zeta z i) * hyi
  have hU : ∀ xip : F, (ipPoint (formal F) (m * 64) y z x xip A S mu t) .U = 8 * (A .U + x * S .U) + t * xip := fun xip => by
    have e : (∑ j ∈ range (m * 64), (z • (formal F).Gi j - ((z * y ^ j + zeta z j) * (y⁻¹) ^ j) • (formal F).Hi j)) .U = 0 := by
      rw [Finsupp.finset_sum_apply]
      exact sum_eq_zero fun j _ => by simp [formal]
    simp only [ipPoint, Finsupp.sub_apply, Finsupp.add_apply, e]
    simp [formal]
    ring
  have hT : ∀ xip ∈ I, 8 * (A .U + x * S .U) + t * xip =
      (∑ i ∈ range (m * 64), (vecL A i + x * vecL S i - z) * (y ^ i * (vecR A i + x * vecR S i + z) + zeta z i)) * xip := fun xip hx => by
    obtain ⟨al, be, e⟩ := main xip hx
    have ha : ∀ i < m * 64, al i = vecL A i + x * vecL S i - z := fun i hi => by
      have := ipa_phi (coords (m * 64) hy) al be xip hi
      rw [← e] at this
      rw [← this]
      exact hphi xip i hi
    have hb : ∀ i < m * 64, be i = y ^ i * (vecR A i + x * vecR S i + z) + zeta z i := fun i hi => by
      have := ipa_psi (coords (m * 64) hy) al be xip hi
      rw [← e] at this
      rw [← this]
      exact hpsi xip i hi
    rw [← hU xip, e]
    rw [← sum_congr (f := fun i => al i * be i) rfl fun i hi => by rw [ha i (mem_range.mp hi), hb i (mem_range.mp hi)]]
    have e0 : (∑ i ∈ range (m * 64), (al i • (formal F).Gi i + be i • (y⁻¹) ^ i • (formal F).Hi i)) .U = 0 := by
      rw [Finsupp.finset_sum_apply]
      exact sum_eq_zero fun j _ => by simp [formal]
    rw [ipa, Finsupp.add_apply, e0]
    simp [formal]
  have := vanish 2 (fun i => match i with
    | 0 => 8 * (A .U + x * S .U)
    | _ => t - ∑ i ∈ range (m * 64), (vecL A i + x * vecL S i - z) * (y ^ i * (vecR A i + x * vecR S i + z) + zeta z i)) I hI (fun s hs => by
      simp only [sum_range_succ, range_zero, sum_empty, zero_add]
      linear_combination hT s hs) 1 (by omega)
  exact sub_eq_zero.mp this

/-- The weighted sum of the commitments. -/
theorem zipIdx_sum (z : F) (V : List M) (n : ℕ) (hn : V.length ≤ n) :
    (V.zipIdx.map fun v => z ^ (v.2 + 2) • v.1).sum = ∑ j ∈ range n, z ^ (j + 2) • V.getD j 0 := by
  have h0 : ∀ (V : List M) (s : ℕ), ((V.zipIdx s).map fun v => z ^ (v.2 + 2) • v.1).sum = ∑ j ∈ range V.length, z ^ (s + j + 2) • V.getD j 0 := by
    intro V
    induction V with
    | nil => intro s; simp
    | cons v V ih =>
      intro s
      rw [List.zipIdx_cons, List.map_cons, List.sum_cons, ih, List.length_cons, sum_range_succ', add_comm]
      congr 1
      exact sum_congr rfl fun j _ => by rw [show s + 1 + j + 2 = s + (j + 1) + 2 by omega]; simp
  have := h0 V 0
  simp only [Nat.zero_add] at this
  rw [this]
  refine sum_subset (range_subset_range.mpr hn) fun j _ hj => ?_
  rw [List.getD_eq_getElem?_getD, List.getElem?_eq_none (by simpa using hj), Option.getD_none, smul_zero]

theorem sum_blocks (N m : ℕ) (f : ℕ → ℕ → F) : ∑ i ∈ range (m * N), f (i / N) (i % N) = ∑ j ∈ range m, ∑ i ∈ range N, f j i := by
  induction m with
  | zero => simp
  | succ m ih =>
    rw [Nat.succ_mul, sum_range_add, ih, sum_range_succ]
    congr 1
    refine sum_congr rfl fun i hi => ?_
    have hi := mem_range.mp hi
    rw [show (m * N + i) / N = m by rw [mul_comm, Nat.mul_add_div (by omega), Nat.div_eq_of_lt hi]; simp,
      show (m * N + i) % N = i by rw [mul_comm, Nat.mul_add_mod, Nat.mod_eq_of_lt hi]]

theorem sum_two : ∑ i ∈ range 64, (2 : F) ^ i = 2 ^ 64 - 1 := by
  have := geom_sum_mul (2 : F) 64
  linear_combination this

/-- With three challenges `x`, the constant terms agree. -/
theorem eq1_part {m : ℕ} {y z : F} {V : List (Gen →₀ F)} {A S T1 T2 : Gen →₀ F} {X : Finset F} (hX : 3 ≤ X.card)
    (h : ∀ x ∈ X, ∃ taux : F, (8 : F) • ((V.zipIdx.map fun v => z ^ (v.2 + 2) • v.1).sum + x • T1 + x ^ 2 • T2) -
      ((∑ i ∈ range (m * 64), (vecL A i + x * vecL S i - z) * (y ^ i * (vecR A i + x * vecR S i + z) + zeta z i)) - delta m y z) • (formal F).U -
      taux • (formal F).G = 0) (n : ℕ) (hn : V.length ≤ n) :
    (∑ j ∈ range n, z ^ (j + 2) * (8 * V.getD j 0 .U) + delta m y z = ∑ i ∈ range (m * 64), (vecL A i - z) * (y ^ i * (vecR A i + z) + zeta z i)) ∧
    ∀ e : Gen, e ≠ .G → e ≠ .U → ∑ j ∈ range n, z ^ (j + 2) * (8 * V.getD j 0 e) = 0 := by
  have hs : ∀ e : Gen, (8 : F) * ((V.zipIdx.map fun v : (Gen →₀ F) × ℕ => z ^ (v.2 + 2) • v.1).sum) e = ∑ j ∈ range n, z ^ (j + 2) * (8 * V.getD j 0 e) := fun e => by
    rw [zipIdx_sum z V n hn, Finsupp.finset_sum_apply, mul_sum]
    exact sum_congr rfl fun j _ => by rw [Finsupp.smul_apply, smul_eq_mul]; ring
  constructor
  · have := vanish 3 (fun i => match i with
      | 0 => ∑ j ∈ range n, z ^ (j + 2) * (8 * V.getD j 0 .U) + delta m y z - ∑ i ∈ range (m * 64), (vecL A i - z) * (y ^ i * (vecR A i + z) + zeta z i)
      | 1 => 8 * T1 .U - ∑ i ∈ range (m * 64), ((vecL A i - z) * (y ^ i * vecR S i) + vecL S i * (y ^ i * (vecR A i + z) + zeta z i))
      | _ => 8 * T2 .U - ∑ i ∈ range (m * 64), vecL S i * (y ^ i * vecR S i)) X hX (fun x hx => by
        obtain ⟨taux, e⟩ := h x hx
        have e := congrArg (fun v : Gen →₀ F => v .U) e
        simp only [Finsupp.sub_apply, Finsupp.smul_apply, Finsupp.add_apply, smul_eq_mul, Finsupp.coe_zero, Pi.zero_apply] at e
        simp only [formal, Finsupp.single_apply, reduceCtorEq, if_true, if_false] at e
        have ex : ∑ i ∈ range (m * 64), (vecL A i + x * vecL S i - z) * (y ^ i * (vecR A i + x * vecR S i + z) + zeta z i) =
            ∑ i ∈ range (m * 64), (vecL A i - z) * (y ^ i * (vecR A i + z) + zeta z i) +
            x * ∑ i ∈ range (m * 64), ((vecL A i - z) * (y ^ i * vecR S i) + vecL S i * (y ^ i * (vecR A i + z) + zeta z i)) +
            x ^ 2 * ∑ i ∈ range (m * 64), vecL S i * (y ^ i * vecR S i) := by
          rw [mul_sum, mul_sum, ← sum_add_distrib, ← sum_add_distrib]
          exact sum_congr rfl fun i _ => by ring
        rw [ex] at e
        simp only [sum_range_succ, range_zero, sum_empty, zero_add]
        simp only [← hs .U]
        linear_combination e) 0 (by omega)
    exact sub_eq_zero.mp this
  · intro g hg hu
    exact vanish 3 (fun i => match i with
      | 0 => ∑ j ∈ range n, z ^ (j + 2) * (8 * V.getD j 0 g)
      | 1 => 8 * T1 g
      | _ => 8 * T2 g) X hX (fun x hx => by
        obtain ⟨taux, e⟩ := h x hx
        have e := congrArg (fun v : Gen →₀ F => v g) e
        simp only [Finsupp.sub_apply, Finsupp.smul_apply, Finsupp.add_apply, smul_eq_mul, Finsupp.coe_zero, Pi.zero_apply] at e
        simp only [formal, Finsupp.single_apply, if_neg (Ne.symm hg), if_neg (Ne.symm hu)] at e
        simp only [sum_range_succ, range_zero, sum_empty, zero_add]
        simp only [← hs g]
        linear_combination e) 0 (by omega)

/-- The constant term as a polynomial in `z`. -/
theorem t0_general (m : ℕ) (aL aR : ℕ → F) (y z : F) :
    ∑ i ∈ range (m * 64), (aL i - z) * (y ^ i * (aR i + z) + zeta z i) - delta m y z =
      ∑ i ∈ range (m * 64), y ^ i * (aL i * aR i) + z * ∑ i ∈ range (m * 64), y ^ i * (aL i - aR i - 1) +
      ∑ j ∈ range m, z ^ (j + 2) * ∑ i ∈ range 64, aL (j * 64 + i) * 2 ^ i := by
  have e1 : ∑ i ∈ range (m * 64), zeta z i = ∑ j ∈ range m, z ^ (j + 2) * (2 ^ 64 - 1) := by
    unfold zeta
    rw [sum_blocks 64 m fun j i => z ^ (2 + j) * 2 ^ i]
    exact sum_congr rfl fun j _ => by rw [← mul_sum, sum_two, add_comm]
  have e2 : ∑ i ∈ range (m * 64), aL i * zeta z i = ∑ j ∈ range m, z ^ (j + 2) * ∑ i ∈ range 64, aL (j * 64 + i) * 2 ^ i := by
    have := sum_blocks 64 m fun j i => aL (j * 64 + i) * (z ^ (2 + j) * 2 ^ i)
    rw [← sum_congr (f := fun i => aL i * zeta z i) rfl fun i _ => by rw [zeta, Nat.div_add_mod' i 64]] at this
    rw [this]
    exact sum_congr rfl fun j _ => by rw [mul_sum]; exact sum_congr rfl fun i _ => by ring
  have e3 : ∑ j ∈ range m, z ^ (j + 3) * (2 ^ 64 - 1 : F) = z * ∑ j ∈ range m, z ^ (j + 2) * (2 ^ 64 - 1) := by
    rw [mul_sum]
    exact sum_congr rfl fun j _ => by ring
  rw [delta, ← e2, e3, ← e1, mul_sum, mul_sum, mul_sum]
  simp only [← sum_add_distrib, ← sum_sub_distrib]
  exact sum_congr rfl fun i _ => by ring

/-- A tree of accepted proofs: every commitment is to a number below `2^64`, whose bits are the coordinates of `A`. -/
theorem sound {m k : ℕ} (hk : 2 ^ k = m * 64) {V : List (Gen →₀ F)} (h : Convincing F (formal F) m k V) : ∀ j < V.length,
    ∃ v : ℕ, v < 2 ^ 64 ∧ ∃ γ : F, (8 : F) • V.getD j 0 = (v : F) • (formal F).U + γ • (formal F).G := by
  obtain ⟨A, S, Y, hY, hy⟩ := h
  -- coefficients in z
  have hz : ∀ y ∈ Y, (∑ i ∈ range (m * 64), y ^ i * (vecL A i * vecR A i) = 0 ∧ ∑ i ∈ range (m * 64), y ^ i * (vecL A i - vecR A i - 1) = 0 ∧
      ∀ j < max m V.length, 8 * V.getD j 0 .U = if j < m then ∑ i ∈ range 64, vecL A (j * 64 + i) * 2 ^ i else 0) ∧
      ∀ e : Gen, e ≠ .G → e ≠ .U → ∀ j < max m V.length, 8 * V.getD j 0 e = 0 := by
    intro y hyY
    obtain ⟨hy0, Z, hZ, hz⟩ := hy y hyY
    have key : ∀ z ∈ Z, (∑ j ∈ range (max m V.length), z ^ (j + 2) * (8 * V.getD j 0 .U) + delta m y z =
        ∑ i ∈ range (m * 64), (vecL A i - z) * (y ^ i * (vecR A i + z) + zeta z i)) ∧
        ∀ e : Gen, e ≠ .G → e ≠ .U → ∑ j ∈ range (max m V.length), z ^ (j + 2) * (8 * V.getD j 0 e) = 0 := fun z hzZ => by
      obtain ⟨T1, T2, X, hX, hx⟩ := hz z hzZ
      refine eq1_part (S := S) (T1 := T1) (T2 := T2) hX (fun x hxX => ?_) _ (le_max_right _ _)
      obtain ⟨taux, mu, t, I, hI, hi⟩ := hx x hxX
      have ht := ip_part (mu := mu) (t := t) (x := x) (z := z) (A := A) (S := S) hk hy0 hI fun xip hxi => Rounds.mono (fun ws L R _ _ _ ⟨a, b, _, e⟩ => ⟨a, b, (eq2_ip _ _ _ _ _ _ _ _ _ _ _ _ _ _ _ _ _ _ _).mp e⟩) (hi xip hxi)
      obtain ⟨xip, hxi⟩ := card_pos.mp (by omega : 0 < I.card)
      obtain ⟨ws, L, R, a, b, e, -⟩ := (hi xip hxi).some
      refine ⟨taux, ?_⟩
      rw [← ht]
      exact e
    refine ⟨?_, fun e he hu => ?_⟩
    · have := vanish (max m V.length + 2) (fun i => match i with
        | 0 => ∑ i ∈ range (m * 64), y ^ i * (vecL A i * vecR A i)
        | 1 => ∑ i ∈ range (m * 64), y ^ i * (vecL A i - vecR A i - 1)
        | j + 2 => (if j < m then ∑ i ∈ range 64, vecL A (j * 64 + i) * 2 ^ i else 0) - 8 * V.getD j 0 .U) Z hZ (fun z hzZ => by
          have e := (key z hzZ).1
          have e' := t0_general m (vecL A) (vecR A) y z
          rw [← e] at e'
          rw [sum_range_succ', sum_range_succ']
          simp only [Nat.add_assoc, Nat.reduceAdd, mul_sub, sum_sub_distrib]
          have e3 : ∑ j ∈ range (max m V.length), z ^ (j + 2) * (if j < m then ∑ i ∈ range 64, vecL A (j * 64 + i) * 2 ^ i else 0) =
              ∑ j ∈ range m, z ^ (j + 2) * ∑ i ∈ range 64, vecL A (j * 64 + i) * 2 ^ i := by
            rw [← sum_subset (range_subset_range.mpr (le_max_left m V.length)) fun j _ hj => by rw [if_neg (by simpa using hj), mul_zero]]
            exact sum_congr rfl fun j hj => by rw [if_pos (mem_range.mp hj)]
          rw [e3]
          simp only [Nat.reduceAdd, Nat.zero_add, pow_zero, pow_one]
          simp only [mul_sub, mul_one, sum_sub_distrib] at e' ⊢
          linear_combination -e')
      refine ⟨this 0 (by omega), this 1 (by omega), fun j hj => (sub_eq_zero.mp (this (j + 2) (by omega))).symm⟩
    · have := vanish (max m V.length + 2) (fun i => match i with | 0 => 0 | 1 => 0 | j + 2 => 8 * V.getD j 0 e) Z hZ (fun z hzZ => by
        rw [sum_range_succ', sum_range_succ']
        simp only [Nat.add_assoc, Nat.reduceAdd, mul_zero, add_zero]
        exact (key z hzZ).2 e he hu)
      exact fun j hj => this (j + 2) (by omega)
  intro j hj
  by_cases hm : m = 0
  · subst hm
    have : (0 : ℕ) < 2 ^ k := by positivity
    omega
  obtain ⟨y, hyY⟩ := card_pos.mp (by omega : 0 < Y.card)
  -- bits
  have p1 := vanish (m * 64) (fun i => vecL A i * vecR A i) Y hY fun y hyY => (hz y hyY).1.1
  have p2 := vanish (m * 64) (fun i => vecL A i - vecR A i - 1) Y hY fun y hyY => (hz y hyY).1.2.1
  have bit : ∀ i < m * 64, vecL A i = 0 ∨ vecL A i = 1 := fun i hi => by
    rcases mul_eq_zero.mp (p1 i hi) with h | h
    · exact Or.inl h
    · refine Or.inr ?_
      have := p2 i hi
      simp only [h] at this
      linear_combination this
  have hjm : j < max m V.length := lt_of_lt_of_le hj (le_max_right _ _)
  have hv : ∃ v : ℕ, v < 2 ^ 64 ∧ 8 * V.getD j 0 .U = (v : F) := by
    rw [(hz y hyY).1.2.2 j hjm]
    by_cases hlt : j < m
    · rw [if_pos hlt]
      classical
      refine ⟨∑ i ∈ range 64, if vecL A (j * 64 + i) = 1 then 2 ^ i else 0, ?_, ?_⟩
      · calc (∑ i ∈ range 64, if vecL A (j * 64 + i) = 1 then 2 ^ i else 0) ≤ ∑ i ∈ range 64, 2 ^ i := sum_le_sum fun i _ => by split <;> simp
          _ < 2 ^ 64 := by decide
      · rw [Nat.cast_sum]
        refine sum_congr rfl fun i hi => ?_
        have := mem_range.mp hi
        rcases bit (j * 64 + i) (by omega) with h | h
        · simp [h]
        · simp [h]
    · rw [if_neg hlt]
      exact ⟨0, by norm_num, by simp⟩
  obtain ⟨v, hv, e⟩ := hv
  refine ⟨v, hv, 8 * V.getD j 0 .G, Finsupp.ext fun g => ?_⟩
  simp only [Finsupp.smul_apply, Finsupp.add_apply, smul_eq_mul, formal, Finsupp.single_apply]
  by_cases hg : g = .G
  · subst hg; simp
  by_cases hu : g = .U
  · subst hu; rw [e]; simp
  rw [(hz y hyY).2 g hg hu j hjm, if_neg (Ne.symm hg), if_neg (Ne.symm hu)]
  ring

/-! ## The honest prover -/

theorem Rounds.honest (h8 : (8 : F) ≠ 0) (x : F) (U : M) {W : Finset F} (h1 : 4 ≤ W.card) (h2 : ∀ w ∈ W, w ≠ 0)
    (h3 : ∀ w ∈ W, ∀ w' ∈ W, w ^ 2 = w' ^ 2 → w = w') : ∀ (k : ℕ) (a b : ℕ → F) (g h : ℕ → M),
    Rounds k (IpEq k g h x U (ipa (2 ^ k) a b g h x U)) := by
  intro k
  induction k with
  | zero =>
    intro a b g h
    refine ⟨rfl, rfl, rfl, a 0, b 0, ?_⟩
    simp [ipa, lrSum, coef]
  | succ k ih =>
    intro a b g h
    refine ⟨(8 : F)⁻¹ • crossL (2 ^ k) a b g h x U, (8 : F)⁻¹ • crossR (2 ^ k) a b g h x U, W, h1, h2, h3, fun w hw => ?_⟩
    refine Rounds.mono ?_ (ih (foldS w (2 ^ k) a) (foldS w⁻¹ (2 ^ k) b) (foldP w⁻¹ (2 ^ k) g) (foldP w (2 ^ k) h))
    rintro ws Ls Rs l1 l2 l3 ⟨-, -, -, α, β, e⟩
    refine ⟨by simp [l1], by simp [l2], by simp [l3], α, β, ?_⟩
    have f1 := coef_foldP w ws g
    have f2 := coef_foldP_inv w ws h
    rw [List.length_cons, l1] at f1 f2
    rw [← f1, ← f2, ← e, lrSum_cons, ipa_fold (h2 w hw), smul_smul (8 : F), smul_smul (8 : F), mul_inv_cancel₀ h8, one_smul, one_smul,
      show 2 ^ (k + 1) = 2 ^ k + 2 ^ k by rw [pow_succ]; omega]
    abel

theorem bits_sum (v n : ℕ) : ∑ i ∈ range n, v / 2 ^ i % 2 * 2 ^ i = v % 2 ^ n := by
  induction n with
  | zero => simp [Nat.mod_one]
  | succ n ih => rw [sum_range_succ, ih, Nat.mod_pow_succ]; ring

/-- Every list of commitments to numbers below `2^64` has a tree of accepted proofs, whatever the generators. -/
theorem complete (g : Gens M) {m k : ℕ} (hk : 2 ^ k = m * 64) (h8 : (8 : F) ≠ 0) {Y Z X I W : Finset F} {V : List M} (hV : V.length ≤ m)
    (hY : m * 64 ≤ Y.card) (hY0 : ∀ y ∈ Y, y ≠ 0) (hZ : m + 2 ≤ Z.card) (hX : 3 ≤ X.card) (hI : 2 ≤ I.card)
    (h1 : 4 ≤ W.card) (h2 : ∀ w ∈ W, w ≠ 0) (h3 : ∀ w ∈ W, ∀ w' ∈ W, w ^ 2 = w' ^ 2 → w = w')
    (h : ∀ j < V.length, ∃ v : ℕ, v < 2 ^ 64 ∧ ∃ γ : F, (8 : F) • V.getD j 0 = (v : F) • g.U + γ • g.G) : Convincing F g m k V := by
  have h' : ∀ j, ∃ v : ℕ, v < 2 ^ 64 ∧ ∃ γ : F, (8 : F) • V.getD j 0 = (v : F) • g.U + γ • g.G := fun j => by
    by_cases hj : j < V.length
    · exact h j hj
    · refine ⟨0, by norm_num, 0, ?_⟩
      rw [List.getD_eq_getElem?_getD, List.getElem?_eq_none (by omega)]
      simp
  choose v hv γ hγ using h'
  let bit : ℕ → F := fun i => ((v (i / 64) / 2 ^ (i % 64) % 2 : ℕ) : F)
  have hb : ∀ i, bit i * (bit i - 1) = 0 := fun i => by
    rcases Nat.mod_two_eq_zero_or_one (v (i / 64) / 2 ^ (i % 64)) with e | e <;> simp [bit, e]
  have hbs : ∀ j, ∑ i ∈ range 64, bit (j * 64 + i) * 2 ^ i = (v j : F) := fun j => by
    have e : v j = ∑ i ∈ range 64, v j / 2 ^ i % 2 * 2 ^ i := by rw [bits_sum, Nat.mod_eq_of_lt (hv j)]
    conv_rhs => rw [e]
    rw [Nat.cast_sum]
    refine sum_congr rfl fun i hi => ?_
    have hi := mem_range.mp hi
    simp only [bit, show (j * 64 + i) / 64 = j by omega, show (j * 64 + i) % 64 = i by omega, Nat.cast_mul, Nat.cast_pow, Nat.cast_ofNat]
  refine ⟨(8 : F)⁻¹ • ∑ i ∈ range (m * 64), (bit i • g.Gi i + (bit i - 1) • g.Hi i), 0, Y, hY, fun y hy => ⟨hY0 y hy, Z, by rwa [max_eq_left hV], fun z _ => ?_⟩⟩
  have hyi : ∀ i, y ^ i * (y⁻¹) ^ i = 1 := fun i => by rw [← mul_pow, mul_inv_cancel₀ (hY0 y hy), one_pow]
  refine ⟨0, 0, X, hX, fun x _ => ⟨∑ j ∈ range m, z ^ (j + 2) * γ j, 0,
    ∑ i ∈ range (m * 64), (bit i - z) * (y ^ i * (bit i - 1 + z) + zeta z i), I, hI, fun xip _ => ?_⟩⟩
  have hp : ipPoint g (m * 64) y z x xip ((8 : F)⁻¹ • ∑ i ∈ range (m * 64), (bit i • g.Gi i + (bit i - 1) • g.Hi i)) 0 0
      (∑ i ∈ range (m * 64), (bit i - z) * (y ^ i * (bit i - 1 + z) + zeta z i)) =
      ipa (m * 64) (fun i => bit i - z) (fun i => y ^ i * (bit i - 1 + z) + zeta z i) g.Gi (fun i => (y⁻¹) ^ i • g.Hi i) xip g.U := by
    rw [ipPoint, ipa, smul_zero, add_zero, smul_smul, mul_inv_cancel₀ h8, one_smul, zero_smul, sub_zero, add_sub_right_comm, ← sum_sub_distrib]
    congr 1
    refine sum_congr rfl fun i _ => ?_
    have e : ((y ^ i * (bit i - 1 + z) + zeta z i) * (y⁻¹) ^ i) = (bit i - 1) + (z * y ^ i + zeta z i) * (y⁻¹) ^ i := by
      linear_combination (bit i - 1) * hyi i
    rw [smul_smul, e]
    module
  have hr := Rounds.honest h8 xip g.U h1 h2 h3 k (fun i => bit i - z) (fun i => y ^ i * (bit i - 1 + z) + zeta z i) g.Gi (fun i => (y⁻¹) ^ i • g.Hi i)
  refine Rounds.mono ?_ hr
  rintro ws L R - - - ⟨-, -, -, a, b, e⟩
  refine ⟨a, b, ?_, (eq2_ip _ _ _ _ _ _ _ _ _ _ _ _ _ _ _ _ _ _ _).mpr ?_⟩
  · have e0 := t0_general m bit (fun i => bit i - 1) y z
    simp only [hb, mul_zero, sum_const_zero, zero_add, sub_sub_cancel, sub_self, hbs] at e0
    simp only [eq1, smul_zero, add_zero]
    rw [e0, zipIdx_sum z V m hV, smul_sum, sum_smul, sum_smul, ← sum_sub_distrib, ← sum_sub_distrib]
    refine sum_eq_zero fun j _ => ?_
    rw [smul_comm, hγ j]
    module
  · rw [hp]
    rw [hk] at e
    exact e

/-! ## Combinations and points -/

theorem eval_formal (g : Gens M) : eval (F := F) g (formal F).G = g.G ∧ eval (F := F) g (formal F).U = g.U ∧
    (∀ i, eval (F := F) g ((formal F).Gi i) = g.Gi i) ∧ ∀ i, eval (F := F) g ((formal F).Hi i) = g.Hi i := by
  refine ⟨?_, ?_, fun i => ?_, fun i => ?_⟩ <;> simp [eval, formal]

theorem eval_eq1 (g : Gens M) (m : ℕ) (c : Ch F) (p : Pf F (Gen →₀ F)) : eval g (eq1 (formal F) m c p) = eq1 g m c (p.eval g) := by
  obtain ⟨hG, hU, -, -⟩ := eval_formal (F := F) g
  simp only [eq1, Pf.eval, map_sub, map_smul, map_add, hG, hU, map_list_sum, List.map_map, List.zipIdx_map]
  congr 6
  refine List.map_congr_left fun v _ => ?_
  simp

theorem eval_lrSum (g : Gens M) (ws : List F) : ∀ L R : List (Gen →₀ F), eval g (lrSum ws L R) = lrSum ws (L.map (eval g)) (R.map (eval g)) := by
  induction ws with
  | nil => intro L R; simp [lrSum]
  | cons w ws ih =>
    intro L R
    cases L with
    | nil => simp [lrSum]
    | cons L Ls =>
      cases R with
      | nil => simp [lrSum]
      | cons R Rs => simp only [List.map_cons, lrSum_cons, map_add, map_smul, ih]

theorem eval_eq2 (g : Gens M) (m : ℕ) (c : Ch F) (p : Pf F (Gen →₀ F)) : eval g (eq2 (formal F) m c p) = eq2 g m c (p.eval g) := by
  obtain ⟨hG, hU, hGi, hHi⟩ := eval_formal (F := F) g
  simp only [eq2, Pf.eval, map_sub, map_smul, map_add, hG, hU, hGi, hHi, map_sum, eval_lrSum]

end Verif.Bp
