import Verif.Spec.Bulletproof
import Mathlib.LinearAlgebra.Finsupp.LinearCombination

/-!
Soundness of Bulletproofs. The prover is algebraic: every point sent is known to the prover as a combination of the generators, and so is an element of the module of
all combinations, where the generators are independent. A prover whose combinations satisfy an equation in the group but not here has found a relation
between the generators. What is asked for is a tree of accepted proofs, as obtained by rewinding: enough challenges of each kind, where what the prover
sends may depend on all challenges before.
-/

namespace Verif.Bp
open Finset

/-- The generators: for masks, for amounts, and the two vectors. -/
inductive Gen
  | G
  | U
  | Gi (i : ℕ)
  | Hi (i : ℕ)
deriving DecidableEq

variable {F M : Type*} [Field F] [AddCommGroup M] [Module F M]

/-- The generators as combinations of generators. -/
noncomputable def formal (F : Type*) [Field F] : Gens (Gen →₀ F) :=
  ⟨.single .G 1, .single .U 1, fun i => .single (.Gi i) 1, fun i => .single (.Hi i) 1⟩

/-- The tree of the rounds: in each round, for one pair of points, four challenges with different squares. -/
def Rounds : ℕ → (List F → List M → List M → Prop) → Prop
  | 0, accepted => accepted [] [] []
  | n + 1, accepted => ∃ (L R : M) (W : Finset F), 4 ≤ W.card ∧ (∀ w ∈ W, w ≠ 0) ∧ (∀ w ∈ W, ∀ w' ∈ W, w ^ 2 = w' ^ 2 → w = w') ∧
      ∀ w ∈ W, Rounds n fun ws Ls Rs => accepted (w :: ws) (L :: Ls) (R :: Rs)

/-- A tree of accepted proofs for the commitments `V`, with `m` blocks of 64 bits: for one `A` and `S`, as many `y` as bits, two more `z` than commitments,
three `x`, two challenges for the inner product, and the rounds. -/
def Tree (F : Type*) {M : Type*} [Field F] (accepted : Ch F → Pf F M → Prop) (m rounds : ℕ) (V : List M) : Prop :=
  ∃ (A S : M) (Y : Finset F), m * 64 ≤ Y.card ∧ ∀ y ∈ Y, y ≠ 0 ∧
    ∃ Z : Finset F, max m V.length + 2 ≤ Z.card ∧ ∀ z ∈ Z,
      ∃ (T1 T2 : M) (X : Finset F), 3 ≤ X.card ∧ ∀ x ∈ X,
        ∃ (taux mu t : F) (I : Finset F), 2 ≤ I.card ∧ ∀ xip ∈ I,
          Rounds rounds fun ws L R => ∃ a b : F, accepted ⟨y, z, x, xip, ws⟩ ⟨V, A, S, T1, T2, taux, mu, L, R, a, b, t⟩

/-- The tree where both equations hold. -/
def Convincing (F : Type*) {M : Type*} [Field F] [AddCommGroup M] [Module F M] (g : Gens M) (m rounds : ℕ) (V : List M) : Prop :=
  Tree F (fun c p => eq1 g m c p = 0 ∧ eq2 g m c p = 0) m rounds V

/-- Every commitment is (an eighth of) one to a number of 64 bits: a combination of the generators for amounts and for masks alone, the
first with the number as factor. -/
def InRange (F : Type*) {M : Type*} [Field F] [AddCommGroup M] [Module F M] (g : Gens M) (V : List M) : Prop :=
  ∀ P ∈ V, ∃ v : ℕ, v < 2 ^ 64 ∧ ∃ γ : F, (8 : F) • P = (v : F) • g.U + γ • g.G

/-- The point that a combination stands for. -/
noncomputable def eval (g : Gens M) : (Gen →₀ F) →ₗ[F] M := Finsupp.linearCombination F fun
  | .G => g.G
  | .U => g.U
  | .Gi i => g.Gi i
  | .Hi i => g.Hi i

/-- The proof whose points the combinations stand for. -/
noncomputable def Pf.eval (g : Gens M) (p : Pf F (Gen →₀ F)) : Pf F M :=
  ⟨p.V.map (Bp.eval g), Bp.eval g p.A, Bp.eval g p.S, Bp.eval g p.T1, Bp.eval g p.T2, p.taux, p.mu, p.L.map (Bp.eval g), p.R.map (Bp.eval g), p.a, p.b, p.t⟩

/-- The combination is no relation between the generators: if it is zero in the group, all its factors are zero. -/
def NoRelation (g : Gens M) (r : Gen →₀ F) : Prop := eval g r = 0 → r = 0

end Verif.Bp
