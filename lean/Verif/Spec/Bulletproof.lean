import Verif.Model.Bulletproof
import Mathlib.Algebra.BigOperators.Group.Finset.Basic
import Mathlib.Algebra.Field.Basic
import Mathlib.Algebra.Module.Basic

/-!
What a Bulletproof is, independently of the program: the two equations of the aggregated proof with 64-bit values, over any field and module,
and the challenges as hashes of the transcript.
-/

namespace Verif.Bp
open Finset

variable {F M : Type*} [Field F] [AddCommGroup M] [Module F M]

/-- The factor of generator `i`: for each challenge, `w` if the bit of `i` is set and `w⁻¹` otherwise; the first challenge takes the highest bit. -/
def coef : List F → ℕ → F
  | [], _ => 1
  | w :: ws, i => (if i / 2 ^ ws.length % 2 = 1 then w else w⁻¹) * coef ws i

/-- A proof as group elements and scalars; points are an eighth of the textbook ones. -/
structure Pf (F M : Type*) where
  V : List M
  A : M
  S : M
  T1 : M
  T2 : M
  taux : F
  mu : F
  L : List M
  R : List M
  a : F
  b : F
  t : F

/-- The challenges. -/
structure Ch (F : Type*) where
  y : F
  z : F
  x : F
  xip : F
  ws : List F

/-- The generators: `G` for masks, `U` for amounts, and the vectors. -/
structure Gens (M : Type*) where
  G : M
  U : M
  Gi : ℕ → M
  Hi : ℕ → M

/-- `δ(y, z) = (z - z²) Σ_{i<64m} y^i - Σ_{j<m} z^{j+3} (2^64 - 1)`. -/
def delta (m : ℕ) (y z : F) : F := (z - z ^ 2) * ∑ i ∈ range (m * 64), y ^ i - ∑ j ∈ range m, z ^ (j + 3) * (2 ^ 64 - 1)

/-- First equation, as left side minus right side: `t U + taux G = 8 (Σ z^{j+2} V_j + x T1 + x² T2) + δ U`. -/
def eq1 (g : Gens M) (m : ℕ) (c : Ch F) (p : Pf F M) : M :=
  (8 : F) • ((p.V.zipIdx.map fun v => c.z ^ (v.2 + 2) • v.1).sum + c.x • p.T1 + c.x ^ 2 • p.T2) - (p.t - delta m c.y c.z) • g.U - p.taux • g.G

/-- What the rounds contribute: `Σ w² 8L + w⁻² 8R`. -/
def lrSum (ws : List F) (L R : List M) : M :=
  ((ws.zip (L.zip R)).map fun t => t.1 ^ 2 • (8 : F) • t.2.1 + (t.1⁻¹) ^ 2 • (8 : F) • t.2.2).sum

/-- Second equation, the unrolled inner product argument for the vectors committed in `A` and `S`. -/
def eq2 (g : Gens M) (m : ℕ) (c : Ch F) (p : Pf F M) : M :=
  (8 : F) • (p.A + c.x • p.S) + lrSum c.ws p.L p.R - p.mu • g.G + ((p.t - p.a * p.b) * c.xip) • g.U -
  ∑ i ∈ range (m * 64), ((p.a * coef c.ws i + c.z) • g.Gi i +
    (p.b * (c.y⁻¹) ^ i * (coef c.ws i)⁻¹ - (c.z * c.y ^ i + c.z ^ (2 + i / 64) * 2 ^ (i % 64)) * (c.y⁻¹) ^ i) • g.Hi i)

/-! ## Transcript -/

/-- The challenges of a proof as numbers: each is the hash of the previous one and what the prover has sent since. -/
def chY (H : Bytes → Bytes) (p : Proof) : ℤ := Key.hs H (Ed.encodeInt (Key.hs H p.V.flatten) ++ p.A ++ p.S)
def chZ (H : Bytes → Bytes) (p : Proof) : ℤ := Key.hs H (Ed.encodeInt (chY H p))
def chX (H : Bytes → Bytes) (p : Proof) : ℤ := Key.hs H (Ed.encodeInt (chZ H p) ++ Ed.encodeInt (chZ H p) ++ p.T1 ++ p.T2)
def chXip (H : Bytes → Bytes) (p : Proof) : ℤ := Key.hs H (Ed.encodeInt (chX H p) ++ Ed.encodeInt (chX H p) ++ p.taux ++ p.mu ++ p.t)

/-- The challenges of the rounds. -/
def chWs (H : Bytes → Bytes) : ℤ → List (Bytes × Bytes) → List ℤ
  | _, [] => []
  | c, (L, R) :: rest => let w := Key.hs H (Ed.encodeInt c ++ L ++ R); w :: chWs H w rest

/-- No challenge of the proof is zero. -/
def Nonzero (H : Bytes → Bytes) (p : Proof) : Prop :=
  chY H p ≠ 0 ∧ chZ H p ≠ 0 ∧ chX H p ≠ 0 ∧ chXip H p ≠ 0 ∧ ∀ w ∈ chWs H (chXip H p) (p.L.zip p.R), w ≠ 0

end Verif.Bp
