import Verif.Spec.Bulletproof
import Verif.Lemmas.Ed25519

/-!
The random choices behind a Bulletproof as one finite type, so that they can be counted.
-/

namespace Verif.Bp
open Verif Ed

/-- The masks of `n` commitments, the scalars `alpha`, `rho`, `tau1`, `tau2`, and the two blinding vectors, one scalar modulo the group order for
each bit (`2 ^ logM n` amounts of 64 bits after padding). -/
structure BpTape (n : ℕ) where
  masks : Fin n → Fl
  alpha : Fl
  rho : Fl
  tau1 : Fl
  tau2 : Fl
  sL : Fin (2 ^ logM n * 64) → Fl
  sR : Fin (2 ^ logM n * 64) → Fl

/-- A vector as the prover reads it. -/
def readAt {N : ℕ} (f : Fin N → Fl) (i : ℕ) : ℤ := if h : i < N then ((f ⟨i, h⟩).val : ℤ) else 0

def BpTape.rand {n : ℕ} (t : BpTape n) : Rand :=
  ⟨(t.alpha.val : ℤ), (t.rho.val : ℤ), (t.tau1.val : ℤ), (t.tau2.val : ℤ), readAt t.sL, readAt t.sR⟩

def BpTape.gamma {n : ℕ} (t : BpTape n) : List ℤ := List.ofFn fun i => ((t.masks i).val : ℤ)

/-- The proof (with the commitments in it) that is made for the amounts from these random choices. -/
def made (H : Bytes → Bytes) {n : ℕ} (amounts : List ℕ) (t : BpTape n) : Option Proof := proveRangeBp H t.rand amounts t.gamma

end Verif.Bp
