import Verif.Model.Offload

/-! When the offloaded Bulletproof prover is expected to work. -/

namespace Verif.Off

/-- A number of amounts `M` which the prover does not have to pad, parameters that are powers of two, and chunks that fit the vectors: half the
first vectors if the device folds, a quarter (and the smallest vector it is asked to work on chunk by chunk) if it also computes the dot products. -/
structure Fits (cfg : Cfg) (M : Nat) : Prop where
  amounts : M ∈ [1, 2, 4, 8, 16, 32]
  method : cfg.method ≤ 3
  batching : ∃ k, cfg.batching = 2 ^ k
  thresh : ∃ k, cfg.thresh = 2 ^ k
  off2 : ∃ k, cfg.off2 = 2 ^ k
  order : 2 ≤ cfg.method → cfg.off2 ≤ cfg.thresh
  all : cfg.batching ≤ 64 * M
  halves : cfg.method ≤ 1 → cfg.batching ≤ 32 * M
  quarters : cfg.method = 0 → cfg.batching ≤ 16 * M ∧ cfg.batching ≤ cfg.thresh

/-- Blinding factors are nonzero scalars. -/
def Blinds (blind : Nat → Nat → Int) : Prop := ∀ k i, 0 < blind k i ∧ blind k i < Ed.l

end Verif.Off
