import Verif.Model.Signer
import Mathlib.Algebra.BigOperators.Group.List.Basic

/-! Host side of range-proof batching, `monero_glue/agent/agent_lite.py`. -/

namespace Verif.Batches

/-- `get_rsig_type`, agent_lite.py:60-66. -/
def rsigType (useBp : Bool) (numOutputs : Nat) : Nat :=
  if !useBp then 0 else if numOutputs > 16 then 2 else 3

/-- Inner `while`, agent_lite.py:88-92, started with `batch_size = 1`; the batch size is kept as a positive number. -/
def grow (num batched : Nat) (bs : { n : Nat // 0 < n }) : { n : Nat // 0 < n } :=
  if bs.1 * 2 + batched ≤ num ∧ bs.1 * 2 ≤ 16 then grow num batched ⟨bs.1 * 2, by have := bs.2; omega⟩ else bs
termination_by 16 - bs.1
decreasing_by have := bs.2; omega

/-- The outer `while` of `generate_rsig_batch_sizes`, agent_lite.py:73-98; `none` = `ValueError`. -/
def genLoop (ty num batched : Nat) (batches : List Nat) : Option (List Nat) :=
  if h : batched < num then
    if ty = 0 ∨ ty = 1 then genLoop ty num (batched + 1) (batches ++ [1])
    else if ty = 3 then
      if num > 16 then none else genLoop ty num (batched + num) (batches ++ [num])
    else if ty = 2 then
      let bs := min (grow num batched ⟨1, Nat.one_pos⟩).1 (num - batched)
      genLoop ty num (batched + bs) (batches ++ [bs])
    else none
  else some batches
termination_by num - batched
decreasing_by
  · omega
  · omega
  · have := (grow num batched ⟨1, Nat.one_pos⟩).2
    omega

/-- `generate_rsig_batch_sizes`, agent_lite.py:69-99. -/
def batchSizes (ty num : Nat) : Option (List Nat) := genLoop ty num 0 []

/-- Who computes range proofs: the device, the host before sending an output (client version 0), the host after the
answer to an output (client version 1). -/
inductive Mode
  | device | host0 | host1
deriving DecidableEq

/-- `cur_batch_idx`, `cur_output_in_batch_idx` of `TData`, agent_lite.py:115-116. -/
structure Host where
  batch : Nat := 0
  inBatch : Nat := 0
deriving DecidableEq

/-- The batching of one output: `_step_set_outputs` 585-598, `_rct_offload` 607-641 and `_on_set_outputs_ack` 643-693.
`devLast`: the device treats the output as the last of a batch (it then returns a proof in mode `device`).
Result: first output and number of outputs of the proof made by the host or attached to the outputs by the host (the
slice starting at `1 + idx - batch_size`), and the new counters; `none` = `IndexError`. -/
def hostStep (mode : Mode) (grp : List Nat) (h : Host) (idx : Nat) (devLast : Bool) :
    Option (Option (Int × Nat) × Host) :=
  let h := { h with inBatch := h.inBatch + 1 }
  match mode with
  | .device =>
    if devLast then
      (grp[h.batch]?).map fun (size : Nat) => (some (1 + idx - size, size), { batch := h.batch + 1, inBatch := 0 })
    else some (none, h)
  | .host0 =>
    (grp[h.batch]?).map fun (size : Nat) =>
      if size > h.inBatch then (none, h) else (some (1 + idx - size, size), h)     -- no state change, 686-687
  | .host1 =>
    (grp[h.batch]?).map fun (size : Nat) =>
      if size > h.inBatch then (none, h)
      else (some (1 + idx - size, size), { batch := h.batch + 1, inBatch := 0 })

/-- Outputs `0 … n-1` sent one after the other to a device with the same layout: the host's counters, and what it did for
each output. -/
def hostRun (mode : Mode) (grp : List Nat) : Nat → Option (List (Option (Int × Nat)) × Host)
  | 0 => some ([], {})
  | n + 1 => do
    let (acts, h) ← hostRun mode grp n
    let last ← Signer.lastInBatch grp n
    let (a, h) ← hostStep mode grp h n last
    some (acts ++ [a], h)

end Verif.Batches
