import Verif.Model.Agent

/-! What `sign` of monero_poc/agent.py makes of an unsigned transaction set: the signed transactions and the key images sent back to the hot wallet.

Left out: reading, decrypting and writing the files, printing, and `store_cdata` (see `Model/TxKeys.lean`), which do not change the result. -/

namespace Verif.SignedSet
open Verif Verif.Signer Verif.Agent
variable {S P : Type} [CommRing S] [AddCommGroup P] [Module S P] [DecidableEq S] [DecidableEq P]

/-- A transaction of the unsigned set: what the host signs, and `selected_transfers`, the wallet's numbers of the outputs it spends. -/
structure Unsigned where
  data : TxData
  selected : List Nat

/-- The record of a signed transaction, monero_glue/xmr/wallet.py 256-280; of the construction data only the sources, which `apply_permutation`
swapped in place (monero_glue/agent/agent_lite.py 428-437), and the selected transfers, which it did not. -/
structure Pending where
  tx : Tx
  selected : List Nat
  sources : List Src

/-- `ct.source_permutation`, monero_glue/agent/agent_lite.py 417-426, of a signing that starts at connection `c`: the first steps of
`Agent.signAll`, run again (the model is deterministic in `rnd`). -/
def sourcePermutation (env : Env S P) (cfg : Config) (cdc : Codec) (rnd : Nat → Rand S) (d : TxData) (c : Conn S P) : Option (List Nat) :=
  (tsxData cfg d).bind fun tsx =>
  (initStep env rnd tsx c).bind fun r0 =>
  (inputLoop env cdc rnd d.sources r0.2).map fun r1 =>
    Common.sortPermutation (r1.1.map (·.vin.ki))

/-- monero_poc/agent.py 1435-1442: the key images of the wallet's transfers, or identities if it sent none. -/
def initial (transfers : List Bytes) (txes : List Unsigned) : List Bytes :=
  if transfers.length = 0 then
    List.replicate ((txes.foldl (fun m tx => tx.selected.foldl max m) 0) + 1) (1 :: List.replicate 31 0)
  else transfers

/-- One assignment of the loop 1459-1461; an index out of range raises. -/
def assign (sel perm : List Nat) (kis : List Bytes) (idx : Nat) (images : List Bytes) : Option (List Bytes) :=
  (perm[idx]?).bind fun m => (sel[m]?).bind fun t => (kis[idx]?).bind fun ki =>
    if t < images.length then some (images.set t ki) else none

/-- The loop 1459-1461 over the indices given. -/
def update (sel perm : List Nat) (kis : List Bytes) : List Nat → List Bytes → Option (List Bytes)
  | [], images => some images
  | idx :: is, images => (assign sel perm kis idx images).bind (update sel perm kis is)

/-- The body of the loop 1446-1465. -/
def signOne (env : Env S P) (cfg : Config) (cdc : Codec) (rnd : Nat → Rand S) (hrnd : Nat → Bytes) (u : Unsigned) (images : List Bytes)
    (c : Conn S P) : Option (Pending × List Bytes × Conn S P) :=
  (signTransaction env cfg cdc rnd hrnd u.data c).bind fun r =>
  (sourcePermutation env cfg cdc rnd u.data c).bind fun perm =>
  (Common.applyPermutation (perm.length + 1) perm).bind fun swaps =>
  (update u.selected perm (r.1.vin.map (·.ki)) (List.range u.selected.length) images).map fun images' =>
    (⟨r.1, u.selected, Common.doSwaps swaps u.data.sources⟩, images', r.2)

/-- The loop 1446-1465; `hrnd k` is the host's randomness for transaction `k`. -/
def signLoop (env : Env S P) (cfg : Config) (cdc : Codec) (rnd : Nat → Rand S) (hrnd : Nat → Nat → Bytes) :
    Nat → List Unsigned → List Bytes → Conn S P → Option (List Pending × List Bytes × Conn S P)
  | _, [], images, c => some ([], images, c)
  | k, u :: us, images, c =>
    (signOne env cfg cdc rnd (hrnd k) u images c).bind fun r =>
    (signLoop env cfg cdc rnd hrnd (k + 1) us r.2.1 r.2.2).map fun q => (r.1 :: q.1, q.2)

/-- `sign`, 1435-1469: the records and the key images of the signed set. -/
def signSet (env : Env S P) (cfg : Config) (cdc : Codec) (rnd : Nat → Rand S) (hrnd : Nat → Nat → Bytes) (transfers : List Bytes)
    (txes : List Unsigned) (c : Conn S P) : Option (List Pending × List Bytes × Conn S P) :=
  signLoop env cfg cdc rnd hrnd 0 txes (initial transfers txes) c

end Verif.SignedSet
