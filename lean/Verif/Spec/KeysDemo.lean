import Verif.Spec.Keys

/-! A wallet with private keys 2 (view) and 3 (spend), for the examples. -/

namespace Verif.Key
open Verif Ed

/-- A toy hash with 32-byte digests. -/
def demoH (d : Bytes) : Bytes := UInt8.ofNat (d.foldl (fun n b => n * 3 + b.toNat) 0) :: List.replicate 31 0

/-- A destination of the demo wallet. -/
def demoDst (i j amount : Nat) : Dst :=
  match subAddressKeys demoH 2 (scalarmultB 3) i j with
  | some (D, C) => ⟨encodePoint D, encodePoint C, decide (¬(i = 0 ∧ j = 0)), amount⟩
  | none => ⟨[], [], false, 0⟩

def demoTable : Table :=
  ((computeSubaddresses demoH 2 (scalarmultB 3) 0 [0, 1] []).bind (computeSubaddresses demoH 2 (scalarmultB 3) 1 [0, 1])).getD []

/-- Sending to `dsts` with transaction key 5 and additional keys 7, 8, 9, then looking at output `n` with the demo wallet. -/
def demoSpend (dsts : List Dst) (change : Option (Bytes × Bytes)) (n : Nat) : Bool :=
  match txKeys 5 dsts change with
  | none => false
  | some k => match allOutKeys demoH k 2 change 0 [7, 8, 9] dsts with
    | none => false
    | some os => match os[n]?, decodePoint (encodePoint k.rPub), decodeAll (publishedKeys os) with
      | some o, some R, some As => match decodePoint (encodePoint o.outKey) with
        | some P => (kiHelper demoH 2 3 demoTable P R As n).isSome
        | none => false
      | _, _, _ => false

/-- Encrypting a payment id for `dsts` with transaction key 5 and decrypting it with the demo wallet's view key. -/
def demoPid (dsts : List Dst) (pid : Bytes) : Option Bytes :=
  match txKeys 5 dsts none, processPaymentId demoH pid 5 dsts none with
  | some k, some ex => match decodePoint (encodePoint k.rPub) with
    | some R => encryptPaymentId demoH (ex.drop 3) R 2
    | none => none
  | _, _ => none

end Verif.Key
