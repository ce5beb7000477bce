import Verif.Spec.Agent
import Verif.Spec.TxPrefix

/-!
What a transaction pays, in the words of someone who reads the chain: the strings that are hashed into the message of its ring signatures, the outputs
written in them, and how the owner of an address recognises one. Nothing here looks inside the device.
-/

namespace Verif.Signer
open Verif Agent
variable {S P : Type}

/-- The three strings of a transaction the network hashes into the message of its ring signatures: the prefix, the part with type, fee, encrypted amounts
and commitments, and the range proofs. -/
structure Blobs where
  pfx : Bytes
  base : Bytes
  proofs : Bytes

/-- What the message hash is taken of. -/
def Blobs.digests (H : Bytes → Bytes) (t : Blobs) : Bytes := H t.pfx ++ H t.base ++ H t.proofs

/-- The message the ring signatures of the transaction must be over. -/
def Blobs.message (H : Bytes → Bytes) (t : Blobs) : Bytes := H (t.digests H)

/-- Hashing the two transactions gives no collision: at none of the four places do two different strings get one hash. -/
structure NoCollision (H : Bytes → Bytes) (t t' : Blobs) : Prop where
  top : H (t.digests H) = H (t'.digests H) → t.digests H = t'.digests H
  pfx : H t.pfx = H t'.pfx → t.pfx = t'.pfx
  base : H t.base = H t'.base → t.base = t'.base
  proofs : H t.proofs = H t'.proofs → t.proofs = t'.proofs

variable [CommRing S] [AddCommGroup P] [Module S P]

/-- Transaction `t` has the inputs `vin` and exactly one output for every destination of the confirmed data `tsx`, in order, each committing to the amount of
its destination; its fee and unlock time are the confirmed ones; `txKey` and `addKeys` are the public keys in its extra field. -/
structure Pays (env : Env S P) (tsx : TsxData) (t : Blobs) (type : UInt8) (vin : List Bytes) (outs : List (Made S P)) (nonce : Bytes) (txKey : P)
    (addKeys : List Bytes) : Prop where
  dests : outs.map (·.dst) = tsx.outputs
  pfx : t.pfx = TxPrefix.bytes {
    version := 2
    unlockTime := tsx.unlockTime
    vin := vin
    vout := outs.map fun o => [0, 2] ++ env.ptEnc o.key
    extra := nonce ++ [1] ++ env.ptEnc txKey ++
      (if addKeys = [] then [] else [4] ++ Varint.dumpNat addKeys.length ++ addKeys.flatten) }
  base : t.base = [type] ++ Varint.dumpNat tsx.fee ++ (outs.map (·.ecdh)).flatten ++
    (outs.map fun o => env.ptEnc (o.mask • env.G + (o.dst.amount : S) • env.H)).flatten

/-- The owner with spend key `D` and secret view key `v` recognises output `o` at place `j` with the public key `R`: one-time key and encrypted amount
follow from the secret they share with the sender, and so does the mask when masks are `derived`. -/
structure Recognises (env : Env S P) (type : UInt8) (derived : Prop) (D : P) (v : S) (R : P) (j : Nat) (o : Made S P) : Prop where
  key : o.key = shared env v R j • env.G + D
  mask : derived → o.mask = env.hashToScalar (ascii "commitment_mask" ++ env.scEnc (shared env v R j))
  amount : env.ecdh o.mask o.dst.amount (env.scEnc (shared env v R j)) (decide (type = 4)) = some o.ecdh

/-- A declared change of zero names the wallet's own address, or no address that is paid. -/
def ZeroChangeOk (env : Env S P) (tsx : TsxData) : Prop :=
  ∀ c, tsx.change = some c → c.amount = 0 → c.addr = env.primaryAddr tsx.account ∨ ∀ o ∈ tsx.outputs, o.addr ≠ c.addr

end Verif.Signer
