import Verif.Spec.Agent
import Verif.Model.TxKeys

/-! What transaction keys are good for, and a device that hands them out. -/

namespace Verif.TxKeys
open Verif Verif.Signer Verif.Agent

variable {S P : Type} [CommRing S] [AddCommGroup P] [Module S P] [DecidableEq S] [DecidableEq P]

/-- The secret keys stored with a transaction, for the holder of the spend key: salt, multiplier and encrypted keys are what the host keeps. -/
def opened (env : Env S P) (salt mult keys ph : Bytes) : Option Bytes :=
  env.decPack (env.mac salt (env.keccak2 (env.scEnc (env.spendPriv + env.scDec mult) ++ ph))) keys

/-- Whoever has `k` and the address of the payee, with spend key `D` and view key `V`, can recompute output `o` at place `j`: its one-time key, mask and
encrypted amount. -/
structure Proves (env : Env S P) (cfg : Config) (k : S) (D V : P) (j : Nat) (o : Made S P) : Prop where
  key : o.key = env.hashToScalar (env.ptEnc ((8 : S) • k • V) ++ Varint.dumpNat j) • env.G + D
  mask : o.mask = env.hashToScalar (ascii "commitment_mask" ++ env.scEnc (env.hashToScalar (env.ptEnc ((8 : S) • k • V) ++ Varint.dumpNat j)))
  amount : env.ecdh o.mask o.dst.amount (env.scEnc (env.hashToScalar (env.ptEnc ((8 : S) • k • V) ++ Varint.dumpNat j))) (decide (10 ≤ cfg.hf)) =
    some o.ecdh

/-- The secret keys `r` and `adds` belong to the public keys `txKey` and `addKeys` of a transaction for `d`: `txKey = r·G`, or `r` times the spend key of a
subaddress that is paid; an additional key for every output, times the spend key for subaddresses. -/
structure Belong (env : Env S P) (d : TxData) (outs : List (Made S P)) (r : S) (adds : List S) (txKey : P) (addKeys : List P) : Prop where
  main : txKey = r • env.G ∨ ∃ dst ∈ d.dsts, ∃ D, env.ptDec dst.addr.spend = some D ∧ txKey = r • D
  count : adds.length = addKeys.length
  more : ∀ (j : Nat) (a : S) (o : Made S P), adds[j]? = some a → outs[j]? = some o → ∃ D, env.ptDec o.dst.addr.spend = some D ∧
    addKeys[j]? = some (if o.dst.isSub then a • D else a • env.G)

/-- The device that answers a request for transaction keys: it opens what the host stored and encrypts it again, with the view key and a fresh salt;
the derivations are the keys times the public key of the request. -/
def deviceAnswer (env : Env S P) (salt mult keys ph : Bytes) (pub : P) (salt' nonce : Bytes) : Option Ack :=
  (opened env salt mult keys ph).map fun plain =>
    ⟨salt', env.encPack (env.mac salt' (env.keccak2 (env.scEnc env.viewPriv ++ ph))) plain nonce,
      env.encPack (env.mac salt' (env.keccak2 (env.scEnc env.viewPriv ++ ph)))
        (((List.range (plain.length / 32)).map fun i => env.ptEnc (env.scDec ((plain.drop (32 * i)).take 32) • pub)).flatten) nonce⟩

end Verif.TxKeys
