import Verif.Model.Common
import Verif.Model.Varint

/-!
Model of key image synchronisation: `protocol/key_image_sync.py` (device), `hwtoken/token.py:132-154` (dispatch),
`xmr/key_image.py:48-95` (commitment) and `agent/agent_lite.py:777-820` (host).

Parameters: the hash, key image computation for an output (`export_key_image`, may raise), the authenticated
cipher, and whether credentials can be derived. Randomness is part of the environment of each call.
-/

namespace Verif.KiSync
open Verif

/-- `MoneroTransferDetails`. -/
structure Td where
  outKey : Bytes
  txPub : Bytes
  addKeys : List Bytes
  idx : Nat
deriving DecidableEq

/-- Answer for one output: `MoneroExportedKeyImage`. -/
structure Eki where
  iv : Bytes
  blob : Bytes
deriving DecidableEq

structure Env where
  keccak : Bytes → Bytes
  /-- key image and signature (96 bytes), or an exception; depends on account and sub-address table -/
  exportKi : (subs : List (Nat × List Nat)) → Td → Option Bytes
  /-- `chacha_poly.encrypt(key, data)` with the nonce it draws -/
  encrypt : (key nonce data : Bytes) → Bytes
  /-- `chacha_poly.decrypt(key, nonce, ciphertext)`; `none` = authentication failure (raises) -/
  decrypt : (key nonce ciph : Bytes) → Option Bytes
  /-- `monero_get_creds` does not raise -/
  credsOk : Bool
  /-- the sub-address table computation does not raise -/
  subsOk : List (Nat × List Nat) → Bool

/-- Randomness and the user's answer for one message. -/
structure Rand where
  confirm : Bool
  encKey : Bytes
  nonce : Nat → Bytes

/-- `KeyImageSync` attributes, key_image_sync.py:22-33 (`blocked` is never set). -/
structure Sync where
  num : Nat := 0
  cIdx : Int := -1
  hash : Option Bytes := none
  encKey : Option Bytes := none
  subs : List (Nat × List Nat) := []
  hasher : Bytes := []

inductive Msg
  | init (num : Nat) (hash : Bytes) (subs : List (Nat × List Nat))
  | step (tds : List Td)
  | final
  | other

inductive Resp
  | failure
  | initAck
  | stepAck (kis : List Eki)
  | finalAck (encKey : Bytes)
deriving DecidableEq

/-- `compute_hash`, key_image.py:48-62: the bytes hashed. -/
def tdBytes (td : Td) : Bytes := td.outKey ++ td.txPub ++ td.addKeys.flatten ++ Varint.dumpNat td.idx

def computeHash (env : Env) (td : Td) : Bytes := env.keccak (tdBytes td)

/-- Loop of `sync`, key_image_sync.py:71-89; `j` numbers the outputs of this message. -/
def syncLoop (env : Env) (rnd : Rand) : List Td → Nat → Sync → List Eki → Option (Sync × List Eki)
  | [], _, s, resp => some (s, resp)
  | td :: tds, j, s, resp =>
    let s := { s with cIdx := s.cIdx + 1 }
    if s.cIdx ≥ s.num then none
    else
      let s := { s with hasher := s.hasher ++ computeHash env td }
      match env.exportKi s.subs td, s.encKey with
      | some buff, some key =>
        syncLoop env rnd tds (j + 1) s (resp ++ [⟨rnd.nonce j, env.encrypt key (rnd.nonce j) buff⟩])
      | _, _ => none

/-- `sync`, key_image_sync.py:60-90. -/
def sync (env : Env) (s : Sync) (tds : List Td) (rnd : Rand) : Option (Sync × Resp) :=
  if tds.length = 0 then none
  else (syncLoop env rnd tds 0 s []).map fun x => (x.1, .stepAck x.2)

/-- `final`, key_image_sync.py:92-106. -/
def final (env : Env) (s : Sync) : Option Resp :=
  if s.cIdx + 1 ≠ s.num then none
  else if some (env.keccak s.hasher) ≠ s.hash then none
  else s.encKey.map .finalAck

/-- `init`, key_image_sync.py:40-58, on the new object; a refused confirmation keeps the object. -/
def init (env : Env) (num : Nat) (hash : Bytes) (subs : List (Nat × List Nat)) (rnd : Rand) : Option (Sync × Resp) :=
  if !env.credsOk then none
  else if !rnd.confirm then some ({}, .failure)
  else if !env.subsOk subs then none
  else some ({ num := num, hash := some hash, encKey := some rnd.encKey, subs := subs }, .initAck)

/-- `TokenLite.key_image_sync`, token.py:132-154: `ki_sync` before and after. -/
def device (env : Env) (d : Option Sync) (m : Msg) (rnd : Rand) : Option Sync × Resp :=
  match m with
  | .init num hash subs =>
    match init env num hash subs rnd with
    | some (s, r) => (some s, r)
    | none => (none, .failure)
  | .step tds =>
    match d.bind fun s => sync env s tds rnd with
    | some (s, r) => (some s, r)
    | none => (none, .failure)
  | .final =>
    match d.bind fun s => final env s with
    | some r => (none, r)
    | none => (none, .failure)
  | .other => (none, .failure)

/-- `generate_commitment`, key_image.py:65-95. -/
def commitment (env : Env) (tds : List Td) : Nat × Bytes :=
  (tds.length, env.keccak ((tds.map (computeHash env)).flatten))

/-- Steps of `import_outputs`, agent_lite.py:795-803; `handle_error` raises on a failure answer. -/
def importSteps (env : Env) (rnd : Nat → Rand) : List (List Td) → Nat → Option Sync → List Eki →
    Option (Option Sync × List Eki)
  | [], _, d, acc => some (d, acc)
  | c :: cs, n, d, acc =>
    match device env d (.step c) (rnd n) with
    | (d, .stepAck kis) => importSteps env rnd cs (n + 1) d (acc ++ kis)
    | _ => none

/-- `import_outputs`, agent_lite.py:777-820, against a device; `tds` is the result of `yield_key_image_data`,
`chunks` that of `common.chunk(iter, 10)`. Result: decrypted key image and signature per output. -/
def importOutputs (env : Env) (tds : List Td) (chunks : List (List Td)) (subs : List (Nat × List Nat))
    (rnd : Nat → Rand) (d : Option Sync) : Option (List Bytes) :=
  let c := commitment env tds
  match device env d (.init c.1 c.2 subs) (rnd 0) with
  | (d, .initAck) =>
    match importSteps env rnd chunks 1 d [] with
    | none => none
    | some (d, kis) =>
      match device env d .final (rnd 0) with
      | (_, .finalAck key) => kis.mapM fun e => env.decrypt key e.iv e.blob
      | _ => none
  | _ => none

end Verif.KiSync
