import Verif.Model.Agent
import Verif.Model.Sig

/-!
Transaction keys after signing (hwtoken/misc.py 61-75, agent/agent_lite.py 822-882) and key images during a live refresh (agent_lite.py 884-926).
The answers of the device are arguments: the repository has no device for these requests (trezor/manager.py 118-126 forwards them to a Trezor).
Exceptions are `none`. `handle_error` (the device answers with a failure) is not modelled: then there is no answer.
-/

namespace Verif.TxKeys
open Verif Verif.Signer

variable {S P : Type} [CommRing S] [AddCommGroup P] [Module S P]

/-- hwtoken/misc.py 61-75 `compute_tx_key`: the key, salt and multiplier. An empty salt or multiplier counts as missing; `draws` are the random ones. -/
def computeTxKey (env : Env S P) (spend : S) (ph : Bytes) (salt mult : Bytes) (draws : Bytes × S) : Bytes × Bytes × Bytes :=
  let salt' := if salt = [] then draws.1 else salt                                               -- 62-63
  let num := if mult = [] then draws.2 else env.scDec mult                                       -- 65-69
  let mult' := if mult = [] then env.scEnc draws.2 else mult
  (env.mac salt' (env.keccak2 (env.scEnc (spend + num) ++ ph)), salt', mult')                    -- 71-75

/-- agent_lite.py 876-882 `_compute_tx_key_host`. -/
def hostKey (env : Env S P) (view : S) (ph salt : Bytes) : Bytes := env.mac salt (env.keccak2 (env.scEnc view ++ ph))

/-- `MoneroGetTxKeyAck`: the fields the host reads. -/
structure Ack where
  salt : Bytes
  txKeys : Bytes
  derivations : Bytes

/-- agent_lite.py 844-850, the end of `_get_tx_key_intern`. -/
def getIntern (env : Env S P) (view : S) (ph : Bytes) (reason : Nat) (ack : Ack) : Option Bytes :=
  match env.decPack (hostKey env view ph ack.salt) (if reason = 0 then ack.txKeys else ack.derivations) with
  | none => none
  | some plain => if plain.length % 32 ≠ 0 then none else some plain

/-- agent_lite.py 858-861 and 870-873: the pieces of 32 bytes. -/
def pieces (b : Bytes) : List Bytes := (List.range (b.length / 32)).map fun i => (b.drop (i * 32)).take 32

/-- agent_lite.py 852-862 `get_tx_key`. -/
def getTxKey (env : Env S P) (view : S) (ph : Bytes) (ack : Ack) : Option (List S) :=
  (getIntern env view ph 0 ack).map fun b => (pieces b).map env.scDec

/-- agent_lite.py 864-874 `get_tx_deriv`. -/
def getTxDeriv (env : Env S P) (view : S) (ph : Bytes) (ack : Ack) : Option (List P) :=
  (getIntern env view ph 1 ack).bind fun b => (pieces b).mapM env.ptDec

end Verif.TxKeys

namespace Verif.LiveRefresh
open Verif Ed Key Sig

/-- agent_lite.py 922-926 `_compute_ki_enc_key_host`. -/
def encKey (keccak2 : Bytes → Bytes) (mac : Bytes → Bytes → Bytes) (view : Int) (pre salt : Bytes) : Bytes :=
  mac salt (keccak2 (encodeInt view ++ pre))

/-- agent_lite.py 895-920 `live_refresh` after the answer `(salt, blob)` of the device; `H` is Keccak-256. -/
def liveRefresh (H keccak2 : Bytes → Bytes) (mac : Bytes → Bytes → Bytes) (decPack : Bytes → Bytes → Option Bytes) (view : Int) (outKey : Bytes)
    (salt blob : Bytes) : Option Ext :=
  match decPack (encKey keccak2 mac view outKey salt) blob with
  | none => none
  | some plain =>
    let kiBin := plain.take 32
    match decodePoint kiBin, decodeScalar ((plain.drop 32).take 32), decodeScalar (plain.drop 64), decodePoint outKey with
    | some ki, some c, some r, some pub =>
      match checkRing H kiBin ki [pub] [(c, r)] with
      | some true => some ki
      | _ => none
    | _, _, _, _ => none

end Verif.LiveRefresh
