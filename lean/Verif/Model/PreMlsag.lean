import Verif.Model.Basic
import Verif.Model.Varint

/-!
Model of `monero_glue/xmr/sub/mlsag_hasher.py` (streaming and one-shot computation of the message
that the ring signatures sign).

A Keccak context is modelled by the byte string fed to it so far (`xmr/sub/keccak_hasher.py:88-98`:
`HashWrapper.update` skips empty buffers, which is the same as appending them); `digest` applies the
abstract hash `H`. `monero_serialize` (external, not in the repo) is modelled for the few types used:
`UInt8` = one byte, `UVarint` = varint, `ECKey` = the 32 raw bytes, `EcdhInfo` = the raw bytes passed in.
-/

namespace Verif
open Verif

/-- The fields of a bulletproof that are hashed / serialised (`monero_serialize.xmrtypes.Bulletproof`);
`V` is neither serialised nor hashed. -/
structure Bp where
  A : Bytes
  S : Bytes
  T1 : Bytes
  T2 : Bytes
  taux : Bytes
  mu : Bytes
  L : List Bytes
  R : List Bytes
  a : Bytes
  b : Bytes
  t : Bytes
deriving DecidableEq

/-- `rsig_val(p, bulletproof=True, raw=False)`, mlsag_hasher.py:118-131: bytes fed to the hasher. -/
def Bp.hashed (p : Bp) : Bytes :=
  p.A ++ p.S ++ p.T1 ++ p.T2 ++ p.taux ++ p.mu ++ p.L.flatten ++ p.R.flatten ++ p.a ++ p.b ++ p.t

/-- `PreMlsagHasher` attributes, mlsag_hasher.py:11-22. -/
structure PreMlsag where
  isSimple : Option Bool := none
  state : Nat := 0
  master : Bytes := []
  rsig : Option Bytes := some []
  rct : Option Bytes := some []
deriving DecidableEq

namespace PreMlsag

/-- mlsag_hasher.py:45-50 -/
def init (h : PreMlsag) (isSimple : Bool) : Option PreMlsag :=
  if h.state ≠ 0 then none else some { h with state := 1, isSimple := some isSimple }

/-- mlsag_hasher.py:52-53 (no state check in the code) -/
def setMessage (h : PreMlsag) (m : Bytes) : Option PreMlsag :=
  some { h with master := h.master ++ m }

/-- Feed bytes to `rtcsig_hasher`; `None` receiver raises. -/
def feedRct (h : PreMlsag) (bs : Bytes) : Option PreMlsag :=
  h.rct.map fun x => { h with rct := some (x ++ bs) }

/-- mlsag_hasher.py:55-64; `type` is serialised as `UInt8`, `txnFee` as varint. -/
def setTypeFee (h : PreMlsag) (rvType : UInt8) (fee : Nat) : Option PreMlsag :=
  if h.state ≠ 1 then none
  else feedRct { h with state := 2 } ([rvType] ++ Varint.dumpNat fee)

/-- mlsag_hasher.py:66-73 -/
def setPseudoOut (h : PreMlsag) (o : Bytes) : Option PreMlsag :=
  if h.state ≠ 2 ∧ h.state ≠ 3 then none
  else feedRct { h with state := 3 } o

/-- mlsag_hasher.py:75-86 (raw) -/
def setEcdh (h : PreMlsag) (e : Bytes) : Option PreMlsag :=
  if h.state ≠ 2 ∧ h.state ≠ 3 ∧ h.state ≠ 4 then none
  else feedRct { h with state := 4 } e

/-- mlsag_hasher.py:88-95 -/
def setOutPk (h : PreMlsag) (pk : Bytes) : Option PreMlsag :=
  if h.state ≠ 4 ∧ h.state ≠ 5 then none
  else feedRct { h with state := 5 } pk

/-- mlsag_hasher.py:97-104 -/
def rctsigBaseDone (H : Bytes → Bytes) (h : PreMlsag) : Option PreMlsag :=
  if h.state ≠ 5 then none
  else match h.rct with
    | none => none
    | some x => some { h with state := 6, master := h.master ++ H x, rct := none }

/-- mlsag_hasher.py:106-131 (bulletproof) -/
def rsigVal (h : PreMlsag) (p : Bp) : Option PreMlsag :=
  if h.state = 8 then none
  else match h.rsig with
    | none => none
    | some x => some { h with rsig := some (x ++ p.hashed) }

/-- mlsag_hasher.py:142-151 -/
def getDigest (H : Bytes → Bytes) (h : PreMlsag) : Option (PreMlsag × Bytes) :=
  if h.state ≠ 6 then none
  else match h.rsig with
    | none => none
    | some x =>
      let h' := { h with state := 8, rsig := none, master := h.master ++ H x }
      some (h', H h'.master)

/-- `state_save`, mlsag_hasher.py:24-31 -/
def save (h : PreMlsag) : Option Bool × Nat × Bytes × Option Bytes × Option Bytes :=
  (h.isSimple, h.state, h.master, h.rsig, h.rct)

/-- `PreMlsagHasher(state=x)`, mlsag_hasher.py:11-22. -/
def ofState (x : Option Bool × Nat × Bytes × Option Bytes × Option Bytes) : PreMlsag :=
  { isSimple := x.1, state := x.2.1, master := x.2.2.1, rsig := x.2.2.2.1, rct := x.2.2.2.2 }

end PreMlsag

/-- The parts of `RctSig` read by `get_pre_mlsag_hash` for the bulletproof types
(the types the device supports, tsx_sign_builder.py:239-251). -/
structure RctSig where
  message : Bytes
  type : UInt8
  txnFee : Nat
  ecdhInfo : List Bytes
  outPk : List Bytes
  bulletproofs : List Bp

/-- `rv.serialize_rctsig_base` of `monero_serialize` (external) for bulletproof types:
type, fee, ECDH infos, output commitments. -/
def RctSig.base (rv : RctSig) : Bytes :=
  [rv.type] ++ Varint.dumpNat rv.txnFee ++ rv.ecdhInfo.flatten ++ rv.outPk.flatten

/-- `get_pre_mlsag_hash`, mlsag_hasher.py:154-211, bulletproof branch. -/
def getPreMlsagHash (H : Bytes → Bytes) (rv : RctSig) : Bytes :=
  H (rv.message ++ H rv.base ++ H ((rv.bulletproofs.map Bp.hashed).flatten))

end Verif
