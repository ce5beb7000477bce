import Verif.Model.Agent
import Verif.Model.Key

/-!
The builder of unsigned transactions: xmr/transaction_builder.py. Random numbers are parameters.

Not modelled: `set_payment_id` and the extra fields (written by the serialization library), `describe`, and the parts of the transfers that signing
does not read (`m_tx`, heights, multisignature fields).
-/

namespace Verif.Builder
open Verif Ed Key Agent
open Verif.Signer (Src)

/-- Private keys of an account (`AccountCreds`); the public spend key is `spend·G`. -/
structure Creds where
  view : Int
  spend : Int

/-- transaction_builder.py 128-130 `random_scalar`, `x` the 512 random bits: the 32 bytes, most significant first, are read as a scalar, least
significant first. -/
def randomScalar (x : Nat) : Int := (decodeScalar (encodeInt ((x : Int) % l)).reverse).getD 0

/-- What `gen_input` draws: scalars for the transaction, the mask, the other ring members (destination and commitment) and the additional keys of the other
outputs; the position of the output in its transaction, the place in the ring and the global indices of the ring. -/
structure Draws where
  r : Int
  oidx : Nat
  mask : Int
  others : List (Int × Int)
  index : Nat
  adds : List Int
  idxs : List Nat

/-- `if not …: raise`. -/
def guard (b : Bool) : Option Unit := if b then some () else none

/-- transaction_builder.py 531-545 `check_input`. -/
def checkInput (H : Bytes → Bytes) (c : Creds) (t : Table) (src : Src) : Option (Int × Ext × Ext) :=
  src.outputs[src.realOutput]?.bind fun real => (decodePoint src.txKey).bind fun R => (src.addKeys.mapM decodePoint).bind fun adds =>
    (decodePoint real.dest).bind fun out => kiHelper H c.view c.spend t out R adds src.inTxIndex

/-- transaction_builder.py 175-292 `gen_input`: the new source. -/
def genInput (H : Bytes → Bytes) (c : Creds) (w : Draws) (value major minor : Nat) (additionals : Bool) : Option Src :=
  let isSub := !decide (major = 0 ∧ minor = 0)
  (subSecret H c.view major minor).bind fun kssec =>
    let kssub := if isSub then scAdd kssec c.spend else c.spend
    (subAddressKeys H c.view (scalarmultB c.spend) major minor).bind fun K =>
      (pointEq K.1 (scalarmultB kssub)).bind fun e1 => (guard e1).bind fun _ =>
        (keyDerivation K.2 w.r).bind fun deriv => (deriveSecretKey H deriv w.oidx kssub).bind fun kout =>
          (derivePublicKey H deriv w.oidx K.1).bind fun KOUT =>
            (pointEq KOUT (scalarmultB kout)).bind fun e2 => (guard e2).bind fun _ =>
              let A := if isSub then smul K.1 w.r else scalarmultB w.r
              let R := if isSub && !additionals then smul K.1 w.r else scalarmultB w.r
              (guard (decide (value < 2 ^ 64))).bind fun _ =>
                let C := addKeys2 w.mask value hPt
                let ring := (w.others.map fun p => (encodePoint (scalarmultB p.1), encodePoint (scalarmultB p.2))).insertIdx w.index
                  (encodePoint KOUT, encodePoint C)
                let adds := if additionals then (w.adds.map scalarmultB).set w.oidx A else []
                let src : Src :=
                  { outputs := List.zipWith (fun i p => ⟨i, p.1, p.2⟩) w.idxs ring
                    realOutput := w.index
                    txKey := encodePoint R
                    addKeys := adds.map encodePoint
                    inTxIndex := w.oidx
                    amount := value
                    rct := true
                    mask := encodeInt w.mask
                    subaddrMinor := none }
                (computeSubaddresses H c.view (scalarmultB c.spend) major [minor] []).bind fun t =>
                  (checkInput H c t src).bind fun r => (guard (decide (r.1 = kout))).bind fun _ =>
                    (src.outputs[src.realOutput]?.bind fun real => decodePoint real.dest).bind fun P =>
                      (pointEq P (scalarmultB kout)).bind fun e3 => (guard e3).bind fun _ => some src

/-- transaction_builder.py 294-322 `gen_output`: the new destination (`original`, the text of the address, is not modelled). -/
def genOutput (H : Bytes → Bytes) (dest : Creds) (value major minor : Nat) (paymentId : Bool) : Option Signer.Dst :=
  let isSub := !decide (major = 0 ∧ minor = 0)
  (guard !(isSub && paymentId)).bind fun _ =>
    (subAddressKeys H dest.view (scalarmultB dest.spend) major minor).map fun K => ⟨value, ⟨encodePoint K.1, encodePoint K.2⟩, isSub⟩

/-- The builder: `account_idx`, `fee`, `sources`, the indices in `transfers`, `outputs`, `change_idx`. -/
structure State where
  account : Nat
  fee : Nat
  sources : List Src := []
  indices : List (Nat × Nat) := []
  outputs : List Signer.Dst := []
  changeIdx : Option Nat := none

/-- transaction_builder.py 282-285: the lists that grow. `major` is `account_idx` unless given. -/
def State.addInput (H : Bytes → Bytes) (c : Creds) (s : State) (w : Draws) (value : Nat) (major : Option Nat) (minor : Nat) (additionals : Bool) :
    Option State :=
  let major := major.getD s.account
  (genInput H c w value major minor additionals).map fun src =>
    { s with sources := s.sources ++ [src], indices := s.indices ++ [(major, minor)] }

/-- transaction_builder.py 294-322. -/
def State.addOutput (H : Bytes → Bytes) (s : State) (dest : Creds) (value major minor : Nat) (paymentId : Bool) : Option State :=
  (genOutput H dest value major minor paymentId).map fun d => { s with outputs := s.outputs ++ [d] }

/-- transaction_builder.py 324-333 `gen_change`. -/
def State.addChange (H : Bytes → Bytes) (c : Creds) (s : State) (value : Option Nat) : Option State :=
  let toChange : Int := match value with
    | some v => v
    | none => (s.sources.map (·.amount)).sum - (s.outputs.map (·.amount)).sum - s.fee
  if toChange < 0 then none
  else (s.addOutput H c toChange.toNat s.account 0 false).map fun s => { s with changeIdx := some (s.outputs.length - 1) }

/-- transaction_builder.py 382-406 `build`: the data to sign. `list(set(…))` of the first indices (the order of a set is not modelled). Without change
the host cannot translate `change_dts` (hwtoken/misc.py 77-86). -/
def State.build (s : State) : Option TxData :=
  s.changeIdx.bind fun i => s.outputs[i]?.map fun change =>
    { sources := s.sources, dsts := s.outputs, change := change, paymentId := [], unlockTime := 0, account := s.account
      indices := (s.indices.map (·.1)).eraseDups, useBp := true }

end Verif.Builder
