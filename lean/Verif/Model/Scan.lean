import Verif.Model.Key

/-! Looking for own outputs in a transaction: monero_glue/xmr/monero.py 232-327 (`check_acc_out_precomp`, `scan_output`, `ecdh_decode_rv`,
`ecdh_decode_simple`), called as in monero_glue_test/base_agent_test.py 353-376. The functions they call: `Model/Key.lean`.

Simplifications: an exception is `none`; the multisig branch (270-272) is left out. -/

namespace Verif.Scan
open Verif Verif.Ed Verif.Key

/-- `TxOut`: the amount in the clear, and the key if the target is a `TxoutToKey`. -/
structure Out where
  amount : Nat
  key : Option Bytes

/-- `RctType` -/
inductive RctType
  | null | full | simple | bulletproof | bulletproof2
deriving DecidableEq

/-- `RctSig`, the parts read. -/
structure Rct where
  type : RctType
  ecdhInfo : List (Bytes × Bytes)
  outPk : List Bytes

structure Tx where
  vout : List Out
  rct : Rct

/-- `creds.view_key_private`, `creds.spend_key_private` -/
structure Creds where
  view : Int
  spend : Int

/-- `TxScanInfo` after 232-262. An output with another target has `error` set and no attribute `received`. -/
structure Info where
  received : Option ((Nat × Nat) × Ext)
  money : Int
  error : Bool

/-- monero.py 232-262 `check_acc_out_precomp`. -/
def checkAccOut (H : Bytes → Bytes) (o : Out) (t : Table) (deriv : Ext) (adds : List Ext) (i : Nat) : Option Info :=
  match o.key with
  | none => some ⟨none, 0, true⟩
  | some k =>
    match decodePoint k with
    | none => none
    | some P =>
      match isOutToAcc H t P deriv adds i with
      | none => none
      | some none => some ⟨none, 0, false⟩
      | some (some r) => some ⟨some r, o.amount, false⟩

/-- monero.py 309-327 `ecdh_decode_simple`. -/
def ecdhAt (H : Bytes → Bytes) (rv : Rct) (sk : Int) (i : Nat) (v2 : Bool) : Option (Int × Int) :=
  if i ≥ rv.ecdhInfo.length then none
  else if rv.outPk.length ≠ rv.ecdhInfo.length then none
  else match rv.ecdhInfo[i]?, rv.outPk[i]? with
    | some e, some c => ecdhDecodeSimple H e c sk v2
    | _, _ => none

/-- monero.py 294-306 `ecdh_decode_rv`. -/
def ecdhDecodeRv (H : Bytes → Bytes) (rv : Rct) (deriv : Ext) (i : Nat) : Option (Int × Int) :=
  match derivationToScalar H deriv i with
  | none => none
  | some scalar =>
    if rv.type = .full ∨ rv.type = .simple ∨ rv.type = .bulletproof then ecdhAt H rv scalar i false
    else if rv.type = .bulletproof2 then ecdhAt H rv scalar i true
    else none

/-- What `scan_output` returns for output `index` received at `idx`; the mask is not set for an amount in the clear. -/
structure Got where
  index : Nat
  idx : Nat × Nat
  x : Int
  ki : Ext
  mask : Option Int
  amount : Int

/-- `tx_money_got_in_outs` (a `defaultdict`), `outs`, and what the caller got. -/
structure Wallet where
  money : Nat × Nat → Int
  outs : List Nat
  got : List Got

/-- monero.py 265-291 `scan_output`, not multisig. -/
def scanOutput (H : Bytes → Bytes) (c : Creds) (tx : Tx) (i : Nat) (info : Info) (w : Wallet) : Option Wallet :=
  match (tx.vout[i]?).bind (·.key), info.received with
  | some k, some (idx, deriv) =>
    match decodePoint k with
    | none => none
    | some P =>
      match kiHelperPrecomp H c.view c.spend P deriv i idx with
      | none => none
      | some (x, ki) =>
        let done (amount : Int) (mask : Option Int) : Wallet :=
          ⟨fun j => if j = idx then w.money j + amount else w.money j, w.outs ++ [i], w.got ++ [⟨i, idx, x, ki, mask, amount⟩]⟩
        if info.money = 0 then
          match ecdhDecodeRv H tx.rct deriv i with
          | none => none
          | some (amount, mask) => some (done amount (some mask))
        else some (done info.money none)
  | _, _ => none

/-- base_agent_test.py 366-376, the body of the loop. -/
def receive (H : Bytes → Bytes) (c : Creds) (t : Table) (tx : Tx) (deriv : Ext) (adds : List Ext) (o : Out) (i : Nat) (w : Wallet) : Option Wallet :=
  match checkAccOut H o t deriv adds i with
  | none => none
  | some info =>
    if info.error then none
    else match info.received with
      | none => some w
      | some _ => scanOutput H c tx i info w

/-- base_agent_test.py 365-376. -/
def scanLoop (H : Bytes → Bytes) (c : Creds) (t : Table) (tx : Tx) (deriv : Ext) (adds : List Ext) : List Out → Nat → Wallet → Option Wallet
  | [], _, w => some w
  | o :: os, i, w =>
    match receive H c t tx deriv adds o i w with
    | none => none
    | some w => scanLoop H c t tx deriv adds os (i + 1) w

/-- base_agent_test.py 353-376, for one account; `txPub` and `adds` the keys in the extra field, decoded. -/
def scanTx (H : Bytes → Bytes) (c : Creds) (t : Table) (tx : Tx) (txPub : Ext) (adds : List Ext) (w : Wallet) : Option Wallet :=
  match keyDerivation txPub c.view, derivations c.view adds with
  | some d, some ds => scanLoop H c t tx d ds tx.vout 0 w
  | _, _ => none

end Verif.Scan
