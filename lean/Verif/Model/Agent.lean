import Verif.Model.Batches
import Verif.Model.Common
import Verif.Spec.TxPrefix

/-!
Model of the host side of signing, `monero_glue/agent/agent_lite.py:319-738` (`Agent.sign_transaction_data`), talking to the modelled device.

Conventions and simplifications
* Any exception on the host, and a failure answered by the device (`handle_error`, 193-201), is `none`.
* The construction data are given with the fields of the messages (`translate_monero_dest_entry_pb`, `translate_monero_src_entry_pb`,
  hwtoken/misc.py:78-108, copy field by field), and with the payment id that lines 340-348 read from its extra field.
* `monero_serialize` is external. `Codec` holds the two parsers with variable-length fields; the fixed layouts (`CtKey`, `EcdhTuple`) are written out.
* `integrated_indices` and the logging are left out. The check of a received range proof (`_out_proc_range_proof`, 710-721) only logs, it is left
  out; the decoding of the commitments before it may raise and is kept.
-/

namespace Verif.Agent
open Verif Verif.Signer Verif.Batches

/-- `Agent.hf`, `Agent.client_version`, agent_lite.py:161-162. -/
structure Config where
  hf : Nat := 10
  clientVersion : Nat := 1

/-- `TxConstructionData` as far as it is read. -/
structure TxData where
  sources : List Src
  dsts : List Dst
  change : Dst
  paymentId : Bytes
  unlockTime : Nat
  account : Nat
  indices : List Nat
  useBp : Bool

/-- `TxinToKey`. -/
structure Vin where
  amount : Nat
  ki : Bytes
  offsets : List Int
deriving DecidableEq

/-- `TxOut` with a `TxoutToKey` target. -/
structure Vout where
  amount : Nat
  key : Bytes
deriving DecidableEq

/-- `EcdhTuple`. -/
structure Ecdh where
  mask : Bytes
  amount : Bytes
deriving DecidableEq

/-- Parsers of `monero_serialize`. -/
structure Codec where
  parseVin : Bytes → Option Vin
  parseVout : Bytes → Option Vout

/-- What the host keeps of an input: `tx.sources[i]`, `tx.vin[i]`, `tx_in_hmacs[i]`, `pseudo_outs[i]`, `alphas[i]`, `spend_encs[i]`. The lists
are only filled and permuted together (411-415, 423-438). -/
structure InRec where
  src : Src
  vin : Vin
  hmac : Bytes
  pseudoOut : Bytes
  pseudoOutHmac : Bytes
  alphaEnc : Bytes
  spendEnc : Bytes

/-- Per-output lists and batch counters of `TData`, agent_lite.py:107-134. -/
structure OutSt where
  vout : List Vout := []
  outPk : List (Bytes × Bytes) := []
  ecdh : List Ecdh := []
  gamma : List Bytes := []
  rsigs : List Bp := []
  batch : Nat := 0
  inBatch : Nat := 0

/-- The signed transaction: prefix, `rct_signatures` with the parts that are hashed in `rv`. -/
structure Tx where
  unlockTime : Nat
  vin : List Vin
  vout : List Vout
  extra : Bytes
  rv : RctSig
  pseudoOuts : List Bytes
  mgs : List Bytes

/-- The device at the other end, and the number of messages it got. -/
structure Conn (S P : Type) where
  dev : Device S P
  n : Nat

variable {S P : Type} [CommRing S] [AddCommGroup P] [Module S P] [DecidableEq S] [DecidableEq P]

/-- `self.trezor.tsx_sign(msg)` and `handle_error`; `rnd i` is what the device draws, and what the user decides, in step `i`. -/
def call (env : Env S P) (rnd : Nat → Rand S) (c : Conn S P) (m : Msg) : Option (Resp × Conn S P) :=
  let r := tsxSign env c.dev m (rnd c.n)
  match r.2 with
  | .failure _ => none
  | x => some (x, ⟨r.1, c.n + 1⟩)

/-- `dump_msg(vin, prefix=b"\x02")`, 451, 526. -/
def dumpVin (env : Env S P) (v : Vin) : Bytes := [2] ++ env.serTxin v.amount v.ki v.offsets

/-- A `TxOut` in the transaction prefix. -/
def dumpVout (v : Vout) : Bytes := Varint.dumpNat v.amount ++ [2] ++ v.key

/-- `parse_msg(out_pk, CtKey())`, 646: destination and mask. -/
def parseCtKey (b : Bytes) : Option (Bytes × Bytes) := if 64 ≤ b.length then some (b.take 32, (b.drop 32).take 32) else none

/-- The ECDH data of an output, 648-659. -/
def hostEcdh (cfg : Config) (b : Bytes) : Option Ecdh :=
  if cfg.hf = 9 then (if 64 ≤ b.length then some ⟨b.take 32, (b.drop 32).take 32⟩ else none)
  else some ⟨nullKey, b ++ nullKey.drop 8⟩

/-- `EcdhTuple` inside `serialize_rctsig_base` (external): for `Bulletproof2` the first eight bytes of the amount. -/
def serEcdh (ty : UInt8) (e : Ecdh) : Bytes := if ty = 4 then e.amount.take 8 else e.mask ++ e.amount

/-- The init data, 350-391; `none`: `tx.sources[0]` or the batch sizes raise. A negative fee does not fit the message. -/
def tsxData (cfg : Config) (d : TxData) : Option TsxData :=
  (d.sources[0]?).bind fun s0 =>
    let ty := rsigType d.useBp d.dsts.length
    (batchSizes ty d.dsts.length).bind fun batches =>
      if (d.dsts.map (·.amount)).sum ≤ (d.sources.map (·.amount)).sum then
        some { numInputs := d.sources.length, outputs := d.dsts, change := some d.change, mixin := s0.outputs.length,
               fee := (d.sources.map (·.amount)).sum - (d.dsts.map (·.amount)).sum, clientVersion := cfg.clientVersion,
               account := d.account, minorIndices := d.indices, rsigType := ty, grouping := batches,
               bpVersion := if 10 ≤ cfg.hf then 2 else 0, unlockTime := d.unlockTime, paymentId := d.paymentId }
      else none

/-- 393-397: HMACs of the outputs and whether range proofs are offloaded. -/
def initStep (env : Env S P) (rnd : Nat → Rand S) (tsx : TsxData) (c : Conn S P) : Option ((List Bytes × Bool) × Conn S P) :=
  (call env rnd c (.init tsx)).bind fun r =>
    match r.1 with
    | .initAck hmacs offload => some ((hmacs, offload), r.2)
    | _ => none

/-- One round of the loop 400-415. -/
def inputStep (env : Env S P) (cdc : Codec) (rnd : Nat → Rand S) (src : Src) (c : Conn S P) : Option (InRec × Conn S P) :=
  (call env rnd c (.setInput src)).bind fun r =>
    match r.1 with
    | .inputAck vini hmac po poH a s => (cdc.parseVin vini).map fun v => (⟨src, v, hmac, po, poH, a, s⟩, r.2)
    | _ => none

/-- The loop 400-415. -/
def inputLoop (env : Env S P) (cdc : Codec) (rnd : Nat → Rand S) : List Src → Conn S P → Option (List InRec × Conn S P)
  | [], c => some ([], c)
  | src :: srcs, c => (inputStep env cdc rnd src c).bind fun r => (inputLoop env cdc rnd srcs r.2).map fun q => (r.1 :: q.1, q.2)

/-- Permutation of the inputs, 417-444. -/
def permStep (env : Env S P) (rnd : Nat → Rand S) (ins : List InRec) (c : Conn S P) : Option (List InRec × Conn S P) :=
  let p := Common.sortPermutation (ins.map (·.vin.ki))
  (Common.applyPermutation (p.length + 1) p).bind fun swaps =>
    (call env rnd c (.permutation p)).map fun r => (Common.doSwaps swaps ins, r.2)

/-- The loop 446-456. -/
def viniLoop (env : Env S P) (rnd : Nat → Rand S) : List InRec → Conn S P → Option (Conn S P)
  | [], c => some c
  | i :: is, c => (call env rnd c (.inputVini i.src (dumpVin env i.vin) i.hmac)).bind fun r => viniLoop env rnd is r.2

/-- 582-583 -/
def splitMasks (b : Bytes) : List Bytes := (List.range (b.length / 32)).map fun i => (b.drop (i * 32)).take 32

/-- 458-463 with `_on_all_input_set`, 567-583: the masks received. -/
def allInStep (env : Env S P) (cfg : Config) (rnd : Nat → Rand S) (offload : Bool) (m : Nat) (c : Conn S P) :
    Option (List Bytes × Conn S P) :=
  (call env rnd c .allInputsSet).bind fun r =>
    match r.1 with
    | .allInputsAck masks =>
      if !offload || decide (cfg.clientVersion > 0) then some ([], r.2)
      else if masks.length = m * 32 then some (splitMasks masks, r.2) else none
    | _ => none

/-- `_rct_offload`, 607-641: `some none` = nothing to prove yet; otherwise the proof sent and the new state. Only bulletproofs: for other range
proofs the coroutine object stored in line 623 cannot be sent. `rnd` is the randomness of the host's prover. -/
def rctOffload (env : Env S P) (d : TxData) (batches : List Nat) (rnd : Bytes) (idx : Nat) (st : OutSt) :
    Option (Option (Bytes × OutSt)) :=
  (batches[st.batch]?).bind fun size =>
    if size > st.inBatch then some none
    else if rsigType d.useBp d.dsts.length = 0 then none
    else
      let amounts := ((d.dsts.drop (idx + 1 - size)).take size).map (·.amount)
      let masks := ((st.gamma.drop (idx + 1 - size)).take size).map env.scDec
      if amounts.length = size ∧ masks.length = size then
        (env.bpProve amounts masks rnd).bind fun bp =>
          (env.bpDump bp).map fun bin => some (bin, { st with rsigs := st.rsigs ++ [bp] })
      else none

/-- 644-659, 670-672: the fields of the answer to an output. -/
def recordAck (cfg : Config) (cdc : Codec) (st : OutSt) (ack : OutAck) : Option OutSt :=
  (cdc.parseVout ack.txOut).bind fun vout =>
    (parseCtKey ack.outPk).bind fun pk =>
      (hostEcdh cfg ack.ecdh).map fun e =>
        { st with
          vout := st.vout ++ [vout], outPk := st.outPk ++ [pk], ecdh := st.ecdh ++ [e],
          gamma := match ack.mask with
            | some m => if cfg.clientVersion ≥ 1 ∧ m ≠ [] then st.gamma ++ [m] else st.gamma
            | none => st.gamma }

/-- 691-693 -/
def advance (st : OutSt) : OutSt := { st with batch := st.batch + 1, inBatch := 0 }

/-- A range proof made by the device, 680-689 with 695-708. -/
def recordProof (env : Env S P) (batches : List Nat) (idx : Nat) (st : OutSt) (rsig : Option Bytes) : Option OutSt :=
  match rsig with
  | none => some st
  | some b =>
    if b = [] then some st
    else (env.bpParse b).bind fun bp => (batches[st.batch]?).bind fun size =>
      (((st.outPk.drop (idx + 1 - size)).take size).mapM fun pk => env.ptDec pk.2).map fun _ =>
        advance { st with rsigs := st.rsigs ++ [bp] }

/-- A `setOutput` message without destination, 732-734. -/
def noDst : Dst := ⟨0, ⟨[], []⟩, false⟩

/-- `_v1_offloading`, 723-738, with its use in 674-678 and 691-693. -/
def upload (env : Env S P) (d : TxData) (rnd : Nat → Rand S) (hrnd : Nat → Bytes) (batches : List Nat) (idx : Nat) (st : OutSt)
    (c : Conn S P) : Option (OutSt × Conn S P) :=
  (rctOffload env d batches (hrnd idx) idx st).bind fun o =>
    match o with
    | none => some (st, c)
    | some (bin, st) => (call env rnd c (.setOutput noDst [] bin true)).map fun r => (advance st, r.2)

/-- The range proof attached by client version 0, 594-605. -/
def attached (env : Env S P) (cfg : Config) (d : TxData) (hrnd : Nat → Bytes) (batches : List Nat) (offload : Bool) (idx : Nat)
    (st : OutSt) : Option (Bytes × OutSt) :=
  if cfg.clientVersion = 0 ∧ offload = true then
    (rctOffload env d batches (hrnd idx) idx st).map fun o =>
      match o with
      | none => ([], st)
      | some (bin, st) => (bin, st)
  else some ([], st)

/-- One round of the loop 466-474, with `_step_set_outputs` 585-598 and `_on_set_outputs_ack` 643-693. -/
def outputStep (env : Env S P) (cfg : Config) (cdc : Codec) (d : TxData) (rnd : Nat → Rand S) (hrnd : Nat → Bytes) (batches : List Nat)
    (offload : Bool) (idx : Nat) (dst : Dst) (hmac : Bytes) (st : OutSt) (c : Conn S P) : Option (OutSt × Conn S P) :=
  (attached env cfg d hrnd batches offload idx { st with inBatch := st.inBatch + 1 }).bind fun a =>
    (call env rnd c (.setOutput dst hmac a.1 false)).bind fun r =>
      match r.1 with
      | .outputAck (some ack) =>
        (recordAck cfg cdc a.2 ack).bind fun st =>
          if cfg.clientVersion ≥ 1 ∧ offload = true then upload env d rnd hrnd batches idx st r.2
          else (recordProof env batches idx st ack.rsig).map fun st => (st, r.2)
      | _ => none

/-- The loop 466-474; `tx_out_entr_hmacs[idx]` may raise. -/
def outputLoop (env : Env S P) (cfg : Config) (cdc : Codec) (d : TxData) (rnd : Nat → Rand S) (hrnd : Nat → Bytes) (batches : List Nat)
    (offload : Bool) (hmacs : List Bytes) : Nat → List Dst → OutSt → Conn S P → Option (OutSt × Conn S P)
  | _, [], st, c => some (st, c)
  | idx, dst :: dsts, st, c =>
    (hmacs[idx]?).bind fun h => (outputStep env cfg cdc d rnd hrnd batches offload idx dst h st c).bind fun r =>
      outputLoop env cfg cdc d rnd hrnd batches offload hmacs (idx + 1) dsts r.1 r.2

/-- `get_transaction_prefix_hash(self.ct.tx)`, 489; the transaction has version 2 (117). -/
def prefixHash (env : Env S P) (unlockTime : Nat) (vin : List Vin) (vout : List Vout) (extra : Bytes) : Bytes :=
  env.keccak (TxPrefix.bytes ⟨2, unlockTime, vin.map (dumpVin env), vout.map dumpVout, extra⟩)

/-- 476-518: closing the outputs, with both checks of the host; the transaction without signatures and the connection. -/
def allOutStep (env : Env S P) (d : TxData) (rnd : Nat → Rand S) (ins : List InRec) (st : OutSt) (c : Conn S P) :
    Option (Tx × Conn S P) :=
  (call env rnd c .allOutSet).bind fun r =>
    match r.1 with
    | .allOutAck extra ph fee ty full =>
      let vin := ins.map (·.vin)
      let rv : RctSig := ⟨ph, ty, fee, st.ecdh.map (serEcdh ty), st.outPk.map (·.2), st.rsigs⟩
      if prefixHash env d.unlockTime vin st.vout extra = ph then
        if getPreMlsagHash env.keccak rv = full then
          some (⟨d.unlockTime, vin, st.vout, extra, rv, ins.map (·.pseudoOut), []⟩, r.2)
        else none
      else none
    | _ => none

/-- The loop 523-548: pseudo outputs and signatures, in order. -/
def signLoop (env : Env S P) (cfg : Config) (rnd : Nat → Rand S) : List InRec → Conn S P → Option (List (Bytes × Bytes) × Conn S P)
  | [], c => some ([], c)
  | i :: is, c =>
    (call env rnd c (.signInput i.src (dumpVin env i.vin) i.hmac i.pseudoOut i.pseudoOutHmac i.alphaEnc i.spendEnc)).bind fun r =>
      match r.1 with
      | .signAck sig po =>
        (signLoop env cfg rnd is r.2).map fun q =>
          ((if cfg.clientVersion > 0 ∧ po ≠ [] then po else i.pseudoOut, sig) :: q.1, q.2)
      | _ => none

/-- `sign_transaction_data`, 319-565: the transaction, the last answer of the device (of which 563-564 keep salt, multiplier and encrypted keys) and
the connection. -/
def signAll (env : Env S P) (cfg : Config) (cdc : Codec) (rnd : Nat → Rand S) (hrnd : Nat → Bytes) (d : TxData)
    (c : Conn S P) : Option (Tx × Resp × Conn S P) :=
  (tsxData cfg d).bind fun tsx =>
  (initStep env rnd tsx c).bind fun r0 =>
  (inputLoop env cdc rnd d.sources r0.2).bind fun r1 =>
  (permStep env rnd r1.1 r1.2).bind fun r2 =>
  (viniLoop env rnd r2.1 r2.2).bind fun c3 =>
  (allInStep env cfg rnd r0.1.2 d.dsts.length c3).bind fun r4 =>
  (outputLoop env cfg cdc d rnd hrnd tsx.grouping r0.1.2 r0.1.1 0 d.dsts { gamma := r4.1 } r4.2).bind fun r5 =>
  (allOutStep env d rnd r2.1 r5.1 r5.2).bind fun r6 =>
  (signLoop env cfg rnd r2.1 r6.2).bind fun r7 =>
  (call env rnd r7.2 .final).map fun r8 =>
    ({ r6.1 with pseudoOuts := r7.1.map (·.1), mgs := r7.1.map (·.2) }, r8)

/-- What `sign_transaction_data` returns, 565, and the connection. -/
def signTransaction (env : Env S P) (cfg : Config) (cdc : Codec) (rnd : Nat → Rand S) (hrnd : Nat → Bytes) (d : TxData)
    (c : Conn S P) : Option (Tx × Conn S P) :=
  (signAll env cfg cdc rnd hrnd d c).map fun r => (r.1, r.2.2)

end Verif.Agent
