import Verif.Model.Signer

/-!
Model of saving and restoring the signer between messages (protocol/tsx_sign_builder.py:29-154,
tsx_sign_state_holder.py, tsx_sign_state.py:30-34, xmr/sub/mlsag_hasher.py:11-42,
xmr/sub/keccak_hasher.py:28-37).

A Python object is modelled by its attribute dictionary. Both loops handle every attribute on its own, so a
dictionary is a function and the loops are pointwise maps. Hash contexts are values here (the Python objects are
shared by reference, and only one owner is live at a time: the builder is dropped when its state is saved,
tsx_sign.py:73-80).
-/

namespace Verif.Signer
open Verif

/-- Instance attributes of `TTransactionBuilder`, 29-82. None starts with `_` or `STEP` (the `STEP_*` constants
are class attributes, 20-27, and not in `__dict__`). -/
inductive Attr
  | trezor | creds | key_master | key_hmac | key_enc | r | r_pub | state | multi_sig | need_additional_txkeys | use_bulletproof | use_rct | use_simple_rct | input_count | output_count | output_change | mixin | fee | account_idx | client_version | bp_version | additional_tx_private_keys | additional_tx_public_keys | inp_idx | out_idx | is_processing_offloaded | input_last_amount | summary_inputs_money | summary_outs_money | input_secrets | input_alphas | input_pseudo_outs | output_sk | output_pk | output_amounts | output_masks | output_last_mask | rsig_type | rsig_grp | rsig_offload | sumout | sumpouts_alphas | subaddresses | tx | source_permutation | tx_prefix_hasher | tx_prefix_hash | full_message_hasher | full_message | exp_tx_prefix_hash
deriving DecidableEq

/-- Attribute values. -/
inductive Val (S P : Type)
  | none
  | bytes (x : Bytes) | scalar (x : S) | point (x : P) | bool (x : Bool) | nat (x : Nat) | int (x : Int)
  | dst (x : Dst) | scalars (x : List S) | blobs (x : List Bytes) | nats (x : List Nat) | subs (x : SubTable)
  | tx (x : TxStub)
  /-- a `TState` object, and the tuple it is saved as -/
  | tstate (x : TState) | tstateSaved (x : St × Bool)
  /-- a `KeccakXmrArchive`, and its hash context -/
  | archive (x : Bytes) | ctx (x : Bytes)
  /-- a `PreMlsagHasher`, and the tuple it is saved as -/
  | hasher (x : PreMlsag) | hasherSaved (x : Option Bool × Nat × Bytes × Option Bytes × Option Bytes)
  /-- the signer object that owns the builder, and account credentials -/
  | owner | creds (x : Nat)

abbrev Dict (S P : Type) := Attr → Option (Val S P)

variable {S P : Type}

/-- `TsxSignStateHolder.__init__`, tsx_sign_state_holder.py:9-56. -/
def holderInit : Dict S P
  | .trezor => none
  | .creds => some .none
  | .key_master => some .none
  | .key_hmac => some .none
  | .key_enc => some .none
  | .r => some .none
  | .r_pub => some .none
  | .state => some .none
  | .multi_sig => some (.bool false)
  | .need_additional_txkeys => some (.bool false)
  | .use_bulletproof => some (.bool false)
  | .use_rct => some (.bool true)
  | .use_simple_rct => some (.bool false)
  | .input_count => some (.nat 0)
  | .output_count => some (.nat 0)
  | .output_change => some .none
  | .mixin => some (.nat 0)
  | .fee => some (.nat 0)
  | .account_idx => some (.nat 0)
  | .client_version => none
  | .bp_version => none
  | .additional_tx_private_keys => some (.scalars [])
  | .additional_tx_public_keys => some (.blobs [])
  | .inp_idx => some (.int (-1))
  | .out_idx => some (.int (-1))
  | .is_processing_offloaded => none
  | .input_last_amount => none
  | .summary_inputs_money => some (.nat 0)
  | .summary_outs_money => some (.nat 0)
  | .input_secrets => some (.scalars [])
  | .input_alphas => some (.scalars [])
  | .input_pseudo_outs => some (.scalars [])
  | .output_sk => some (.scalars [])
  | .output_pk => some (.blobs [])
  | .output_amounts => some (.nats [])
  | .output_masks => some (.scalars [])
  | .output_last_mask => none
  | .rsig_type => some (.nat 0)
  | .rsig_grp => some (.nats [])
  | .rsig_offload => some (.nat 0)
  | .sumout => some .none
  | .sumpouts_alphas => some .none
  | .subaddresses => some (.subs [])
  | .tx => some .none
  | .source_permutation => some (.nats [])
  | .tx_prefix_hasher => some .none
  | .tx_prefix_hash => some .none
  | .full_message_hasher => some .none
  | .full_message => some .none
  | .exp_tx_prefix_hash => some .none

/-- `state_save`, tsx_sign_builder.py:128-154; a value of the wrong type would raise and is modelled by leaving the
holder's value. -/
def stateSave (b : Dict S P) : Dict S P := fun a =>
  match b a with
  | none => holderInit a
  | some .none => some .none                                               -- 138-140
  | some v =>
    match a, v with
    | .state, .tstate x => some (.tstateSaved (x.s, x.inMem))              -- 142-143
    | .trezor, _ => holderInit a                                           -- 144-145
    | .tx_prefix_hasher, .archive c => some (.ctx c)                       -- 148-149
    | .full_message_hasher, .hasher h => some (.hasherSaved h.save)        -- 150-151
    | .state, _ | .tx_prefix_hasher, _ | .full_message_hasher, _ => holderInit a
    | _, v => some v                                                       -- 152-153

/-- `state_load`, tsx_sign_builder.py:99-126, into a builder whose constructor set the attributes `fresh`. -/
def stateLoad (fresh t : Dict S P) : Dict S P := fun a =>
  match t a with
  | none => fresh a
  | some .none => some .none                                               -- 109-111
  | some v =>
    match a, v with
    | .state, .tstateSaved x => some (.tstate { s := x.1, inMem := x.2 })   -- 113-115
    | .tx_prefix_hasher, .ctx c => some (.archive c)                       -- 116-119
    | .full_message_hasher, .hasherSaved x => some (.hasher (.ofState x))  -- 120-123
    | .state, _ | .tx_prefix_hasher, _ | .full_message_hasher, _ => fresh a
    | _, v => some v                                                       -- 124-125

/-- `None` or a value. -/
def Val.ofOpt {α : Type} (f : α → Val S P) : Option α → Val S P
  | Option.none => .none
  | some x => f x

def Val.bytes? : Val S P → Option Bytes
  | .bytes x => some x
  | _ => Option.none
def Val.scalar? : Val S P → Option S
  | .scalar x => some x
  | _ => Option.none
def Val.point? : Val S P → Option P
  | .point x => some x
  | _ => Option.none
def Val.bool? : Val S P → Option Bool
  | .bool x => some x
  | _ => Option.none
def Val.nat? : Val S P → Option Nat
  | .nat x => some x
  | _ => Option.none
def Val.int? : Val S P → Option Int
  | .int x => some x
  | _ => Option.none
def Val.dst? : Val S P → Option Dst
  | .dst x => some x
  | _ => Option.none
def Val.scalars? : Val S P → Option (List S)
  | .scalars x => some x
  | _ => Option.none
def Val.blobs? : Val S P → Option (List Bytes)
  | .blobs x => some x
  | _ => Option.none
def Val.nats? : Val S P → Option (List Nat)
  | .nats x => some x
  | _ => Option.none
def Val.subs? : Val S P → Option SubTable
  | .subs x => some x
  | _ => Option.none
def Val.tx? : Val S P → Option TxStub
  | .tx x => some x
  | _ => Option.none
def Val.tstate? : Val S P → Option TState
  | .tstate x => some x
  | _ => Option.none
def Val.archive? : Val S P → Option Bytes
  | .archive x => some x
  | _ => Option.none
def Val.hasher? : Val S P → Option PreMlsag
  | .hasher x => some x
  | _ => Option.none

def read {α : Type} (d : Dict S P) (a : Attr) (f : Val S P → Option α) : Option α := (d a).bind f

/-- Read an attribute that may be `None`. -/
def readOpt {α : Type} (d : Dict S P) (a : Attr) (f : Val S P → Option α) : Option (Option α) :=
  (d a).bind fun v => match v with
    | .none => some none
    | v => (f v).map some

/-- The attribute dictionary of a builder. `rest` gives the attributes the signer never reads after init
(`creds` is read only through `Env`). -/
def toDict (rest : Dict S P) (b : Builder S P) : Dict S P
  | .trezor => some .owner
  | .creds => rest .creds
  | .key_master => some (.bytes b.keyMaster)
  | .key_hmac => some (.bytes b.keyHmac)
  | .key_enc => some (.bytes b.keyEnc)
  | .r => some (.scalar b.r)
  | .r_pub => some (.point b.rPub)
  | .state => some (.tstate b.state)
  | .multi_sig => rest .multi_sig
  | .need_additional_txkeys => some (.bool b.needAdd)
  | .use_bulletproof => some (.bool b.useBp)
  | .use_rct => rest .use_rct
  | .use_simple_rct => some (.bool b.useSimple)
  | .input_count => some (.nat b.inputCount)
  | .output_count => some (.nat b.outputCount)
  | .output_change => some (Val.ofOpt .dst b.change)
  | .mixin => some (.nat b.mixin)
  | .fee => some (.nat b.fee)
  | .account_idx => some (.nat b.account)
  | .client_version => some (.nat b.clientVersion)
  | .bp_version => some (.nat b.bpVersion)
  | .additional_tx_private_keys => some (.scalars b.addPriv)
  | .additional_tx_public_keys => some (.blobs b.addPub)
  | .inp_idx => some (.int b.inpIdx)
  | .out_idx => some (.int b.outIdx)
  | .is_processing_offloaded => some (.bool b.procOff)
  | .input_last_amount => some (.nat b.inputLastAmount)
  | .summary_inputs_money => some (.nat b.sumIn)
  | .summary_outs_money => some (.nat b.sumOut)
  | .input_secrets => rest .input_secrets
  | .input_alphas => rest .input_alphas
  | .input_pseudo_outs => rest .input_pseudo_outs
  | .output_sk => rest .output_sk
  | .output_pk => some (.blobs b.outputPk)
  | .output_amounts => some (Val.ofOpt .nats b.outputAmounts)
  | .output_masks => some (Val.ofOpt .scalars b.outputMasks)
  | .output_last_mask => some (Val.ofOpt .scalar b.outputLastMask)
  | .rsig_type => some (.nat b.rsigType)
  | .rsig_grp => some (.nats b.rsigGrp)
  | .rsig_offload => some (.bool b.rsigOffload)
  | .sumout => some (.scalar b.sumout)
  | .sumpouts_alphas => some (.scalar b.sumpouts)
  | .subaddresses => some (Val.ofOpt .subs b.subs)
  | .tx => some (Val.ofOpt .tx b.tx)
  | .source_permutation => some (.nats b.perm)
  | .tx_prefix_hasher => some (Val.ofOpt .archive b.prefixHasher)
  | .tx_prefix_hash => some (Val.ofOpt .bytes b.prefixHash)
  | .full_message_hasher => some (Val.ofOpt .hasher b.fullHasher)
  | .full_message => some (Val.ofOpt .bytes b.fullMessage)
  | .exp_tx_prefix_hash => some (Val.ofOpt .bytes b.expPrefix)

/-- Reading an attribute dictionary back as a builder. -/
def ofDict (d : Dict S P) : Option (Builder S P) := do
  let keyMaster ← read d .key_master Val.bytes?
  let keyHmac ← read d .key_hmac Val.bytes?
  let keyEnc ← read d .key_enc Val.bytes?
  let r ← read d .r Val.scalar?
  let rPub ← read d .r_pub Val.point?
  let state ← read d .state Val.tstate?
  let needAdd ← read d .need_additional_txkeys Val.bool?
  let useBp ← read d .use_bulletproof Val.bool?
  let useSimple ← read d .use_simple_rct Val.bool?
  let inputCount ← read d .input_count Val.nat?
  let outputCount ← read d .output_count Val.nat?
  let change ← readOpt d .output_change Val.dst?
  let mixin ← read d .mixin Val.nat?
  let fee ← read d .fee Val.nat?
  let account ← read d .account_idx Val.nat?
  let clientVersion ← read d .client_version Val.nat?
  let bpVersion ← read d .bp_version Val.nat?
  let addPriv ← read d .additional_tx_private_keys Val.scalars?
  let addPub ← read d .additional_tx_public_keys Val.blobs?
  let inpIdx ← read d .inp_idx Val.int?
  let outIdx ← read d .out_idx Val.int?
  let procOff ← read d .is_processing_offloaded Val.bool?
  let inputLastAmount ← read d .input_last_amount Val.nat?
  let sumIn ← read d .summary_inputs_money Val.nat?
  let sumOut ← read d .summary_outs_money Val.nat?
  let outputPk ← read d .output_pk Val.blobs?
  let outputAmounts ← readOpt d .output_amounts Val.nats?
  let outputMasks ← readOpt d .output_masks Val.scalars?
  let outputLastMask ← readOpt d .output_last_mask Val.scalar?
  let rsigType ← read d .rsig_type Val.nat?
  let rsigGrp ← read d .rsig_grp Val.nats?
  let rsigOffload ← read d .rsig_offload Val.bool?
  let sumout ← read d .sumout Val.scalar?
  let sumpouts ← read d .sumpouts_alphas Val.scalar?
  let subs ← readOpt d .subaddresses Val.subs?
  let tx ← readOpt d .tx Val.tx?
  let perm ← read d .source_permutation Val.nats?
  let prefixHasher ← readOpt d .tx_prefix_hasher Val.archive?
  let prefixHash ← readOpt d .tx_prefix_hash Val.bytes?
  let fullHasher ← readOpt d .full_message_hasher Val.hasher?
  let fullMessage ← readOpt d .full_message Val.bytes?
  let expPrefix ← readOpt d .exp_tx_prefix_hash Val.bytes?
  pure { keyMaster, keyHmac, keyEnc, r, rPub, state, needAdd, useBp,
         useSimple, inputCount, outputCount, change, mixin, fee,
         account, clientVersion, bpVersion, addPriv, addPub, inpIdx, outIdx,
         procOff, inputLastAmount, sumIn, sumOut, outputPk, outputAmounts, outputMasks, outputLastMask,
         rsigType, rsigGrp, rsigOffload, sumout, sumpouts, subs,
         tx, perm, prefixHasher, prefixHash, fullHasher, fullMessage, expPrefix }

/-- The device as it is: between two messages only the saved state exists. -/
structure SuspendedDevice (S P : Type) where
  saved : Option (Dict S P) := none

/-- `TsxSigner.wake_up`, tsx_sign.py:82-106. -/
def wakeUpSuspended [CommRing S] [AddCommGroup P] (rest : Dict S P) (d : SuspendedDevice S P) (m : Msg) : Option (Builder S P) :=
  match m.isInit, d.saved with
  | true, _ | _, none => some freshBuilder
  | false, some t => ofDict (stateLoad (toDict rest freshBuilder) t)

/-- `TokenLite.tsx_sign` with saving and restoring, token.py:112-130. -/
def tsxSignSuspended [CommRing S] [AddCommGroup P] [Module S P] [DecidableEq S] [DecidableEq P] (rest : Dict S P)
    (env : Env S P) (d : SuspendedDevice S P) (m : Msg) (rnd : Rand S) : SuspendedDevice S P × Resp :=
  if !env.msgOk m then (d, .failure 0)
  else match wakeUpSuspended rest d m with
    | none => ({ saved := none }, .failure 0)
    | some b =>
      match sign env b m rnd with
      | .error .fail => ({ saved := none }, .failure 0)
      | .error .prefixMismatch => ({ saved := none }, .failure 10)
      | .ok (b, res) =>
        let d' : SuspendedDevice S P :=
          { saved := if b.state.isTerminal then none else some (stateSave (toDict rest b)) }
        if env.respOk res then (d', res) else (d', .failure 0)

end Verif.Signer
