import Verif.Model.Basic
import Verif.Model.Varint
import Verif.Model.PreMlsag
import Verif.Model.Offsets
import Mathlib.Algebra.Module.Defs

/-!
Model of the device side of the transaction signing protocol:

* `monero_glue/protocol/tsx_sign_state.py`    (`TState`)
* `monero_glue/protocol/tsx_sign_builder.py`  (`TTransactionBuilder`)
* `monero_glue/protocol/tsx_sign.py`          (`TsxSigner`)
* `monero_glue/hwtoken/token.py:112-130`      (`TokenLite.tsx_sign`)

Conventions and simplifications
* An exception raised anywhere in a handler is `Except.error`. `TsxSigner.tsx_exc_handler` and
  `TokenLite.tsx_exc_handler` then drop the whole builder, so partial updates made before the raise
  are unobservable and not modelled.
* Points are elements of an abstract module `P` over the commutative ring of scalars `S`.
  Hash, MAC, cipher, serialisers, key-image helper, MLSAG prover and bulletproof
  prover/verifier are the fields of `Env`.
* Everything random or decided by the user in one step is the explicit argument `Rand`.
* A Keccak context is the byte string fed to it.
* Message fields are assumed present (a missing protobuf field is `None` in Python and makes the handler
  raise; that is message kind `malformed`).
* Multisig is off (`multi_sig = False` is hard-wired at tsx_sign_builder.py:426).
-/

namespace Verif.Signer
open Verif

/-- Why a handler did not return: any exception, or the one treated specially
(`TrezorTxPrefixHashNotMatchingError`, tsx_sign.py:246-252). -/
inductive Err
  | fail
  | prefixMismatch
deriving DecidableEq

/-- `utils.ensure` / `if …: raise`. -/
def ensure (c : Bool) : Except Err Unit := if c then .ok () else .error .fail

/-- Call of a helper that may raise. -/
def orFail {α} : Option α → Except Err α
  | some a => .ok a
  | none => .error .fail

/-! ### tsx_sign_state.py -/

/-- `TState` constants, tsx_sign_state.py:9-24. -/
inductive St
  | START | INIT | INP_CNT | INPUT | INPUT_DONE | INPUT_PERM | INPUT_VINS | INPUT_ALL_DONE
  | OUTPUT | RSIG | OUTPUT_DONE | FINAL_MESSAGE | SIGNATURE | SIGNATURE_DONE | FINAL | FAIL
deriving DecidableEq, Repr

/-- `TState`, tsx_sign_state.py:26-28. -/
structure TState where
  s : St := .START
  inMem : Bool := false
deriving DecidableEq

namespace TState
/-- 36-39 -/
def initTsx (t : TState) : Except Err TState := do
  ensure (t.s == .START); pure { t with s := .INIT }
/-- 41-45 -/
def inpCnt (t : TState) (inMem : Bool) : Except Err TState := do
  ensure (t.s == .INIT); pure { t with s := .INP_CNT, inMem := inMem }
/-- 47-50 -/
def input (t : TState) : Except Err TState := do
  ensure (t.s == .INP_CNT || t.s == .INPUT); pure { t with s := .INPUT }
/-- 52-55 -/
def inputDone (t : TState) : Except Err TState := do
  ensure (t.s == .INPUT); pure { t with s := .INPUT_DONE }
/-- 57-60 -/
def inputPermutation (t : TState) : Except Err TState := do
  ensure (t.s == .INPUT_DONE); pure { t with s := .INPUT_PERM }
/-- 62-65 -/
def inputVins (t : TState) : Except Err TState := do
  ensure (t.s == .INPUT_PERM || t.s == .INPUT_VINS); pure { t with s := .INPUT_VINS }
/-- 70-75 -/
def inputAllDone (t : TState) : Except Err TState := do
  ensure (!((!t.inMem && t.s != .INPUT_VINS) || (t.inMem && t.s != .INPUT_PERM)))
  pure { t with s := .INPUT_ALL_DONE }
/-- 77-80 -/
def setOutput (t : TState) : Except Err TState := do
  ensure (t.s == .INPUT_ALL_DONE || t.s == .OUTPUT); pure { t with s := .OUTPUT }
/-- 82-85 -/
def setOutputDone (t : TState) : Except Err TState := do
  ensure (t.s == .OUTPUT); pure { t with s := .OUTPUT_DONE }
/-- 87-90 -/
def setFinalMessageDone (t : TState) : Except Err TState := do
  ensure (t.s == .OUTPUT_DONE); pure { t with s := .FINAL_MESSAGE }
/-- 92-95 -/
def setSignature (t : TState) : Except Err TState := do
  ensure (t.s == .FINAL_MESSAGE || t.s == .SIGNATURE); pure { t with s := .SIGNATURE }
/-- 97-100 -/
def setSignatureDone (t : TState) : Except Err TState := do
  ensure (t.s == .SIGNATURE); pure { t with s := .SIGNATURE_DONE }
/-- 102-105 -/
def setFinal (t : TState) : Except Err TState := do
  ensure (t.s == .SIGNATURE_DONE); pure { t with s := .FINAL }
/-- 110-111 -/
def isTerminal (t : TState) : Bool := t.s == .FINAL || t.s == .FAIL
end TState

/-! ### Message contents -/

/-- `MoneroAccountPublicAddress` (encoded keys). -/
structure Addr where
  spend : Bytes
  view : Bytes
deriving DecidableEq

/-- `MoneroTransactionDestinationEntry`. -/
structure Dst where
  amount : Nat
  addr : Addr
  isSub : Bool
deriving DecidableEq

/-- `MoneroOutputEntry` (ring member). -/
structure RingMember where
  idx : Nat
  dest : Bytes
  commitment : Bytes
deriving DecidableEq

/-- `MoneroTransactionSourceEntry`. The signer never reads `subaddr_minor`; it is kept because it is part of
the serialised message. (`multisig_kLRki` is read only in multisig mode and is left out.) -/
structure Src where
  outputs : List RingMember
  realOutput : Nat
  txKey : Bytes
  addKeys : List Bytes
  inTxIndex : Nat
  amount : Nat
  rct : Bool
  mask : Bytes
  subaddrMinor : Option Nat
deriving DecidableEq

/-- `MoneroTransactionData` with its `rsig_data`. -/
structure TsxData where
  numInputs : Nat
  outputs : List Dst
  change : Option Dst
  mixin : Nat
  fee : Nat
  clientVersion : Nat
  account : Nat
  minorIndices : List Nat
  rsigType : Nat
  grouping : List Nat
  bpVersion : Nat
  unlockTime : Nat
  paymentId : Bytes
deriving DecidableEq

/-- The host's messages, tsx_sign.py:107-145. -/
inductive Msg
  | init (tsx : TsxData)
  | setInput (src : Src)
  | permutation (perm : List Nat)
  | inputVini (src : Src) (vini hmac : Bytes)
  | allInputsSet
  /-- `rsig = []` stands for "no rsig provided" (tsx_sign_builder.py:1050-1052). -/
  | setOutput (dst : Dst) (hmac rsig : Bytes) (isOffloadedBp : Bool)
  | allOutSet
  | signInput (src : Src) (vini hmacVini pseudoOut pseudoOutHmac alphaEnc spendEnc : Bytes)
  | final
  /-- message of a known kind with missing fields, or of an unknown kind: the handler raises -/
  | malformed

/-- Data of a normal `MoneroTransactionSetOutputAck`. -/
structure OutAck where
  txOut : Bytes
  voutiHmac : Bytes
  rsig : Option Bytes
  mask : Option Bytes
  outPk : Bytes
  ecdh : Bytes
deriving DecidableEq

/-- Answers. -/
inductive Resp
  | failure (code : Nat)
  | initAck (hmacs : List Bytes) (offload : Bool)
  | inputAck (vini viniHmac pseudoOut pseudoOutHmac alphaEnc spendEnc : Bytes)
  | permutationAck
  | viniAck
  | allInputsAck (masks : Bytes)
  /-- `none`: the empty ack that answers an offloaded-bulletproof message -/
  | outputAck (data : Option OutAck)
  | allOutAck (extra prefixHash : Bytes) (fee : Nat) (rvType : UInt8) (fullMessage : Bytes)
  | signAck (signature pseudoOut : Bytes)
  | finalAck (salt randMult txEncKeys : Bytes)
deriving DecidableEq

/-! ### Environment -/

variable (S P : Type)

/-- Randomness and user decisions consumed by one step. -/
structure Rand where
  /-- answer of `iface.confirm_transaction` (tsx_sign_builder.py:408) -/
  confirm : Bool
  /-- no UI callback (`transaction_step`, …) raises in this step -/
  uiOk : Bool
  r : S
  master : S
  alpha : S
  nonceAlpha : Bytes
  nonceSpend : Bytes
  addKey : S
  bpRand : Bytes
  mlsagRand : Bytes
  salt : Bytes
  randMult : S
  nonceFinal : Bytes

/-- Subaddress table `{encoded spend key: (major, minor)}`. -/
abbrev SubTable := List (Bytes × Nat × Nat)

/-- Abstract primitives and the credentials of the wallet. -/
structure Env where
  keccak : Bytes → Bytes
  keccak2 : Bytes → Bytes
  mac : Bytes → Bytes → Bytes
  /-- `chacha_poly.encrypt_pack key plaintext`, with the random nonce explicit -/
  encPack : Bytes → Bytes → Bytes → Bytes
  decPack : Bytes → Bytes → Option Bytes
  scEnc : S → Bytes
  scDec : Bytes → S
  ptEnc : P → Bytes
  ptDec : Bytes → Option P
  hashToScalar : Bytes → S
  G : P
  H : P
  pbSrc : Src → Bytes
  pbDst : Dst → Bytes
  pbTsx : TsxData → Bytes
  /-- serialised `TxinToKey(amount, k_image, key_offsets)` -/
  serTxin : Nat → Bytes → List Int → Bytes
  /-- `monero.generate_key_image_helper` (out_key, tx_key, additional keys, index) -/
  keyImage : SubTable → P → P → List P → Nat → Option (S × P)
  /-- `monero.compute_subaddresses` into an empty table -/
  subaddresses : Nat → List Nat → SubTable
  /-- `get_primary_change_address` -/
  primaryAddr : Nat → Addr
  /-- `_s6_ecdh_encode` + `_s6_serialize_ecdh`: mask, amount, encoded amount key, v2 -/
  ecdh : S → Nat → Bytes → Bool → Option Bytes
  bpProve : List Nat → List S → Bytes → Option Bp
  bpDump : Bp → Option Bytes
  bpParse : Bytes → Option Bp
  bpVerify : Bp → List Nat → List S → Bool
  /-- `prove_rct_mg_simple` (+ the debug self check): message, ring, secret, mask, alpha, pseudo out,
  index, randomness; result = serialised signature -/
  mlsag : Bytes → List RingMember → S → S → S → P → Nat → Bytes → Option Bytes
  viewPriv : S
  spendPriv : S
  /-- `test_pb_msg(msg)` does not raise (token.py:83-92,114) -/
  msgOk : Msg → Bool
  /-- `test_pb_msg(res)` does not raise (token.py:124) -/
  respOk : Resp → Bool

/-- `TprefixStub` fields that are used (tsx_sign_builder.py:7-12,95,455-456). -/
structure TxStub where
  version : Nat := 0
  unlockTime : Nat := 0
  extra : Bytes := []

/-- `TTransactionBuilder` attributes, tsx_sign_builder.py:29-97 (attributes that are written but never
read, such as `input_secrets`, are left out). -/
structure Builder where
  state : TState := {}
  keyMaster : Bytes := []
  keyHmac : Bytes := []
  keyEnc : Bytes := []
  r : S
  rPub : P
  needAdd : Bool := false
  useBp : Bool := false
  useSimple : Bool := true
  inputCount : Nat := 0
  outputCount : Nat := 0
  change : Option Dst := none
  mixin : Nat := 0
  fee : Nat := 0
  account : Nat := 0
  clientVersion : Nat := 0
  bpVersion : Nat := 1
  addPriv : List S := []
  addPub : List Bytes := []
  inpIdx : Int := -1
  outIdx : Int := -1
  procOff : Bool := false
  inputLastAmount : Nat := 0
  sumIn : Nat := 0
  sumOut : Nat := 0
  outputPk : List Bytes := []
  outputAmounts : Option (List Nat) := some []
  outputMasks : Option (List S) := some []
  outputLastMask : Option S := none
  rsigType : Nat := 0
  rsigGrp : List Nat := []
  rsigOffload : Bool := false
  sumout : S
  sumpouts : S
  subs : Option SubTable := some []
  tx : Option TxStub := some {}
  perm : List Nat := []
  prefixHasher : Option Bytes := some []
  prefixHash : Option Bytes := none
  fullHasher : Option PreMlsag := some {}
  fullMessage : Option Bytes := none
  expPrefix : Option Bytes := none

variable {S P : Type}

/-! ### Pure helpers -/

/-- `addr_eq`, xmr/sub/addr.py:159-169. -/
def addrEq (a b : Addr) : Bool := a.spend == b.spend && a.view == b.view

/-- `get_change_addr_idx(...) is not None`, xmr/sub/addr.py:172-191 (only `None`-ness is used). -/
def hasChangeIdx (outputs : List Dst) : Option Dst → Bool
  | none => false
  | some c => outputs.any fun d => c.amount != 0 && c.amount == d.amount && addrEq c.addr d.addr

/-- `check_change`, tsx_sign_builder.py:195-225; `myAddr` is `get_primary_change_address()`. -/
def checkChange (outputs : List Dst) (change : Option Dst) (myAddr : Addr) : Except Err Unit :=
  match change with
  | none => .ok ()                                                        -- 204-206
  | some c =>
    if !hasChangeIdx outputs (some c) && c.amount == 0 && outputs.length == 2 then .ok ()  -- 208-210
    else do
      ensure (outputs.any fun o => addrEq o.addr c.addr)                  -- 212-219
      ensure (addrEq myAddr c.addr)                                       -- 221-223

/-- `classify_subaddresses`, xmr/sub/addr.py:131-156: state (seen, std, sub, single). -/
def classifyAux (change : Option Addr) : List Dst → List Addr → Nat → Nat → Option Addr → Nat × Nat × Option Addr
  | [], _, std, sub, single => (std, sub, single)
  | d :: ds, seen, std, sub, single =>
    if (match change with | some c => addrEq c d.addr | none => false) then
      classifyAux change ds seen std sub single
    else if seen.contains d.addr then classifyAux change ds seen std sub single
    else if d.isSub then classifyAux change ds (d.addr :: seen) std (sub + 1) (some d.addr)
    else classifyAux change ds (d.addr :: seen) (std + 1) sub single

def classify (outs : List Dst) (change : Option Addr) : Nat × Nat × Option Addr :=
  classifyAux change outs [] 0 0 none

/-- `crypto.NULL_KEY_ENC` -/
def nullKey : Bytes := List.replicate 32 0

/-- Loop of `get_destination_view_key_pub`, tsx_sign_builder.py:556-570: `none` is the early
`return NULL_KEY_ENC`, otherwise the final `(addr, count)`. -/
def destViewAux (change : Option Addr) (hasPid : Bool) : List Dst → Addr → Nat → Option (Addr × Nat)
  | [], addr, count => some (addr, count)
  | d :: ds, addr, count =>
    if d.amount == 0 then destViewAux change hasPid ds addr count
    else if (match change with | some c => addrEq d.addr c | none => false) then
      destViewAux change hasPid ds addr count
    else if addrEq d.addr addr then destViewAux change hasPid ds addr count
    else if count > 0 && hasPid then none
    else destViewAux change hasPid ds d.addr (count + 1)

/-- `get_destination_view_key_pub`, tsx_sign_builder.py:545-576: the view key and the possibly
replaced payment id (dummy insertion, 572-574). -/
def destView (outs : List Dst) (change : Option Addr) (pid : Bytes) : Bytes × Bytes :=
  match destViewAux change (!pid.isEmpty) outs ⟨nullKey, nullKey⟩ 0 with
  | none => (nullKey, pid)
  | some (addr, count) =>
    (addr.view, if pid.isEmpty && count ≤ 1 then List.replicate 8 0 else pid)

/-- `_get_rsig_batch`, tsx_sign_builder.py:1367-1376; `grp` is `rsig_grp[r:]`, `none` = `IndexError`. -/
def rsigBatchAux (target : Int) : List Nat → Int → Int → Option Int
  | [], c, r => if c < target then none else some (r - 1)
  | g :: gs, c, r => if c < target then rsigBatchAux target gs (c + g) (r + 1) else some (r - 1)

def rsigBatch (grp : List Nat) (idx : Int) : Option Int := rsigBatchAux (idx + 1) grp 0 0

/-- `_is_last_in_batch`, tsx_sign_builder.py:1378-1384, with Python's negative indexing
(`bidx = -1` for `idx = -1`). -/
def isLastInBatch (grp : List Nat) (idx bidx : Int) : Option Bool :=
  if 0 ≤ bidx then
    (grp[bidx.toNat]?).map fun size => (idx - (grp.take bidx.toNat).sum) + 1 == (size : Int)
  else if 0 ≤ bidx + grp.length then
    (grp[(bidx + grp.length).toNat]?).map fun size =>
      (idx - (grp.take (bidx + grp.length).toNat).sum) + 1 == (size : Int)
  else none

/-- Both calls in the order of tsx_sign_builder.py:950-951 / 1057-1058. -/
def lastInBatch (grp : List Nat) (idx : Int) : Option Bool :=
  (rsigBatch grp idx).bind (isLastInBatch grp idx)

/-! ### Keys -/

/-- `_build_key` buffer, tsx_sign_builder.py:268-289: 48 zero bytes, secret at 0, discriminator at 32,
varint index behind it; `none` = `IndexError` when it does not fit. -/
def keyBuf (secret disc : Bytes) (index : Option Nat) : Option Bytes :=
  let payload := disc ++ (match index with | none => [] | some i => Varint.dumpNat i)
  if secret.length ≤ 48 ∧ payload.length ≤ 16 then
    let head := (secret ++ List.replicate 48 0).take 48
    some (head.take 32 ++ payload ++ head.drop (32 + payload.length))
  else none

/-- `_build_key`, tsx_sign_builder.py:268-289. -/
def buildKey (env : Env S P) (secret disc : Bytes) (index : Option Nat) : Option Bytes :=
  (keyBuf secret disc index).map env.keccak2

/-- ASCII string. -/
def ascii (s : String) : Bytes := s.toList.map fun c => UInt8.ofNat c.toNat

def dTxin := ascii "txin"
def dTxinComm := ascii "txin-comm"
def dTxdst := ascii "txdest"
def dTxout := ascii "txout"
def dTxoutAsig := ascii "txout-asig"
def dTxinAlpha := ascii "txin-alpha"
def dSpend := ascii "txin-spend"
def dCout := ascii "cout"
def dOutMask := ascii "out-mask"

/-- `compute_hmac(_build_key(key_hmac, disc, idx), data)` -/
def tag (env : Env S P) (key disc : Bytes) (idx : Nat) (data : Bytes) : Option Bytes :=
  (buildKey env key disc (some idx)).map fun k => env.mac k data

/-- `gen_hmac_vini`, 345-358 -/
def hmacVini (env : Env S P) (key : Bytes) (src : Src) (vini : Bytes) (idx : Nat) : Option Bytes :=
  tag env key dTxin idx (env.keccak (env.pbSrc src ++ vini))

/-- `gen_hmac_vouti`, 360-373 -/
def hmacVouti (env : Env S P) (key : Bytes) (dst : Dst) (txout : Bytes) (idx : Nat) : Option Bytes :=
  tag env key dTxout idx (env.keccak (env.pbDst dst ++ txout))

/-- `gen_hmac_tsxdest`, 375-387 -/
def hmacDst (env : Env S P) (key : Bytes) (dst : Dst) (idx : Nat) : Option Bytes :=
  tag env key dTxdst idx (env.keccak (env.pbDst dst))

/-- `det_comm_masks`, 339-343 -/
def detCommMask [CommRing S] (env : Env S P) (keyEnc : Bytes) (idx : Nat) : Option S :=
  (buildKey env keyEnc dOutMask (some idx)).map env.scDec

/-- hmacs of all destinations, 475-479 -/
def hmacDsts (env : Env S P) (key : Bytes) : List Dst → Nat → Option (List Bytes)
  | [], _ => some []
  | d :: ds, i => do
    let h ← hmacDst env key d i
    let t ← hmacDsts env key ds (i + 1)
    pure (h :: t)

variable [CommRing S] [AddCommGroup P] [Module S P] [DecidableEq S] [DecidableEq P]

/-- `crypto.gen_c(mask, amount)` = mask·G + amount·H -/
def genC (env : Env S P) (mask : S) (amount : Nat) : P := mask • env.G + (amount : S) • env.H

/-- `crypto.generate_key_derivation(pub, priv)` = 8·priv·pub -/
def derivation (pub : P) (priv : S) : P := (8 : S) • priv • pub

/-- `crypto.derivation_to_scalar` -/
def derivToScalar (env : Env S P) (d : P) (idx : Nat) : S :=
  env.hashToScalar (env.ptEnc d ++ Varint.dumpNat idx)

namespace Builder

def isDetMask (b : Builder S P) : Bool := b.bpVersion ≥ 2 || b.clientVersion > 0    -- 256-257
def isBpV2 (b : Builder S P) : Bool := b.bpVersion ≥ 2                              -- 253-254
def changeAddr (b : Builder S P) : Option Addr := b.change.map (·.addr)             -- 236-237

/-- `get_rct_type`, 239-251; `RctType.Bulletproof = 3`, `Bulletproof2 = 4`. -/
def rctType (b : Builder S P) : Option UInt8 :=
  if b.bpVersion = 1 then some 3 else if b.bpVersion = 2 then some 4 else none

end Builder

/-- A builder fresh from `TTransactionBuilder(state=None)`, 29-97. -/
def freshBuilder : Builder S P := { r := 0, rPub := 0, sumout := 0, sumpouts := 0 }

/-! ### Step handlers of tsx_sign_builder.py -/

/-- `encrypt_payment_id`, xmr/sub/tsx_helper.py:139-156. -/
def encryptPaymentId (env : Env S P) (pid : Bytes) (pub : P) (sec : S) : Bytes :=
  let hash := env.keccak (env.ptEnc (derivation pub sec) ++ [0x8D])
  pid.zipWith (· ^^^ ·) hash

/-- `process_payment_id`, 493-543: new `(tsx_data.payment_id, tx.extra)`. -/
def processPaymentId (env : Env S P) (tsx : TsxData) (change : Option Addr) (r : S) (extra : Bytes) :
    Option (Bytes × Bytes) :=
  let (viewKey, pid) :=
    if tsx.paymentId.isEmpty || tsx.paymentId.length == 8 then destView tsx.outputs change tsx.paymentId
    else (nullKey, tsx.paymentId)
  if pid.isEmpty then some (pid, extra)
  else if pid.length == 8 then
    if viewKey == nullKey then none
    else (env.ptDec viewKey).map fun v =>
      (pid, [2, 9, 1] ++ encryptPaymentId env pid v r)
  else if pid.length == 32 then some (pid, [2, 33, 0] ++ pid)
  else none

/-- Transaction public key, 173-178 and 443-447: `r·G`, or `r·D` when the only destination is a
subaddress with spend key `D`. -/
def txPubKey (env : Env S P) (cls : Nat × Nat × Option Addr) (r : S) : Option P :=
  if cls.1 = 0 ∧ cls.2.1 = 1 then
    cls.2.2.bind fun a => (env.ptDec a.spend).map fun d => r • d
  else some (r • env.G)

/-- `init_transaction`, 397-491 (with `compute_sec_keys` 578-594 and `_tprefix_update` 389-395). -/
def initTransaction (env : Env S P) (b : Builder S P) (tsx : TsxData) (rnd : Rand S) :
    Except Err (Builder S P × Resp) := do
  let b := { b with r := rnd.r, rPub := rnd.r • env.G }                        -- gen_r
  let st ← b.state.initTsx
  let b := { b with state := st }
  ensure rnd.uiOk
  if !rnd.confirm then
    pure (b, .failure 4)                                                       -- ActionCancelled
  else do
    let st ← b.state.inpCnt false
    let b := { b with
      inputCount := tsx.numInputs, outputCount := tsx.outputs.length, change := tsx.change,
      mixin := tsx.mixin, fee := tsx.fee, clientVersion := tsx.clientVersion, account := tsx.account,
      state := st }
    checkChange tsx.outputs tsx.change (env.primaryAddr tsx.account)
    let b := { b with
      expPrefix := none,
      rsigType := tsx.rsigType, rsigGrp := tsx.grouping,
      rsigOffload := decide (tsx.rsigType > 0) && decide (tsx.outputs.length > 2),
      useBp := decide (tsx.rsigType > 0),
      useSimple := decide (tsx.numInputs > 1) || decide (tsx.rsigType ≠ 0),
      bpVersion := if tsx.bpVersion = 0 then 1 else tsx.bpVersion }
    let cls := classify tsx.outputs b.changeAddr
    let rPub ← orFail (txPubKey env cls rnd.r)
    let b := { b with rPub := rPub,
                      needAdd := decide (cls.2.1 > 0) && (decide (cls.1 > 0) || decide (cls.2.1 > 1)) }
    let (pid, extra) ← orFail (processPaymentId env tsx b.changeAddr rnd.r [])
    let tsx := { tsx with paymentId := pid }
    let b := { b with tx := some { version := 2, unlockTime := tsx.unlockTime, extra := extra } }
    let keyMaster := env.keccak2 (env.keccak (env.pbTsx tsx ++ env.scEnc rnd.r) ++ env.scEnc rnd.master)
    let keyHmac := env.keccak2 (ascii "hmac" ++ keyMaster)
    let keyEnc := env.keccak2 (ascii "enc" ++ keyMaster)
    let b := { b with keyMaster := keyMaster, keyHmac := keyHmac, keyEnc := keyEnc }
    let ph ← orFail b.prefixHasher
    let b := { b with prefixHasher := some (ph ++ Varint.dumpNat 2 ++ Varint.dumpNat tsx.unlockTime ++
                                              Varint.dumpNat b.inputCount) }
    let fh ← orFail b.fullHasher
    let ty ← orFail b.rctType
    let fh ← orFail ((fh.init b.useSimple).bind fun h => h.setTypeFee ty b.fee)
    let b := { b with fullHasher := some fh }
    let b := if tsx.minorIndices.isEmpty then b
             else { b with subs := some (env.subaddresses tsx.account tsx.minorIndices) }
    let hmacs ← orFail (hmacDsts env b.keyHmac tsx.outputs 0)
    pure (b, .initAck hmacs b.rsigOffload)

/-- The end of `set_input`, 688-691, with `tsx_inputs_done`, 702-710. -/
def inputsDone (b : Builder S P) (amount : Nat) : Except Err (Builder S P) :=
  if b.inpIdx + 1 = (b.inputCount : Int) then do
    let st ← b.state.inputDone
    pure { b with inputLastAmount := amount, state := st, subs := none }
  else pure b

/-- `set_input`, 604-710 (with `_gen_commitment` 840-853). -/
def setInput (env : Env S P) (b : Builder S P) (src : Src) (rnd : Rand S) :
    Except Err (Builder S P × Resp) := do
  let st ← b.state.input
  let b := { b with state := st, inpIdx := b.inpIdx + 1 }
  ensure rnd.uiOk
  ensure (!decide (b.inpIdx ≥ b.inputCount))
  let real ← orFail src.outputs[src.realOutput]?                               -- 629-633, 637
  let b := { b with sumIn := b.sumIn + src.amount }
  let outKey ← orFail (env.ptDec real.dest)
  let txKey ← orFail (env.ptDec src.txKey)
  let addKeys ← orFail (src.addKeys.mapM env.ptDec)
  let subs ← orFail b.subs
  let (xi, ki) ← orFail (env.keyImage subs outKey txKey addKeys src.inTxIndex)
  let vini := [2] ++ env.serTxin (if src.rct then 0 else src.amount) (env.ptEnc ki)
    (Offsets.toRelative (src.outputs.map fun x => (x.idx : Int)))
  let idx := b.inpIdx.toNat
  let hmac ← orFail (hmacVini env b.keyHmac src vini idx)
  let alpha := rnd.alpha
  let b := { b with sumpouts := b.sumpouts + alpha }
  let pseudoOut := env.ptEnc (genC env alpha src.amount)
  let pHmac ← orFail (tag env b.keyHmac dTxinComm idx pseudoOut)
  let kAlpha ← orFail (buildKey env b.keyEnc dTxinAlpha (some idx))
  let kSpend ← orFail (buildKey env b.keyEnc dSpend (some idx))
  let alphaEnc := env.encPack kAlpha (env.scEnc alpha) rnd.nonceAlpha
  let spendEnc := env.encPack kSpend (env.scEnc xi) rnd.nonceSpend
  let b ← inputsDone b src.amount
  pure (b, .inputAck vini hmac pseudoOut pHmac alphaEnc spendEnc)

/-- `tsx_inputs_permutation`, 722-740. The permutation is stored unchecked. -/
def setPermutation (b : Builder S P) (perm : List Nat) (rnd : Rand S) : Except Err (Builder S P × Resp) := do
  ensure rnd.uiOk
  let st ← b.state.inputPermutation
  pure ({ b with state := st, perm := perm, inpIdx := -1 }, .permutationAck)

/-- `input_vini`, 742-778. -/
def inputVini (env : Env S P) (b : Builder S P) (src : Src) (vini hmac : Bytes) (rnd : Rand S) :
    Except Err (Builder S P × Resp) := do
  ensure rnd.uiOk
  ensure (!decide (b.inpIdx ≥ b.inputCount))                                   -- 761, before the increment
  let st ← b.state.inputVins
  let b := { b with state := st, inpIdx := b.inpIdx + 1 }
  let pos ← orFail b.perm[b.inpIdx.toNat]?
  let h ← orFail (hmacVini env b.keyHmac src vini pos)
  ensure (h == hmac)
  let ph ← orFail b.prefixHasher
  ensure b.useBp
  pure ({ b with prefixHasher := some (ph ++ vini) }, .viniAck)

/-- Loop of `_compute_masks`, 819-829: remaining number of outputs, index; returns masks in order. -/
def computeMasksAux (env : Env S P) (keyEnc : Bytes) (sumpouts : S) (count : Nat) :
    Nat → Nat → S → Option (List S × S)
  | 0, _, sumout => some ([], sumout)
  | n + 1, i, sumout => do
    let cur ← if i + 1 = count then some (sumpouts - sumout) else detCommMask env keyEnc i
    let (rest, s) ← computeMasksAux env keyEnc sumpouts count n (i + 1) (sumout + cur)
    pure (cur :: rest, s)

/-- `all_in_set`, 780-799, with `_compute_masks`, 801-838. -/
def allInSet (env : Env S P) (b : Builder S P) (rnd : Rand S) : Except Err (Builder S P × Resp) := do
  let st ← b.state.inputAllDone
  ensure rnd.uiOk
  let b := { b with state := st, sumout := 0 }
  if b.isDetMask then pure (b, .allInputsAck [])
  else do
    let (masks, s) ← orFail (computeMasksAux env b.keyEnc b.sumpouts b.outputCount b.outputCount 0 0)
    ensure (b.sumpouts == s)                                                   -- "Sum eq error"
    pure ({ b with outputLastMask := masks.getLast?, sumout := 0 },
          .allInputsAck (if b.rsigOffload then (masks.map env.scEnc).flatten else []))

/-- State change according to det-mask offloading, 948-957. -/
def s6Offload (b : Builder S P) (isOff : Bool) : Except Err (Builder S P) :=
  if b.isDetMask && b.rsigOffload then do
    let last ← orFail (lastInBatch b.rsigGrp b.outIdx)
    ensure (!last || b.procOff != isOff)
    pure { b with procOff := isOff }
  else pure b

/-- 959-961 -/
def s6Advance (b : Builder S P) : Except Err (Builder S P) :=
  if !b.procOff then do
    let st ← b.state.setOutput
    pure { b with outIdx := b.outIdx + 1, state := st }
  else pure b

/-- HMAC check of the destination, 973-983. -/
def s6Hmac (env : Env S P) (b : Builder S P) (dst : Dst) (hmac : Bytes) : Except Err Unit :=
  if !b.procOff then do
    let h ← orFail (hmacDst env b.keyHmac dst b.outIdx.toNat)
    ensure (hmac == h)
  else pure ()

/-- `_s6_validate`, 942-988. Returns the builder; the destination is dropped by the caller
when `procOff` is set (982-983). -/
def s6Validate (env : Env S P) (b : Builder S P) (dst : Dst) (hmac : Bytes) (isOff : Bool) :
    Except Err (Builder S P) := do
  ensure (!(isOff && (!b.rsigOffload || !b.isDetMask)))                        -- 945-946
  let b ← s6Offload b isOff
  let b ← s6Advance b
  ensure (decide (b.inpIdx + 1 = b.inputCount))
  ensure (decide (b.outIdx < b.outputCount))
  ensure (b.isDetMask || !b.procOff)
  s6Hmac env b dst hmac
  pure b

/-- `_s6_set_out_additional_keys`, 1313-1335: the new lists of additional public and private keys. -/
def s6AddKeys (env : Env S P) (b : Builder S P) (dst : Dst) (rnd : Rand S) : Option (List Bytes × List S) :=
  if b.needAdd then
    (if dst.isSub then (env.ptDec dst.addr.spend).map fun d => rnd.addKey • d
     else some (rnd.addKey • env.G)).map fun addPub =>
      (b.addPub ++ [env.ptEnc addPub], b.addPriv ++ [rnd.addKey])
  else some (b.addPub, b.addPriv)

/-- `_s6_set_out_derivation`, 1337-1365. -/
def s6Derivation (env : Env S P) (b : Builder S P) (dst : Dst) (rnd : Rand S) : Option P :=
  if (match b.changeAddr with | some c => addrEq dst.addr c | none => false) then
    some (derivation b.rPub env.viewPriv)
  else
    (env.ptDec dst.addr.view).map fun v =>
      derivation v (if dst.isSub && b.needAdd then rnd.addKey else b.r)

/-- Mask selection of `_s6_compute_tx_keys`, 1008-1021: the mask and the new `output_last_mask`. -/
def s6Mask (env : Env S P) (b : Builder S P) (amountKey : S) : Option (S × Option S) :=
  if b.isDetMask then
    some (env.hashToScalar (ascii "commitment_mask" ++ env.scEnc amountKey), b.outputLastMask)
  else if b.outIdx + 1 < b.outputCount then
    (detCommMask env b.keyEnc b.outIdx.toNat).map fun m => (m, b.outputLastMask)
  else b.outputLastMask.map fun m => (m, none)

/-- `_s6_rsig_process_bp`, 1146-1165. -/
def s6ProcessBp (env : Env S P) (b : Builder S P) (rsig : Bytes) : Except Err (Builder S P) := do
  let bp ← orFail (env.bpParse rsig)
  let fh ← orFail (b.fullHasher.bind fun h => h.rsigVal bp)
  let am ← orFail b.outputAmounts
  let ms ← orFail b.outputMasks
  ensure (env.bpVerify bp am ms)
  pure { b with fullHasher := some fh, outputAmounts := some [], outputMasks := some [] }

/-- `_s6_rsig_bp`, 1120-1144. -/
def s6RsigBp (env : Env S P) (b : Builder S P) (rnd : Rand S) : Except Err (Builder S P × Bytes) := do
  let am ← orFail b.outputAmounts
  let ms ← orFail b.outputMasks
  let bp ← orFail (env.bpProve am ms rnd.bpRand)
  let fh ← orFail (b.fullHasher.bind fun h => h.rsigVal bp)
  let bin ← orFail (env.bpDump bp)
  pure ({ b with fullHasher := some fh, outputAmounts := some [], outputMasks := some [] }, bin)

/-- Checks at the head of `_s6_range_proof`, 1050-1068; result is `last_in_batch`. -/
def s6RsigChecks (b : Builder S P) (rsig : Bytes) : Except Err Bool := do
  let provided := !rsig.isEmpty
  ensure (!(!b.rsigOffload && provided))
  let last ← orFail (lastInBatch b.rsigGrp b.outIdx)
  ensure (!(b.rsigOffload && provided && !last))
  ensure (!(b.rsigOffload && last && !provided && (!b.isDetMask || b.procOff)))
  pure last

/-- "output masks and amounts are not needed anymore", 1111-1116. -/
def s6Cleanup (b : Builder S P) : Builder S P :=
  if b.outIdx + 1 = (b.outputCount : Int) ∧ (!b.rsigOffload || b.procOff) then
    { b with outputAmounts := none, outputMasks := none }
  else b

/-- `set_output` for a message treated as offloaded bulletproof (`is_processing_offloaded`),
872-900 with 1043-1118. -/
def setOutputOff (env : Env S P) (b : Builder S P) (rsig : Bytes) : Except Err (Builder S P × Resp) := do
  let last ← s6RsigChecks b rsig
  if !last then pure (b, .outputAck none)
  else do
    let b ← s6ProcessBp env b rsig
    pure (s6Cleanup b, .outputAck none)

/-- Range-proof part of a normal output, `_s6_range_proof` 1070-1118: new builder and proof bytes. -/
def s6RangeProof (env : Env S P) (b : Builder S P) (rsig : Bytes) (rnd : Rand S) :
    Except Err (Builder S P × Option Bytes) := do
  let last ← s6RsigChecks b rsig
  if !last then pure (b, none)
  else if !b.rsigOffload then do
    let (b, bin) ← s6RsigBp env b rnd
    pure (s6Cleanup b, some bin)
  else if b.isDetMask then pure (s6Cleanup b, none)                            -- waiting for offloaded BP
  else do
    let b ← s6ProcessBp env b rsig
    pure (s6Cleanup b, none)

/-- `set_output` for a normal output, 872-940. -/
def setOutputNormal (env : Env S P) (b : Builder S P) (dst : Dst) (rsig : Bytes) (rnd : Rand S) :
    Except Err (Builder S P × Resp) := do
  let ph ← orFail b.prefixHasher
  let ph := if b.outIdx = 0 then ph ++ Varint.dumpNat b.outputCount else ph
  let b := { b with prefixHasher := some ph }
  let am ← orFail b.outputAmounts
  let b := { b with outputAmounts := some (am ++ [dst.amount]), sumOut := b.sumOut + dst.amount }
  -- _s6_compute_tx_keys, 990-1022
  let idx := b.outIdx.toNat
  let (addPub, addPriv) ← orFail (s6AddKeys env b dst rnd)
  let b := { b with addPub := addPub, addPriv := addPriv }
  let d ← orFail (s6Derivation env b dst rnd)
  let amountKey := derivToScalar env d idx
  let spend ← orFail (env.ptDec dst.addr.spend)
  let txOutKey := derivToScalar env d idx • env.G + spend
  let (mask, lastMask) ← orFail (s6Mask env b amountKey)
  let ms ← orFail b.outputMasks
  let b := { b with outputMasks := some (ms ++ [mask]), outputLastMask := lastMask }
  let (b, rsigNew) ← s6RangeProof env b rsig rnd
  -- _s6_set_out_tx_out, 1024-1041
  let txOut := [0, 2] ++ env.ptEnc txOutKey
  let ph ← orFail b.prefixHasher
  let b := { b with prefixHasher := some (ph ++ txOut) }
  let vHmac ← orFail (hmacVouti env b.keyHmac dst txOut idx)
  -- _s6_get_ecdh_info_and_out_pk, 1227-1246
  let commitment := env.ptEnc (genC env mask dst.amount)
  let b := { b with sumout := b.sumout + mask }
  let ecdh ← orFail (env.ecdh mask dst.amount (env.scEnc amountKey) b.isBpV2)
  let fh ← orFail (b.fullHasher.bind fun h => h.setEcdh ecdh)
  let b := { b with fullHasher := some fh, outputPk := b.outputPk ++ [commitment] }
  pure (b, .outputAck (some {
    txOut := txOut, voutiHmac := vHmac, rsig := rsigNew,
    mask := if b.isDetMask && b.rsigOffload then some (env.scEnc mask) else none,
    outPk := env.ptEnc txOutKey ++ commitment, ecdh := ecdh }))

/-- `set_output`, 855-940. -/
def setOutput (env : Env S P) (b : Builder S P) (dst : Dst) (hmac rsig : Bytes) (isOff : Bool)
    (rnd : Rand S) : Except Err (Builder S P × Resp) := do
  ensure (isOff || rnd.uiOk)
  let b ← s6Validate env b dst hmac isOff
  if b.procOff then setOutputOff env b rsig
  else setOutputNormal env b dst rsig rnd

/-- `all_out1_set_tx_extra`, 1386-1396, with tsx_helper.py:219-254. -/
def txExtra (env : Env S P) (b : Builder S P) (extra : Bytes) : Option Bytes :=
  let e := extra ++ [1] ++ env.ptEnc b.rPub
  if b.needAdd then
    if b.addPub.isEmpty then none
    else some (e ++ [4] ++ Varint.dumpNat b.addPub.length ++ b.addPub.flatten)
  else some e

/-- `tsx_mlsag_out_pk`, 1494-1502: the loop over `output_pk`. -/
def feedOutPks : List Bytes → PreMlsag → Option PreMlsag
  | [], h => some h
  | pk :: pks, h => (h.setOutPk pk).bind (feedOutPks pks)

/-- 1458-1463 -/
def checkPrefix (exp : Option Bytes) (prefixHash : Bytes) : Except Err Unit :=
  match exp with
  | some e => if !e.isEmpty && e != prefixHash then .error .prefixMismatch else .ok ()
  | none => .ok ()

/-- `all_out1_set`, 1409-1492. -/
def allOutSet (env : Env S P) (b : Builder S P) (rnd : Rand S) : Except Err (Builder S P × Resp) := do
  let st ← b.state.setOutputDone
  let b := { b with state := st }
  ensure rnd.uiOk
  ensure (!decide (b.outIdx + 1 ≠ (b.outputCount : Int)))
  ensure (!decide ((b.fee : Int) ≠ (b.sumIn : Int) - b.sumOut))
  let tx ← orFail b.tx
  let extra ← orFail (txExtra env b tx.extra)
  ensure (!decide (b.sumOut > b.sumIn))
  -- all_out1_set_tx_prefix, 1398-1407; a blob is its varint length and its bytes
  let ph ← orFail b.prefixHasher
  let prefixHash := env.keccak (ph ++ Varint.dumpNat extra.length ++ extra)
  let fh ← orFail (b.fullHasher.bind fun h => h.setMessage prefixHash)
  let b := { b with prefixHash := some prefixHash, prefixHasher := none, fullHasher := some fh, tx := none,
                    addPub := [] }
  checkPrefix b.expPrefix prefixHash
  let ty ← orFail b.rctType
  let st ← b.state.setFinalMessageDone
  let b := { b with state := st }
  ensure (!decide (b.outputCount ≠ b.outputPk.length))
  let fh ← orFail ((feedOutPks b.outputPk fh).bind (PreMlsag.rctsigBaseDone env.keccak))
  let (_, full) ← orFail (fh.getDigest env.keccak)
  let b := { b with outIdx := -1, inpIdx := -1, fullMessage := some full, fullHasher := none }
  pure (b, .allOutAck extra prefixHash b.fee ty full)

/-- Pseudo-output handling of `sign_input`, 1557-1583: builder, mask and commitment. -/
def signPseudo (env : Env S P) (b : Builder S P) (pos : Nat) (alpha : S) (pseudoOut pHmac : Bytes) :
    Except Err (Builder S P × S × P) :=
  if b.isDetMask && pos + 1 == b.inputCount then do
    let diff := b.sumout - b.sumpouts
    let alpha := alpha + diff
    let b := { b with sumpouts := b.sumpouts + diff }
    ensure (b.sumpouts == b.sumout)
    pure (b, alpha, genC env alpha b.inputLastAmount)
  else do
    ensure (!decide (b.inpIdx + 1 = b.inputCount) || b.sumpouts == b.sumout)
    let h ← orFail (tag env b.keyHmac dTxinComm pos pseudoOut)
    ensure (h == pHmac)
    let p ← orFail (env.ptDec pseudoOut)
    pure (b, alpha, p)

/-- 1653-1656 -/
def signaturesDone (b : Builder S P) : Except Err (Builder S P) :=
  if b.inpIdx + 1 = (b.inputCount : Int) then do
    let st ← b.state.setSignatureDone
    pure { b with state := st }
  else pure b

/-- `sign_input`, 1504-1668. -/
def signInput (env : Env S P) (b : Builder S P) (src : Src)
    (vini hmac pseudoOut pHmac alphaEnc spendEnc : Bytes) (rnd : Rand S) :
    Except Err (Builder S P × Resp) := do
  let st ← b.state.setSignature
  ensure rnd.uiOk
  let b := { b with state := st, inpIdx := b.inpIdx + 1 }
  ensure (!decide (b.inpIdx ≥ b.inputCount))
  let pos ← orFail b.perm[b.inpIdx.toNat]?
  let h ← orFail (hmacVini env b.keyHmac src vini pos)
  ensure (h == hmac)
  let kAlpha ← orFail (buildKey env b.keyEnc dTxinAlpha (some pos))
  let alphaB ← orFail (env.decPack kAlpha alphaEnc)
  let (b, alpha, pOut) ← signPseudo env b pos (env.scDec alphaB) pseudoOut pHmac
  let kSpend ← orFail (buildKey env b.keyEnc dSpend (some pos))
  let spendB ← orFail (env.decPack kSpend spendEnc)
  let spend := env.scDec spendB
  let mask := env.scDec src.mask
  let real ← orFail src.outputs[src.realOutput]?
  let dest ← orFail (env.ptDec real.dest)
  ensure (dest == spend • env.G)
  let comm ← orFail (env.ptDec real.commitment)
  ensure (comm == genC env mask src.amount)
  let full ← orFail b.fullMessage
  let sig ← orFail (env.mlsag full src.outputs spend mask alpha pOut src.realOutput rnd.mlsagRand)
  let b ← signaturesDone b
  pure (b, .signAck sig (env.ptEnc pOut))

/-- `final_msg`, 1670-1699, with `compute_tx_key`, hwtoken/misc.py:61-75. -/
def finalMsg (env : Env S P) (b : Builder S P) (rnd : Rand S) : Except Err (Builder S P × Resp) := do
  let st ← b.state.setFinal
  let b := { b with state := st }
  let ph ← orFail b.prefixHash
  let passwd := env.keccak2 (env.scEnc (env.spendPriv + rnd.randMult) ++ ph)
  let txKey := env.mac rnd.salt passwd
  let keyBuff := env.scEnc b.r ++ (b.addPriv.map env.scEnc).flatten
  ensure rnd.uiOk
  pure (b, .finalAck rnd.salt (env.scEnc rnd.randMult) (env.encPack txKey keyBuff rnd.nonceFinal))

/-! ### tsx_sign.py and token.py -/

/-- `TsxSigner.sign`, tsx_sign.py:107-145. -/
def sign (env : Env S P) (b : Builder S P) (m : Msg) (rnd : Rand S) : Except Err (Builder S P × Resp) :=
  match m with
  | .init tsx => initTransaction env b tsx rnd
  | .setInput src => setInput env b src rnd
  | .permutation p => setPermutation b p rnd
  | .inputVini src vini hmac => inputVini env b src vini hmac rnd
  | .allInputsSet => allInSet env b rnd
  | .setOutput dst hmac rsig off => setOutput env b dst hmac rsig off rnd
  | .allOutSet => allOutSet env b rnd
  | .signInput src vini hmac po poH aEnc sEnc => signInput env b src vini hmac po poH aEnc sEnc rnd
  | .final => finalMsg env b rnd
  | .malformed => .error .fail

/-- `TokenLite` as far as signing is concerned: the saved signing state, token.py:28-36. -/
structure Device (S P : Type) where
  saved : Option (Builder S P) := none

def Msg.isInit : Msg → Bool
  | .init _ => true
  | _ => false

/-- The builder `wake_up` restores, tsx_sign.py:82-105 and 67-71 (for the fidelity of
`state_save`/`state_load` see `Model/SignerState.lean`). -/
def wakeUp (d : Device S P) (m : Msg) : Builder S P :=
  if m.isInit then freshBuilder else d.saved.getD freshBuilder

/-- `TokenLite.tsx_sign`, token.py:112-130. -/
def tsxSign (env : Env S P) (d : Device S P) (m : Msg) (rnd : Rand S) : Device S P × Resp :=
  if !env.msgOk m then (d, .failure 0)                   -- 114 raises, `tsx_state` untouched
  else match sign env (wakeUp d m) m rnd with
    | .error .fail => ({ saved := none }, .failure 0)    -- 118 cleared the state before
    | .error .prefixMismatch => ({ saved := none }, .failure 10)
    | .ok (b, res) =>
      let d' : Device S P := { saved := if b.state.isTerminal then none else some b }
      if env.respOk res then (d', res) else (d', .failure 0)  -- 124 raises after the state was saved

end Verif.Signer
