import Verif.Lemmas.SignerInit
import Verif.Spec.Signer

/-! The session invariant of the signing device. -/

set_option linter.unusedSectionVars false
set_option linter.unusedSimpArgs false

namespace Verif.Signer
open Verif
variable {S P : Type} [CommRing S] [AddCommGroup P] [Module S P] [DecidableEq S] [DecidableEq P]

/-- Data fixed by the accepted init message. -/
structure Head (S P : Type) where
  tsx : TsxData
  rnd : Rand S
  rPub : P
  pid : Bytes
  extra : Bytes
  ty : UInt8
  hmacs : List Bytes

def Head.ok (env : Env S P) (hd : Head S P) : Prop :=
  InitOk env hd.tsx hd.rnd hd.rPub hd.pid hd.extra hd.ty hd.hmacs

def Head.builder (env : Env S P) (hd : Head S P) : Builder S P :=
  initBuilder env hd.tsx hd.rnd hd.rPub hd.pid hd.extra hd.ty

/-- Values computed inside the device that do not show up in the answers. -/
structure Ghost (S : Type) where
  /-- commitment mask of every accepted output -/
  masks : List S := []
  /-- range proofs hashed so far, with the amounts and masks they were made for -/
  batches : List (Bp × List Nat × List S) := []
  /-- additional transaction public keys, one per output when needed -/
  addPub : List Bytes := []
  /-- pseudo-output masks as decrypted, per signature -/
  dec : List S := []
  /-- pseudo-output masks as used, per signature -/
  used : List S := []

/-- The part of the builder that never changes after init. -/
def Builder.static (b : Builder S P) :=
  (b.keyHmac, b.keyEnc, b.r, b.rPub, b.needAdd, b.useBp, b.inputCount, b.outputCount, b.change, b.fee,
    b.account, b.clientVersion, b.bpVersion, b.rsigGrp, b.rsigOffload, b.expPrefix, b.state.inMem)

def preIn (n : Nat) : List Kind := [.init] ++ List.replicate n .input ++ [.perm]
def preOut (n k : Nat) : List Kind := preIn n ++ List.replicate k .vini ++ [.allIn]
def preSign (n m : Nat) : List Kind := preOut n n ++ List.replicate m .output ++ [.allOut]

/-- Progress of the session, per state of the state machine. -/
def Stage (st : St) (n m : Nat) (inpIdx outIdx : Int) (ks : List Kind) : Prop :=
  match st with
  | .INP_CNT => inpIdx = -1 ∧ outIdx = -1 ∧ ks = [.init]
  | .INPUT => ∃ k : Nat, inpIdx = k ∧ k + 1 < n ∧ outIdx = -1 ∧
      ks = [.init] ++ List.replicate (k + 1) .input
  | .INPUT_DONE => inpIdx + 1 = n ∧ 0 < n ∧ outIdx = -1 ∧ ks = [.init] ++ List.replicate n .input
  | .INPUT_PERM => inpIdx = -1 ∧ 0 < n ∧ outIdx = -1 ∧ ks = preIn n
  | .INPUT_VINS => ∃ k : Nat, inpIdx = k ∧ k ≤ n ∧ 0 < n ∧ outIdx = -1 ∧
      ks = preIn n ++ List.replicate (k + 1) .vini
  | .INPUT_ALL_DONE => ∃ k : Nat, inpIdx = k ∧ k ≤ n ∧ 0 < n ∧ outIdx = -1 ∧ ks = preOut n (k + 1)
  | .OUTPUT => inpIdx + 1 = n ∧ 0 < n ∧ ∃ k : Nat, outIdx = k ∧ k < m ∧
      ks = preOut n n ++ List.replicate (k + 1) .output
  | .FINAL_MESSAGE => inpIdx = -1 ∧ outIdx = -1 ∧ 0 < n ∧ 0 < m ∧ ks = preSign n m
  | .SIGNATURE => ∃ k : Nat, inpIdx = k ∧ k + 1 < n ∧ outIdx = -1 ∧ 0 < m ∧
      ks = preSign n m ++ List.replicate (k + 1) .sign
  | .SIGNATURE_DONE => inpIdx + 1 = n ∧ 0 < n ∧ outIdx = -1 ∧ 0 < m ∧
      ks = preSign n m ++ List.replicate n .sign
  | _ => False

/-- Before the final message hash is computed. -/
def St.hashing : St → Bool
  | .INP_CNT | .INPUT | .INPUT_DONE | .INPUT_PERM | .INPUT_VINS | .INPUT_ALL_DONE | .OUTPUT => true
  | _ => false

/-- All inputs were set. -/
def St.inputsSet : St → Bool
  | .INP_CNT | .INPUT => false
  | _ => true

def St.permSet : St → Bool
  | .INP_CNT | .INPUT | .INPUT_DONE => false
  | _ => true

/-- After the "all inputs set" message. -/
def St.masksSet : St → Bool
  | .INP_CNT | .INPUT | .INPUT_DONE | .INPUT_PERM | .INPUT_VINS => false
  | _ => true

/-- Everything handed out for input number `i` is bound to the input. -/
def InputOk (env : Env S P) (b : Builder S P) (i : Nat) (r : InputRec S) : Prop :=
  hmacVini env b.keyHmac r.src r.vini i = some r.viniHmac ∧
  r.pseudoOut = env.ptEnc (genC env r.rnd.alpha r.src.amount) ∧
  tag env b.keyHmac dTxinComm i r.pseudoOut = some r.pseudoOutHmac ∧
  (∃ k, buildKey env b.keyEnc dTxinAlpha (some i) = some k ∧
    r.alphaEnc = env.encPack k (env.scEnc r.rnd.alpha) r.rnd.nonceAlpha) ∧
  (∃ subs real outKey txKey addKeys xi ki k, r.src.outputs[r.src.realOutput]? = some real ∧
    env.ptDec real.dest = some outKey ∧ env.ptDec r.src.txKey = some txKey ∧
    r.src.addKeys.mapM env.ptDec = some addKeys ∧
    env.keyImage subs outKey txKey addKeys r.src.inTxIndex = some (xi, ki) ∧
    r.vini = viniOf env r.src ki ∧ buildKey env b.keyEnc dSpend (some i) = some k ∧
    r.spendEnc = env.encPack k (env.scEnc xi) r.rnd.nonceSpend)

def ViniOk (env : Env S P) (b : Builder S P) (i : Nat) (r : ViniRec) : Prop :=
  ∃ pos, b.perm[i]? = some pos ∧ hmacVini env b.keyHmac r.src r.vini pos = some r.hmac

/-- Output number `i` with mask `mask`. -/
def OutputOk (env : Env S P) (b : Builder S P) (g : Ghost S) (i : Nat) (r : OutputRec) (mask : S) : Prop :=
  hmacDst env b.keyHmac r.dst i = some r.hmac ∧
  hmacVouti env b.keyHmac r.dst r.ack.txOut i = some r.ack.voutiHmac ∧
  ∃ rnd d spend, s6Derivation env b r.dst rnd = some d ∧ env.ptDec r.dst.addr.spend = some spend ∧
    (b.needAdd = true → g.addPub[i]? =
      some (env.ptEnc (rnd.addKey • (if r.dst.isSub then spend else env.G)))) ∧
    (b.isDetMask = true →
      mask = env.hashToScalar (ascii "commitment_mask" ++ env.scEnc (derivToScalar env d i))) ∧
    r.ack.txOut = [0, 2] ++ env.ptEnc (derivToScalar env d i • env.G + spend) ∧
    r.ack.outPk = env.ptEnc (derivToScalar env d i • env.G + spend) ++
      env.ptEnc (genC env mask r.dst.amount) ∧
    env.ecdh mask r.dst.amount (env.scEnc (derivToScalar env d i)) b.isBpV2 = some r.ack.ecdh

/-- Signature number `i`. -/
def SignOk (env : Env S P) (b : Builder S P) (i : Nat) (r : SignRec) (dec used : S) : Prop :=
  ∃ pos kA aB kS sB real full pOut rnd, b.perm[i]? = some pos ∧
    hmacVini env b.keyHmac r.src r.vini pos = some r.viniHmac ∧
    buildKey env b.keyEnc dTxinAlpha (some pos) = some kA ∧ env.decPack kA r.alphaEnc = some aB ∧
    dec = env.scDec aB ∧
    buildKey env b.keyEnc dSpend (some pos) = some kS ∧ env.decPack kS r.spendEnc = some sB ∧
    r.src.outputs[r.src.realOutput]? = some real ∧
    env.ptDec real.dest = some (env.scDec sB • env.G) ∧
    env.ptDec real.commitment = some (genC env (env.scDec r.src.mask) r.src.amount) ∧
    b.fullMessage = some full ∧
    env.mlsag full r.src.outputs (env.scDec sB) (env.scDec r.src.mask) used pOut r.src.realOutput rnd
      = some r.signature ∧
    r.resultPseudoOut = env.ptEnc pOut ∧
    ((b.isDetMask = true ∧ pos + 1 = b.inputCount ∧ pOut = genC env used b.inputLastAmount) ∨
     ((b.isDetMask = true → pos + 1 ≠ b.inputCount) ∧
       tag env b.keyHmac dTxinComm pos r.pseudoOut = some r.pseudoOutHmac ∧
       env.ptDec r.pseudoOut = some pOut ∧ used = dec))

def batchAmounts (g : Ghost S) : List Nat := (g.batches.map fun x => x.2.1).flatten
def batchMasks (g : Ghost S) : List S := (g.batches.map fun x => x.2.2).flatten

/-- Bytes of the transaction prefix hashed while outputs come in. -/
def prefixBytes (hd : Head S P) (s : List (Event S)) : Bytes :=
  Varint.dumpNat 2 ++ Varint.dumpNat hd.tsx.unlockTime ++ Varint.dumpNat hd.tsx.numInputs ++
  ((vinis s).map (·.vini)).flatten ++
  (if outputs s = [] then [] else
    Varint.dumpNat hd.tsx.outputs.length ++ ((outputs s).map (·.ack.txOut)).flatten)

/-- Commitments of the accepted outputs. -/
def commitments (env : Env S P) (s : List (Event S)) (g : Ghost S) : List Bytes :=
  List.zipWith (fun m r => env.ptEnc (genC env m r.dst.amount)) g.masks (outputs s)

/-- The transaction extra field of the session. -/
def extraOf (env : Env S P) (hd : Head S P) (g : Ghost S) : Bytes :=
  hd.extra ++ [1] ++ env.ptEnc hd.rPub ++
    (if (hd.builder env).needAdd then [4] ++ Varint.dumpNat g.addPub.length ++ g.addPub.flatten else [])

def prefixHashOf (env : Env S P) (hd : Head S P) (s : List (Event S)) (g : Ghost S) : Bytes :=
  env.keccak (prefixBytes hd s ++ Varint.dumpNat (extraOf env hd g).length ++ extraOf env hd g)

/-- The pieces of the signed message. -/
def rctOf (env : Env S P) (hd : Head S P) (s : List (Event S)) (g : Ghost S) (prefixHash : Bytes) : RctSig where
  message := prefixHash
  type := hd.ty
  txnFee := hd.tsx.fee
  ecdhInfo := (outputs s).map (·.ack.ecdh)
  outPk := commitments env s g
  bulletproofs := g.batches.map (·.1)

structure Inv (env : Env S P) (hd : Head S P) (s : List (Event S)) (b : Builder S P) (g : Ghost S) : Prop where
  initOk : hd.ok env
  head : ∃ off rest, s = ⟨.init hd.tsx, hd.rnd, .initAck hd.hmacs off⟩ :: rest
  accepted : ∀ e ∈ s, e.kind? = none → e.isProofUpload = true
  static : b.static = (hd.builder env).static
  stage : Stage b.state.s hd.tsx.numInputs hd.tsx.outputs.length b.inpIdx b.outIdx (kinds s)
  procOff : b.procOff = true → b.isDetMask = true ∧ b.rsigOffload = true
  sumIn : b.sumIn = ((inputs s).map (·.src.amount)).sum
  sumOut : b.sumOut = ((outputs s).map (·.dst.amount)).sum
  inputsOk : ∀ i r, (inputs s)[i]? = some r → InputOk env b i r
  lastAmount : b.state.s.inputsSet = true → ∃ r, (inputs s).getLast? = some r ∧ r.src.amount = b.inputLastAmount
  perm : b.state.s.permSet = true → perms s = [b.perm]
  vinisOk : ∀ i r, (vinis s)[i]? = some r → ViniOk env b i r
  masksLen : g.masks.length = (outputs s).length
  outputsOk : ∀ i r m, (outputs s)[i]? = some r → g.masks[i]? = some m → OutputOk env b g i r m
  sumout : b.sumout = g.masks.sum
  outputPk : b.outputPk = commitments env s g
  pending : (∃ am ms, b.outputAmounts = some am ∧ b.outputMasks = some ms ∧
      batchAmounts g ++ am = (outputs s).map (·.dst.amount) ∧ batchMasks g ++ ms = g.masks) ∨
    (b.outputAmounts = none ∧ batchAmounts g = (outputs s).map (·.dst.amount) ∧ batchMasks g = g.masks ∧
      (outputs s).length = hd.tsx.outputs.length)
  batchesOk : ∀ x ∈ g.batches, (∃ rnd, env.bpProve x.2.1 x.2.2 rnd = some x.1) ∨
    env.bpVerify x.1 x.2.1 x.2.2 = true
  hashing : b.state.s.hashing = true →
    b.tx = some { version := 2, unlockTime := hd.tsx.unlockTime, extra := hd.extra } ∧
    b.prefixHasher = some (prefixBytes hd s) ∧
    b.addPub = g.addPub ∧
    ∃ simple, b.fullHasher = some ⟨simple, if outputs s = [] then 2 else 4, [],
      some ((g.batches.map (·.1.hashed)).flatten),
      some ([hd.ty] ++ Varint.dumpNat hd.tsx.fee ++ ((outputs s).map (·.ack.ecdh)).flatten)⟩
  addKeys : b.needAdd = true → g.addPub.length = (outputs s).length
  hashed : b.state.s.hashing = false → b.fullHasher = none ∧
    b.prefixHash = some (prefixHashOf env hd s g) ∧
    b.fullMessage = some (getPreMlsagHash env.keccak (rctOf env hd s g (prefixHashOf env hd s g)))
  preMasks : b.isDetMask = false → b.state.s.masksSet = true → ∃ pre,
    computeMasksAux env b.keyEnc ((inputs s).map (·.rnd.alpha)).sum b.outputCount b.outputCount 0 0 =
      some (pre, ((inputs s).map (·.rnd.alpha)).sum) ∧ g.masks = pre.take (outputs s).length ∧
    ((outputs s).length < b.outputCount → b.outputLastMask = pre.getLast?)
  signLen : g.dec.length = (signs s).length ∧ g.used.length = (signs s).length
  signsOk : ∀ i r d u, (signs s)[i]? = some r → g.dec[i]? = some d → g.used[i]? = some u →
    SignOk env b i r d u
  alphaSum : b.sumpouts + g.dec.sum = g.used.sum + ((inputs s).map (·.rnd.alpha)).sum
  signed : b.state.s = .SIGNATURE_DONE → b.sumpouts = b.sumout
  balance : b.state.s.hashing = false → b.sumIn = b.sumOut + b.fee
  uploaded : (∃ e, s.getLast? = some e ∧ e.isProofUpload = true) → b.procOff = true
  flushed : b.state.s.hashing = true → outputs s ≠ [] →
    (b.procOff = true ∨ (b.rsigOffload && b.isDetMask) = false) →
    lastInBatch b.rsigGrp b.outIdx = some true →
      b.outputAmounts = none ∨ (b.outputAmounts = some [] ∧ b.outputMasks = some [])
  closing : b.state.s.hashing = false → ∃ e ∈ s, ∃ x p fee ty full, e.msg = .allOutSet ∧
    e.resp = .allOutAck x p fee ty full ∧ b.fullMessage = some full

end Verif.Signer
