import Verif.Model.Agent

/-!
What an honest signing request is, what the external parts have to satisfy, and what a correctly signed transaction is.
-/

namespace Verif.Agent
open Verif Verif.Signer

variable {S P : Type} [CommRing S] [AddCommGroup P] [Module S P] [DecidableEq S] [DecidableEq P]

/-- External parts work as intended: encodings and ciphers can be undone, hashes have their length, range proofs of up to 16 amounts below 2^64 can
be made and verify. -/
structure Lawful (env : Env S P) (cdc : Codec) : Prop where
  msgOk : ∀ m, m ≠ .malformed → env.msgOk m = true
  respOk : ∀ r, env.respOk r = true
  keyLen : ∀ b, (env.keccak2 b).length = 32
  hashLen : ∀ b, (env.keccak b).length = 32
  ptLen : ∀ p, (env.ptEnc p).length = 32
  ptRound : ∀ p, env.ptDec (env.ptEnc p) = some p
  scRound : ∀ s, env.scDec (env.scEnc s) = s
  scLen : ∀ s, env.scEnc s ≠ []
  openSeal : ∀ k m n, env.decPack k (env.encPack k m n) = some m
  vin : ∀ v : Vin, v.ki.length = 32 → (∀ o ∈ v.offsets, 0 ≤ o) → cdc.parseVin (dumpVin env v) = some v
  vout : ∀ k : Bytes, k.length = 32 → cdc.parseVout ([0, 2] ++ k) = some ⟨0, k⟩
  ecdh : ∀ m a k v2, a < 2 ^ 64 → ∃ e, env.ecdh m a k v2 = some e ∧ e.length = if v2 then 8 else 64
  bp : ∀ (l : List (Nat × S)) r, l ≠ [] → l.length ≤ 16 → (∀ x ∈ l, x.1 < 2 ^ 64) → ∃ proof bytes,
    env.bpProve (l.map (·.1)) (l.map (·.2)) r = some proof ∧ env.bpVerify proof (l.map (·.1)) (l.map (·.2)) = true ∧
    env.bpDump proof = some bytes ∧ env.bpParse bytes = some proof ∧ bytes ≠ []

/-- The subaddresses in use. -/
def tableOf (env : Env S P) (d : TxData) : SubTable := if d.indices.isEmpty then [] else env.subaddresses d.account d.indices

/-- The wallet owns the source: it knows the secret `x` of the one-time key, with key image `ki`, and the commitment opens to the amount. -/
structure Owns (env : Env S P) (table : SubTable) (src : Src) (x : S) (ki : P) : Prop where
  real : ∃ real txKey addKeys, src.outputs[src.realOutput]? = some real ∧ env.ptDec real.dest = some (x • env.G) ∧
    env.ptDec real.commitment = some (genC env (env.scDec src.mask) src.amount) ∧ env.ptDec src.txKey = some txKey ∧
    src.addKeys.mapM env.ptDec = some addKeys ∧ env.keyImage table (x • env.G) txKey addKeys src.inTxIndex = some (x, ki)

/-- The wallet can spend the source: it owns it and the ring signature prover succeeds. -/
structure Mine (env : Env S P) (table : SubTable) (src : Src) (x : S) (ki : P) : Prop extends Owns env table src x ki where
  prover : ∀ msg mask r, (env.mlsag msg src.outputs x (env.scDec src.mask) mask (genC env mask src.amount) src.realOutput r).isSome

/-- Amounts that go to someone else. -/
def Pays (d : TxData) (dst : Dst) : Prop := dst ∈ d.dsts ∧ dst.amount ≠ 0 ∧ dst.addr ≠ d.change.addr

/-- Payment ids that can be sent: a long one; none at all if somebody is paid; a short one if exactly one address is paid. -/
def PaymentIdOk (d : TxData) : Prop :=
  d.paymentId.length = 32 ∨ (d.paymentId = [] ∧ ∃ dst, Pays d dst) ∨
  (d.paymentId.length = 8 ∧ ∃ a, (∃ dst, Pays d dst) ∧ ∀ dst, Pays d dst → dst.addr = a)

/-- The change goes to the wallet's own address, or there is none (amount zero, two outputs). -/
def ChangeOk (env : Env S P) (d : TxData) : Prop :=
  (d.change.amount = 0 ∧ d.dsts.length = 2) ∨
  ((∃ dst ∈ d.dsts, dst.addr = d.change.addr) ∧ env.primaryAddr d.account = d.change.addr)

/-- A request that should be signed. -/
structure Honest (env : Env S P) (cfg : Config) (d : TxData) : Prop where
  version : 1 ≤ cfg.clientVersion
  hf : 9 ≤ cfg.hf
  useBp : d.useBp = true
  sources : d.sources ≠ []
  dsts : d.dsts ≠ []
  fewSources : d.sources.length ≤ 2 ^ 42
  fewDsts : d.dsts.length ≤ 2 ^ 42
  enough : (d.dsts.map (·.amount)).sum ≤ (d.sources.map (·.amount)).sum
  amounts : ∀ dst ∈ d.dsts, dst.amount < 2 ^ 64
  mine : ∀ src ∈ d.sources, ∃ x ki, Mine env (tableOf env d) src x ki
  addrs : ∀ dst ∈ d.dsts, (∃ p, env.ptDec dst.addr.spend = some p) ∧ (∃ p, env.ptDec dst.addr.view = some p) ∧ dst.addr.view ≠ nullKey
  change : ChangeOk env d
  paymentId : PaymentIdOk d

/-- The user confirms when asked and no step is aborted on the device. -/
structure Agrees (rnd : Nat → Rand S) (start : Nat) : Prop where
  confirm : (rnd start).confirm = true
  ui : ∀ k, (rnd k).uiOk = true

/-- A spent source: its secret, key image and the mask of its pseudo output. -/
structure Spent (S P : Type) where
  src : Src
  x : S
  ki : P
  mask : S

/-- An output: destination, one-time key, mask and encrypted amount. -/
structure Made (S P : Type) where
  dst : Dst
  key : P
  mask : S
  ecdh : Bytes

/-- The payment id part of the extra field: nothing, a short id encrypted (eight bytes; also sent when no id was asked for), or the long id. -/
def NonceOk (d : TxData) (nonce : Bytes) : Prop :=
  (d.paymentId = [] ∧ nonce = []) ∨ ((d.paymentId = [] ∨ d.paymentId.length = 8) ∧ ∃ hidden, hidden.length = 8 ∧ nonce = [2, 9, 1] ++ hidden) ∨
  (d.paymentId.length = 32 ∧ nonce = [2, 33, 0] ++ d.paymentId)

/-- A correctly signed transaction for `d`, spending `ins`, creating `outs`, whose range proofs cover `groups` of outputs; `nonce`, `txKey` and
`addKeys` are the payment id field and the public keys in its extra field. -/
structure TxOk (env : Env S P) (cfg : Config) (d : TxData) (tx : Tx) (ins : List (Spent S P)) (outs : List (Made S P))
    (groups : List (Bp × List (Made S P))) (nonce : Bytes) (txKey : P) (addKeys : List P) : Prop where
  /-- every source is spent once -/
  sources : (ins.map (·.src)).Perm d.sources
  mine : ∀ i ∈ ins, Owns env (tableOf env d) i.src i.x i.ki
  vin : tx.vin = ins.map fun i =>
    ⟨if i.src.rct then 0 else i.src.amount, env.ptEnc i.ki, Offsets.toRelative (i.src.outputs.map fun m => (m.idx : Int))⟩
  /-- key images descend -/
  sorted : (tx.vin.map (·.ki)).Pairwise fun a b => b ≤ a
  /-- every destination is paid, in order -/
  dests : outs.map (·.dst) = d.dsts
  vout : tx.vout = outs.map fun o => ⟨0, env.ptEnc o.key⟩
  commitments : tx.rv.outPk = outs.map fun o => env.ptEnc (genC env o.mask o.dst.amount)
  encrypted : tx.rv.ecdhInfo = outs.map (·.ecdh)
  time : tx.unlockTime = d.unlockTime
  extra : tx.extra = nonce ++ [1] ++ env.ptEnc txKey ++
    (if addKeys = [] then [] else [4] ++ Varint.dumpNat addKeys.length ++ (addKeys.map env.ptEnc).flatten)
  payment : NonceOk d nonce
  /-- one additional key for every output, or none -/
  additional : addKeys = [] ∨ addKeys.length = outs.length
  type : tx.rv.type = if 10 ≤ cfg.hf then 4 else 3
  /-- what comes in goes out -/
  fee : tx.rv.txnFee + (d.dsts.map (·.amount)).sum = (d.sources.map (·.amount)).sum
  pseudo : tx.pseudoOuts = ins.map fun i => env.ptEnc (genC env i.mask i.src.amount)
  balance : (ins.map fun i => genC env i.mask i.src.amount).sum =
    (outs.map fun o => genC env o.mask o.dst.amount).sum + (tx.rv.txnFee : S) • env.H
  /-- the message is the hash of the prefix of this transaction -/
  message : tx.rv.message = env.keccak (TxPrefix.bytes ⟨2, tx.unlockTime, tx.vin.map (dumpVin env), tx.vout.map dumpVout, tx.extra⟩)
  /-- every ring signature is over the message of this transaction -/
  signed : List.Forall₂ (fun i sig => ∃ r, env.mlsag (getPreMlsagHash env.keccak tx.rv) i.src.outputs i.x (env.scDec i.src.mask) i.mask
    (genC env i.mask i.src.amount) i.src.realOutput r = some sig) ins tx.mgs
  /-- the range proofs cover all outputs -/
  proofs : tx.rv.bulletproofs = groups.map (·.1)
  covered : outs = (groups.map (·.2)).flatten
  valid : ∀ g ∈ groups, 0 < g.2.length ∧ g.2.length ≤ 16 ∧ env.bpVerify g.1 (g.2.map (·.dst.amount)) (g.2.map (·.mask)) = true

/-- The owner of an address: the spend key `D` and the secret view key `v`; for a subaddress the view key is `v·D`. -/
structure Owner (env : Env S P) (dst : Dst) (D : P) (v : S) : Prop where
  spend : env.ptDec dst.addr.spend = some D
  view : env.ptDec dst.addr.view = some (if dst.isSub then v • D else v • env.G)

/-- What the owner computes from a public key in the extra field, for output `j`. -/
def shared (env : Env S P) (v : S) (R : P) (j : Nat) : S := env.hashToScalar (env.ptEnc ((8 : S) • v • R) ++ Varint.dumpNat j)

/-- The owner recognises output `o` at place `j` with the public key `R`: the one-time key, the mask and the amount follow from the shared secret. -/
structure Finds (env : Env S P) (cfg : Config) (D : P) (v : S) (R : P) (j : Nat) (o : Made S P) : Prop where
  key : o.key = shared env v R j • env.G + D
  mask : o.mask = env.hashToScalar (ascii "commitment_mask" ++ env.scEnc (shared env v R j))
  amount : env.ecdh o.mask o.dst.amount (env.scEnc (shared env v R j)) (decide (10 ≤ cfg.hf)) = some o.ecdh

/-- The request fits the messages: at most 2^42 sources and destinations, amounts of 64 bits; client version 1, hard fork 9 or later. -/
structure Fits (cfg : Config) (d : TxData) : Prop where
  version : 1 ≤ cfg.clientVersion
  hf : 9 ≤ cfg.hf
  fewSources : d.sources.length ≤ 2 ^ 42
  fewDsts : d.dsts.length ≤ 2 ^ 42
  amounts : ∀ dst ∈ d.dsts, dst.amount < 2 ^ 64

end Verif.Agent
