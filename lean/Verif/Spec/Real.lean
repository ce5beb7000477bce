import Verif.Model.Real
import Verif.Spec.Agent
import Verif.Spec.Rings

/-!
What the network checks of a transaction with ring signatures and range proofs, stated on bytes with the verifiers of the code, and what is assumed of
the parts that stay open.
-/

namespace Verif.Real
open Verif Ed Edwards Signer Agent

/-- Random scalars of the curve. -/
def Scalars (l' : List Int) (n : Nat) : Prop := l'.length = n ∧ ∀ x ∈ l', 0 ≤ x ∧ x < l

/-- The open parts work as intended: digests of 32 bytes, none of which is zero modulo `l`; the cipher can be undone; the self checks of the messages
pass; random scalars are scalars; the wallet's keys are not zero. -/
structure Outside.Ok (o : Outside) : Prop where
  hashLen : ∀ b, (o.hash b).length = 32
  hashNonzero : ∀ b, Key.hs o.hash b ≠ 0
  openSeal : ∀ k m n, o.decPack k (o.encPack k m n) = some m
  msgOk : ∀ m, m ≠ .malformed → o.msgOk m = true
  respOk : ∀ r, o.respOk r = true
  view : o.view ≠ 0
  spend : o.spend ≠ 0
  bpRand : ∀ r i, 0 ≤ (o.bpRand r).sL i ∧ 0 ≤ (o.bpRand r).sR i
  mgRand : ∀ r n, Scalars (o.mgRand r n).1 2 ∧ (o.mgRand r n).2.length = n ∧ ∀ col ∈ (o.mgRand r n).2, Scalars col 2

/-- The ring signature of an input is accepted: it is read from its bytes, the key image is that of the input, and the commitments are shifted by the
pseudo output. -/
def SignatureOk (H : Bytes → Bytes) (msg : Bytes) (ring : List RingMember) (vin : Vin) (pseudoOut sig : Bytes) : Prop :=
  ∃ I C m mg, decodePoint vin.ki = some I ∧ decodePoint pseudoOut = some C ∧ Wire.parseMg sig = some m ∧ Wire.decodeMg m [I] = some mg ∧
    Sig.verMgSimple H msg mg (ring.map member) C = some true

/-- The range proof covers these commitments: with their eighths as values, the verifier accepts it whatever weights it draws. -/
def ProofOk (H : Bytes → Bytes) (p : Verif.Bp) (commitments : List Bytes) : Prop :=
  commitments ≠ [] ∧ commitments.length ≤ 16 ∧ ∃ V, commitments.mapM (fun c => Bp.scalarmultKey c Bp.inv8) = some V ∧
    ∀ wy wz, Bp.verify H (withV V p) wy wz = some ()

/-- Sum of encoded points. -/
def sum : List Bytes → Option Ext
  | [] => some ident
  | b :: bs => match decodePoint b, sum bs with
    | some P, some Q => some (add P Q)
    | _, _ => none

/-- What comes in goes out: the pseudo outputs add up to the outputs and the fee. -/
def BalanceOk (pseudoOuts outPk : List Bytes) (fee : Nat) : Prop :=
  ∃ P Q, sum pseudoOuts = some P ∧ sum outPk = some Q ∧ pointEqual P (add Q (Key.genC 0 fee)) = true

/-- The network accepts the transaction, given the ring of each input: every input has a signature over the hash of this very transaction, the
range proofs cover the outputs in order, and the sums agree. -/
structure Accepted (H : Bytes → Bytes) (tx : Tx) (rings : List (List RingMember)) : Prop where
  inputs : tx.vin.length = rings.length ∧ tx.pseudoOuts.length = rings.length ∧ tx.mgs.length = rings.length
  offsets : tx.vin.map (·.offsets) = rings.map fun r => Offsets.toRelative (r.map fun m => (m.idx : Int))
  message : tx.rv.message = H (TxPrefix.bytes ⟨2, tx.unlockTime, tx.vin.map fun v => [2] ++ Wire.serTxin v.amount v.ki v.offsets,
    tx.vout.map dumpVout, tx.extra⟩)
  signed : ∀ (i : Nat) ring vin pseudo sig, rings[i]? = some ring → tx.vin[i]? = some vin → tx.pseudoOuts[i]? = some pseudo → tx.mgs[i]? = some sig →
    SignatureOk H (getPreMlsagHash H tx.rv) ring vin pseudo sig
  outputs : tx.vout.length = tx.rv.outPk.length ∧ tx.rv.ecdhInfo.length = tx.rv.outPk.length
  proofs : ∃ groups : List (List Bytes), groups.flatten = tx.rv.outPk ∧ List.Forall₂ (ProofOk H) tx.rv.bulletproofs groups
  /-- no output is spent twice: the key images are points of the subgroup and strictly descend -/
  images : (∀ v ∈ tx.vin, ∃ p, ptDec v.ki = some p) ∧ (tx.vin.map (·.ki)).Pairwise fun a b => b < a
  balance : BalanceOk tx.pseudoOuts tx.rv.outPk tx.rv.txnFee

/-- A source that the wallet can spend: a ring of at least two members that are points, the wallet's output at the real place. -/
structure Spendable (o : Outside) (table : SubTable) (src : Src) : Prop where
  mine : ∃ x ki, Owns (env o) table src x ki
  size : 2 ≤ src.outputs.length
  points : ∀ m ∈ src.outputs, Sig.decodable (member m) = true

/-- The sources are different outputs: they have different key images. -/
def Distinct (o : Outside) (d : TxData) : Prop := d.sources.Pairwise fun s s' =>
  ∀ x ki x' ki', Owns (env o) (tableOf (env o) d) s x ki → Owns (env o) (tableOf (env o) d) s' x' ki' → ki ≠ ki'

/-- A request that should be signed. -/
structure Request (o : Outside) (cfg : Config) (d : TxData) : Prop where
  version : 1 ≤ cfg.clientVersion
  hf : 9 ≤ cfg.hf
  useBp : d.useBp = true
  sources : d.sources ≠ []
  dsts : d.dsts ≠ []
  fewSources : d.sources.length ≤ 2 ^ 42
  fewDsts : d.dsts.length ≤ 2 ^ 42
  enough : (d.dsts.map (·.amount)).sum ≤ (d.sources.map (·.amount)).sum
  amounts : ∀ dst ∈ d.dsts, dst.amount < 2 ^ 64
  mine : ∀ src ∈ d.sources, Spendable o (tableOf (env o) d) src
  distinct : Distinct o d
  addrs : ∀ dst ∈ d.dsts, (∃ p, ptDec dst.addr.spend = some p) ∧ (∃ p, ptDec dst.addr.view = some p) ∧ dst.addr.view ≠ nullKey
  change : ChangeOk (env o) d
  paymentId : PaymentIdOk d

/-! ## Receiving -/

/-- The wallet's address with index `(i, j)`. -/
def address (o : Outside) (i j : Nat) : Option Addr :=
  (Key.subAddressKeys o.hash (Bp.num o.view) (scalarmultB (Bp.num o.spend)) i j).map fun k => ⟨encodePoint k.1, encodePoint k.2⟩

/-- The public keys in the extra field of a transaction: that of the transaction and those of the outputs, if any. -/
def Published (tx : Tx) (key : Bytes) (adds : List Bytes) : Prop :=
  (adds = [] ∨ adds.length = tx.vout.length) ∧ ∃ nonce, tx.extra = nonce ++ [1] ++ key ++
    (if adds = [] then [] else [4] ++ Varint.dumpNat adds.length ++ adds.flatten)

/-- The scalar that a wallet computes from one of these keys for output `n`. -/
def SharedScalar (o : Outside) (key : Bytes) (adds : List Bytes) (n : Nat) (k : Int) : Prop :=
  ∃ R P D, (R = key ∨ adds[n]? = some R) ∧ decodePoint R = some P ∧ Key.keyDerivation P (Bp.num o.view) = some D ∧
    Key.derivationToScalar o.hash D n = some k

/-- The wallet reads amount and mask of output `n` from the transaction with the scalar `k`, and they open its commitment. -/
def Reads (H : Bytes → Bytes) (cfg : Config) (tx : Tx) (n : Nat) (k amount mask : Int) : Prop :=
  ∃ b c e, tx.rv.ecdhInfo[n]? = some b ∧ tx.rv.outPk[n]? = some c ∧ Key.ecdhParse b (cfg.hf == 9) = some e ∧
    Key.ecdhDecodeSimple H e c k (decide (10 ≤ cfg.hf)) = some (amount, mask)

/-- A source made of output `n` of a transaction: output and commitment stand in the real place of the ring. -/
structure MadeOf (tx : Tx) (key : Bytes) (adds : List Bytes) (n : Nat) (amount mask : Int) (src : Src) : Prop where
  real : ∃ m v, src.outputs[src.realOutput]? = some m ∧ tx.vout[n]? = some v ∧ m.dest = v.key ∧ tx.rv.outPk[n]? = some m.commitment
  index : src.inTxIndex = n
  amount : (src.amount : Int) = amount
  mask : src.mask = encodeInt mask
  txKey : src.txKey = key
  addKeys : src.addKeys = adds

end Verif.Real
