import Verif.Model.TxWire
import Verif.Lemmas.BpVerify

/-!
The external parts of the signer (`Signer.Env`), filled with the modelled curve, keys, ring signatures, range proofs and wire formats. What is left
open is in `Outside`.

Simplification: the signer's model computes with points in a module over the scalars, so points here are those of the subgroup of order `l`, and a byte
string that encodes a point outside the subgroup is refused; the code accepts it. Ring members are not restricted, they stay bytes.
-/

namespace Verif.Real
open Verif Ed Edwards Signer

noncomputable instance : DecidableEq Sub := Classical.decEq _

/-- What stays open: the hash, the message authentication code, the cipher, protobuf, the wallet's keys, and where the proofs draw their random
numbers from. -/
structure Outside where
  hash : Bytes → Bytes
  mac : Bytes → Bytes → Bytes
  encPack : Bytes → Bytes → Bytes → Bytes
  decPack : Bytes → Bytes → Option Bytes
  pbSrc : Src → Bytes
  pbDst : Dst → Bytes
  pbTsx : TsxData → Bytes
  msgOk : Msg → Bool
  respOk : Resp → Bool
  view : Fl
  spend : Fl
  /-- random values of a range proof -/
  bpRand : Bytes → Bp.Rand
  /-- random values of a ring signature over a ring of this size: those of the signer's column, those of all columns -/
  mgRand : Bytes → Nat → List Int × List (List Int)

/-- The point of the subgroup that a point in extended coordinates stands for. -/
noncomputable def toSub (P : Ext) : Option Sub := open Classical in if h : ∃ p : Sub, Rep P (p : Point) then some h.choose else none

/-- `crypto.decodepoint`, ec_py.py 372-373, for points of the subgroup. -/
noncomputable def ptDec (b : Bytes) : Option Sub := (decodePoint b).bind toSub

/-- A ring member without its global index. -/
def member (m : RingMember) : Sig.CtPub := ⟨m.dest, m.commitment⟩

/-- The serialised parts of a range proof, and a range proof with given commitments. -/
def strip (p : Bp.Proof) : Verif.Bp := ⟨p.A, p.S, p.T1, p.T2, p.taux, p.mu, p.L, p.R, p.a, p.b, p.t⟩
def withV (V : List Bytes) (p : Verif.Bp) : Bp.Proof := ⟨V, p.A, p.S, p.T1, p.T2, p.taux, p.mu, p.L, p.R, p.a, p.b, p.t⟩

variable (o : Outside)

/-- tsx_sign_builder.py 1622-1666: signature, self check, serialisation. -/
noncomputable def mlsag (msg : Bytes) (ring : List RingMember) (x mask alpha : Fl) (pOut : Sub) (idx : Nat) (r : Bytes) : Option Bytes :=
  let rnd := o.mgRand r ring.length
  match Sig.proveMgSimple o.hash msg (ring.map member) ⟨Bp.num x, Bp.num mask⟩ (Bp.num alpha) (canon (pOut : Point)) idx rnd.1 rnd.2 with
  | none => none
  | some (mg, _) =>
    match Sig.verMgSimple o.hash msg mg (ring.map member) (canon (pOut : Point)) with
    | some true => some (Wire.dumpMg mg)
    | _ => none

/-- monero.py 186-229. -/
noncomputable def keyImage (t : SubTable) (out tx : Sub) (adds : List Sub) (i : Nat) : Option (Fl × Sub) :=
  (Key.kiHelper o.hash (Bp.num o.view) (Bp.num o.spend) t (canon (out : Point)) (canon (tx : Point)) (adds.map fun p : Sub => canon (p : Point)) i).bind
    fun r => (toSub r.2.1).map fun I => ((r.1 : Fl), I)

/-- monero.py 368-391 into an empty table (an exception leaves the table empty here: nothing can be spent then). -/
noncomputable def subaddresses (account : Nat) (indices : List Nat) : SubTable :=
  (Key.computeSubaddresses o.hash (Bp.num o.view) (scalarmultB (Bp.num o.spend)) account indices []).getD []

/-- tsx_sign_builder.py 180-193. -/
noncomputable def primaryAddr (account : Nat) : Addr :=
  match Key.subAddressKeys o.hash (Bp.num o.view) (scalarmultB (Bp.num o.spend)) account 0 with
  | some (D, C) => ⟨encodePoint D, encodePoint C⟩
  | none => ⟨[], []⟩

/-- All parts. -/
noncomputable def env : Env Fl Sub where
  keccak := o.hash
  keccak2 b := o.hash (o.hash b)
  mac := o.mac
  encPack := o.encPack
  decPack := o.decPack
  scEnc s := encodeInt (Bp.num s)
  scDec b := ((decodeScalar b).getD 0 : Int)
  ptEnc := Bp.enc
  ptDec := ptDec
  hashToScalar d := (Key.hs o.hash d : Int)
  G := baseS
  H := Bp.hS
  pbSrc := o.pbSrc
  pbDst := o.pbDst
  pbTsx := o.pbTsx
  serTxin := Wire.serTxin
  keyImage := keyImage o
  subaddresses := subaddresses o
  primaryAddr := primaryAddr o
  ecdh mask amount key v2 := (Key.ecdhEncode o.hash (Bp.num mask) amount key v2).map fun e => Key.ecdhSerialize e v2
  bpProve amounts masks r := (Bp.proveRangeBp o.hash (o.bpRand r) amounts (masks.map Bp.num)).map strip
  bpDump p := Bp.dumpRsigBp (withV [] p)
  bpParse b := (Bp.parseRsigBp b).map fun r => strip r.1
  bpVerify p amounts masks := open Classical in decide (∀ wy wz, Bp.verifyBp o.hash (withV [] p) amounts (masks.map Bp.num) wy wz = some ())
  mlsag := mlsag o
  viewPriv := o.view
  spendPriv := o.spend
  msgOk := o.msgOk
  respOk := o.respOk

end Verif.Real
