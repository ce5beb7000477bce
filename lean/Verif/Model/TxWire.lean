import Verif.Model.Agent
import Verif.Model.BpWire
import Verif.Model.Sig

/-!
The parts of the transaction wire format that cross between device and host: ring signatures (protocol/tsx_sign_builder.py 1645-1667, recoded by
xmr/sub/recode.py 27-46, read at agent/agent_lite.py 546), inputs (agent_lite.py 409, 451, 526) and outputs (644). The field layouts are those
of the messages `MgSig`, `TxInV` with `TxinToKey`, and `TxOut` of the external library `monero_serialize`.
-/

namespace Verif.Wire
open Verif Ed Sig Agent

/-- One column of `ss`: the number of scalars, then the scalars (recode.py 43-45). -/
def dumpCol (col : List Int) : Bytes := Varint.dumpNat col.length ++ (col.map encodeInt).flatten

/-- `dump_msg(recode_msg([mg])[0])`: `ss` and `cc`; the key images `II` are not part of the message. -/
def dumpMg (mg : MgSig) : Bytes := Varint.dumpNat mg.ss.length ++ (mg.ss.map dumpCol).flatten ++ encodeInt mg.cc

/-- `n` columns. -/
def rdCols : Nat → Bytes → Option (List (List Bytes) × Bytes)
  | 0, b => some ([], b)
  | n + 1, b => do
    let (c, b) ← Bp.rdVec b
    let (cs, b) ← rdCols n b
    some (c :: cs, b)

/-- `parse_msg(signature, MgSig())`, agent_lite.py 546: encoded scalars. -/
def parseMg (b : Bytes) : Option (List (List Bytes) × Bytes) := do
  let (n, b) ← Varint.load b
  let (cs, b) ← rdCols n b
  let (cc, _) ← Bp.rdKey b
  some (cs, cc)

/-- `recode_msg(encode=False)`, recode.py 27-46, with the key images of the inputs filled in (they are not in the message). -/
def decodeMg (m : List (List Bytes) × Bytes) (II : List Ext) : Option MgSig := do
  let ss ← m.1.mapM fun col => col.mapM decodeScalar
  let cc ← decodeScalar m.2
  some ⟨ss, cc, II⟩

/-- `TxinToKey`: amount, offsets, key image. -/
def serTxin (amount : Nat) (ki : Bytes) (offsets : List Int) : Bytes :=
  Varint.dumpNat amount ++ Varint.dumpNat offsets.length ++ (offsets.map fun o => Varint.dumpNat o.toNat).flatten ++ ki

/-- `n` variable-length integers. -/
def rdInts : Nat → Bytes → Option (List Int × Bytes)
  | 0, b => some ([], b)
  | n + 1, b => do
    let (x, b) ← Varint.load b
    let (xs, b) ← rdInts n b
    some ((x : Int) :: xs, b)

/-- `parse_msg(t_res.vini, TxInV())`, agent_lite.py 409: the tag of the variant, then `TxinToKey`. -/
def parseVin : Bytes → Option Vin
  | 2 :: b => do
    let (a, b) ← Varint.load b
    let (n, b) ← Varint.load b
    let (os, b) ← rdInts n b
    let (ki, _) ← Bp.rdKey b
    some ⟨a, ki, os⟩
  | _ => none

/-- `parse_msg(t_res.tx_out, TxOut())`, agent_lite.py 644: amount, tag of the variant, key. -/
def parseVout (b : Bytes) : Option Vout := do
  let (a, b) ← Varint.load b
  match b with
  | 2 :: b => (Bp.rdKey b).map fun r => ⟨a, r.1⟩
  | _ => none

def codec : Codec := ⟨parseVin, parseVout⟩

end Verif.Wire
