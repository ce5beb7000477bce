import Verif.Model.KiSync
import Verif.Model.Real

/-!
Key image import with the modelled cryptography: what the host sends per received output (`xmr/key_image.py`, `xmr/monero.py`), and the key image
export of the device (`xmr/key_image.py`, `xmr/ring_ct.py`) in the place of the parameters of `KiSync.Env`.
-/

namespace Verif.KiSync
open Verif Ed Key

/-- What the wallet keeps of a received output (`xmrtypes.TransferDetails`): extra field and output keys of the transaction, place of the output,
index of the address. -/
structure Transfer where
  extra : Bytes
  vout : List Bytes
  index : Nat
  major : Nat
  minor : Nat

/-- tsx_helper.py 26-40 `find_tx_extra_field_by_type`: the fields it enumerates for `TxExtraPubKey`. -/
def pubKeys (fs : List Field) : List Bytes := fs.filterMap fun f => match f with | .pubKey k => some k | _ => none

/-- The same for `TxExtraAdditionalPubKeys`. -/
def additionals (fs : List Field) : List (List Bytes) := fs.filterMap fun f => match f with | .additional ks => some ks | _ => none

/-- monero.py 394-417 `get_tx_pub_key_from_received_outs`: no key or two keys raise. -/
def txPubKey (fs : List Field) : Option Bytes := match pubKeys fs with | [k] => some k | _ => none

/-- key_image.py 26-45, the body of `yield_key_image_data`. -/
def transferData (t : Transfer) : Option Td :=
  if t.vout = [] then none
  else match parseExtra t.extra.length t.extra with
    | none => none
    | some fs => match txPubKey fs, t.vout[t.index]? with
      | some key, some out => some ⟨out, key, ((additionals fs)[0]?).getD [], t.index⟩
      | _, _ => none

/-- key_image.py 17-45 `yield_key_image_data`. -/
def keyImageData (ts : List Transfer) : Option (List Td) := ts.mapM transferData

/-- key_image.py 73-75, 86-93: the indices that `generate_commitment` sends, a set of minor indices per account. The order within a set is not
determined. -/
structure SubIndices (ts : List Transfer) (subs : List (Nat × List Nat)) : Prop where
  accounts : (subs.map (·.1)).Nodup
  sets : ∀ e ∈ subs, e.2 ≠ [] ∧ e.2.Nodup
  mem : ∀ i j, (∃ e ∈ subs, e.1 = i ∧ j ∈ e.2) ↔ ∃ t ∈ ts, t.major = i ∧ t.minor = j

variable (o : Real.Outside)

/-- key_image_sync.py 53-57: the table of sub-addresses. -/
def subTable : List (Nat × List Nat) → Table → Option Table
  | [], t => some t
  | e :: es, t => match computeSubaddresses o.hash (Bp.num o.view) (scalarmultB (Bp.num o.spend)) e.1 e.2 t with
    | none => none
    | some t => subTable es t

/-- key_image.py 98-124 `export_key_image` and key_image_sync.py 79-85: key image and signature in 96 bytes. `draw` is the random scalar of the
signature and the pair drawn for the (unused) decoy place, per output. -/
def exportKi (draw : Td → Int × Int × Int) (subs : List (Nat × List Nat)) (td : Td) : Option Bytes :=
  match subTable o subs [], decodePoint td.outKey, decodePoint td.txPub, td.addKeys.mapM decodePoint with
  | some t, some out, some tx, some adds =>
    match Sig.exportKeyImage o.hash (Bp.num o.view) (Bp.num o.spend) t out tx adds td.idx true true (draw td).1 [(draw td).2] with
    | some (ki, (c, r) :: _) => some (encodePoint ki ++ encodeInt c ++ encodeInt r)
    | _ => none
  | _, _, _, _ => none

/-- The device. The cipher stays a parameter. -/
def device' (draw : Td → Int × Int × Int) (encrypt : Bytes → Bytes → Bytes → Bytes) (decrypt : Bytes → Bytes → Bytes → Option Bytes) : Env where
  keccak := o.hash
  exportKi := exportKi o draw
  encrypt := encrypt
  decrypt := decrypt
  credsOk := true
  subsOk subs := (subTable o subs []).isSome

/-- agent_lite.py 810-818: key image and the two parts of the signature. -/
def splitPlain (plain : Bytes) : Bytes × Bytes × Bytes := (plain.take 32, (plain.drop 32).take 32, plain.drop 64)

/-- agent_lite.py 777-820 `import_outputs`, for received outputs; `subs` and `chunk` stand for the choices of `generate_commitment` and the result of
`common.chunk`. -/
def importTransfers (env : Env) (ts : List Transfer) (subs : List (Nat × List Nat)) (chunk : List Td → List (List Td)) (rnd : Nat → Rand)
    (d : Option Sync) : Option (List (Bytes × Bytes × Bytes)) :=
  (keyImageData ts).bind fun tds => (importOutputs env tds (chunk tds) subs rnd d).map fun ps => ps.map splitPlain

end Verif.KiSync
