import Verif.Model.Key

/-!
monero_glue/xmr/sub/tsx_helper.py 26-40, 87-93, 179-254: editing of the extra field of a transaction. `none` is an exception.
-/

namespace Verif.ExtraEdit
open Verif Ed Key

/-- The classes of fields: `TxExtraPubKey`, `TxExtraNonce`, `TxExtraAdditionalPubKeys`. -/
inductive Kind where
  | pubKey
  | nonce
  | additional
deriving DecidableEq

/-- `isinstance(field, mtype)`. -/
def isKind : Kind → Field → Bool
  | .pubKey, .pubKey _ => true
  | .nonce, .nonce _ => true
  | .additional, .additional _ => true
  | _, _ => false

/-- One field as the serialization library writes the variant `TxExtraField`. -/
def writeField : Field → Bytes
  | .pubKey k => 1 :: k
  | .nonce n => 2 :: (Varint.dumpNat n.length ++ n)
  | .additional ks => 4 :: (Varint.dumpNat ks.length ++ ks.flatten)

/-- tsx_helper.py 198-203: the loop of `remove_field_from_tx_extra`; the second argument is what has been written. -/
def removeLoop (kind : Kind) : Nat → Bytes → Bytes → Option Bytes
  | _, out, [] => some out
  | 0, _, _ :: _ => none
  | fuel + 1, out, b =>
    match readField b with
    | none => none
    | some (f, rest) => removeLoop kind fuel (if isKind kind f = true then out else out ++ writeField f) rest

/-- tsx_helper.py 183-203 `remove_field_from_tx_extra`. -/
def removeField (extra : Bytes) (kind : Kind) : Option Bytes := if extra.length = 0 then some [] else removeLoop kind extra.length [] extra

/-- tsx_helper.py 206-216 `add_extra_nonce_to_tx_extra`. -/
def addNonce (extra n : Bytes) : Option Bytes := if 255 < n.length then none else some (extra ++ ([2] ++ [UInt8.ofNat n.length] ++ n))

/-- tsx_helper.py 219-229 `add_tx_pub_key_to_extra`. -/
def addPubKey (extra : Bytes) (P : Ext) : Bytes := extra ++ (1 :: encodePoint P)

/-- tsx_helper.py 232-254 `add_additional_tx_pub_keys_to_extra`. -/
def addAdditional (extra : Bytes) (points : List Ext) (enc : Option (List Bytes)) : Bytes :=
  let ks := match enc with
    | some (k :: ks) => k :: ks
    | _ => points.map encodePoint
  extra ++ writeField (.additional ks)

/-- tsx_helper.py 34-40 `find_tx_extra_field_by_type`; the last argument is `cur_idx`. -/
def findLoop (kind : Kind) (idx : Nat) : List Field → Nat → Option Field
  | [], _ => none
  | x :: xs, cur => if isKind kind x = true then (if cur = idx then some x else findLoop kind idx xs (cur + 1)) else findLoop kind idx xs cur

/-- tsx_helper.py 26-40. -/
def findField (fs : List Field) (kind : Kind) (idx : Nat) : Option Field := findLoop kind idx fs 0

/-- tsx_helper.py 87-93 `set_payment_id_to_tx_extra_nonce`. -/
def setLong (pid : Bytes) : Bytes := 0 :: pid

/-- tsx_helper.py 179-180 `set_encrypted_payment_id_to_tx_extra_nonce`. -/
def setShort (pid : Bytes) : Bytes := 1 :: pid

/-- tsx_helper.py 52-58 `has_payment_id`. -/
def hasLong (n : Bytes) : Bool := n.length == 33 && n[0]? == some 0

/-- tsx_helper.py 43-49 `has_encrypted_payment_id`. -/
def hasShort (n : Bytes) : Bool := n.length == 9 && n[0]? == some 1

end Verif.ExtraEdit
