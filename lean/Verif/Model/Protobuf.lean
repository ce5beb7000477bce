import Verif.Model.Varint

/-!
Model of the message codec, `monero_glue/protobuf.py:108-352`.

A message class is a name with a list of fields in dictionary order (`get_fields`); a message is, per field, the list of its
values: `None` or a missing attribute is `[]`, a non-repeated value `v` is `[v]`, a repeated field is its list. Text is kept as its UTF-8
bytes; which byte strings are text is a parameter (`utf8`). Not modelled: memory exhaustion for huge length prefixes
(`bytearray(n)`), the special case of a bytes value given as list of parts (written as their concatenation, 330-333).
-/

namespace Verif.Pb
open Verif

inductive FType
  | uvarint | svarint | bool | bytes | unicode
  | msg (name : Nat)
deriving DecidableEq

/-- One entry of `get_fields()`: tag, type, `FLAG_REPEATED`. -/
structure Field where
  tag : Nat
  ty : FType
  rep : Bool
deriving DecidableEq

/-- Message classes by name. -/
abbrev Schema := Nat → List Field

inductive Value
  | uint (n : Int)
  | sint (n : Int)
  | bool (b : Bool)
  | bytes (b : Bytes)
  | str (utf8 : Bytes)
  | msg (slots : List (List Value))

/-- `WIRE_TYPE`, protobuf.py:108-129. -/
def FType.wire : FType → Nat
  | .uvarint | .svarint | .bool => 0
  | .bytes | .unicode | .msg _ => 2

/-- `fkey = (ftag << 3) | ftype.WIRE_TYPE`, protobuf.py:311. -/
def Field.key (f : Field) : Nat := (f.tag <<< 3) ||| f.ty.wire

def lenPrefixed (b : Bytes) : Bytes := Varint.dumpNat b.length ++ b

mutual
/-- One value, protobuf.py:320-352; a value of another type is an error. -/
def dumpValue (S : Schema) : FType → Value → Option Bytes
  | .uvarint, .uint n => Varint.dump n
  | .svarint, .sint n => Varint.dump (Varint.sintToUint n)
  | .bool, .bool b => Varint.dump (if b then 1 else 0)
  | .bytes, .bytes b => some (lenPrefixed b)
  | .unicode, .str b => some (lenPrefixed b)
  | .msg name, .msg slots => (dumpSlots S (S name) slots).map lenPrefixed
  | _, _ => none

/-- `for svalue in fvalue`, protobuf.py:317-318. -/
def dumpVals (S : Schema) : Field → List Value → Option Bytes
  | _, [] => some []
  | f, v :: vs =>
    match dumpValue S f.ty v, dumpVals S f vs with
    | some a, some b => some (Varint.dumpNat f.key ++ (a ++ b))
    | _, _ => none

/-- `for ftag in fields`, protobuf.py:304-317. -/
def dumpSlots (S : Schema) : List Field → List (List Value) → Option Bytes
  | _, [] => some []
  | [], _ :: _ => none
  | f :: fs, vs :: slots =>
    match dumpVals S f vs, dumpSlots S fs slots with
    | some a, some b => some (a ++ b)
    | _, _ => none
end

/-- `dump_message`, protobuf.py:299-352. -/
def dumpMessage (S : Schema) (name : Nat) (slots : List (List Value)) : Option Bytes :=
  dumpSlots S (S name) slots

/-- A stream reader: the bytes left in the stream and the smallest `limit` of the `LimitedReader`s around it
(213-224; every read is checked against all of them and reduces all of them), `none` without one. -/
structure Reader where
  bs : Bytes
  lim : Option Nat
deriving DecidableEq

namespace Reader

/-- Bytes that single-byte reads can reach. -/
def vis (r : Reader) : Bytes :=
  match r.lim with
  | none => r.bs
  | some l => r.bs.take l

/-- After `k` bytes were read. -/
def skip (r : Reader) (k : Nat) : Reader := ⟨r.bs.drop k, r.lim.map (· - k)⟩

/-- `load_uvarint(reader)`: one byte at a time; end of stream and exceeded limit are both `EOFError`. -/
def uvarint (r : Reader) : Option (Nat × Reader) :=
  match Varint.load r.vis with
  | some (v, rest) => some (v, r.skip (r.vis.length - rest.length))
  | none => none

/-- `buf = bytearray(n); reader.readinto(buf)`, protobuf.py:278-280: the limit is checked, the number of bytes read is not, so
bytes missing at the end of the stream stay zero. -/
def bytes (r : Reader) (n : Nat) : Option (Bytes × Reader) :=
  if (match r.lim with | none => false | some l => decide (l < n)) then none
  else some (r.bs.take n ++ List.replicate (n - r.bs.length) 0, r.skip n)

end Reader

/-- `setattr` / `append`, protobuf.py:290-294, for the field at position `i`. -/
def setSlot (slots : List (List Value)) (i : Nat) (rep : Bool) (v : Value) : List (List Value) :=
  slots.modify i fun l => if rep then l ++ [v] else [v]

/-- Limit inside a nested message of announced length `n`: `LimitedReader(reader, n)` around the current reader. -/
def nestLimit (n : Nat) : Option Nat → Nat
  | none => n
  | some l => min n l

mutual
/-- `load_message`, protobuf.py:244-296, with a bound on the number of loop iterations and nesting. -/
def loadLoop (S : Schema) (utf8 : Bytes → Bool) : Nat → List Field → List (List Value) → Reader →
    Option (List (List Value) × Reader)
  | 0, _, _, _ => none
  | fuel + 1, fs, slots, r =>
    match r.uvarint with
    | none => some (slots, r.skip r.vis.length)                                 -- no more fields to load
    | some (fkey, r) =>
      let ftag := fkey >>> 3
      let wtype := fkey &&& 7
      match fs.findIdx? (·.tag == ftag) with
      | none =>                                                                  -- unknown field, skip it
        if wtype = 0 then
          match r.uvarint with
          | none => none
          | some (_, r) => loadLoop S utf8 fuel fs slots r
        else if wtype = 2 then
          match r.uvarint with
          | none => none
          | some (n, r) =>
            match r.bytes n with
            | none => none
            | some (_, r) => loadLoop S utf8 fuel fs slots r
        else none
      | some i =>
        match fs[i]? with
        | none => none
        | some f =>
          if wtype ≠ f.ty.wire then none
          else
            match r.uvarint with
            | none => none
            | some (ivalue, r) =>
              match loadValue S utf8 fuel f.ty ivalue r with
              | none => none
              | some (v, r) => loadLoop S utf8 fuel fs (setSlot slots i f.rep v) r

/-- The value of a field, protobuf.py:271-288. -/
def loadValue (S : Schema) (utf8 : Bytes → Bool) : Nat → FType → Nat → Reader → Option (Value × Reader)
  | _, .uvarint, n, r => some (.uint n, r)
  | _, .svarint, n, r => some (.sint (Varint.uintToSint n), r)
  | _, .bool, n, r => some (.bool (n != 0), r)
  | _, .bytes, n, r => (r.bytes n).map fun x => (.bytes x.1, x.2)
  | _, .unicode, n, r =>
    match r.bytes n with
    | none => none
    | some (b, r) => if utf8 b then some (.str b, r) else none
  | 0, .msg _, _, _ => none
  | fuel + 1, .msg name, n, r =>
    match loadLoop S utf8 fuel (S name) ((S name).map fun _ => [])
        { r with lim := some (nestLimit n r.lim) } with
    | none => none
    | some (slots, r') => some (.msg slots, { r' with lim := r.lim.map (· - (r.bs.length - r'.bs.length)) })
end

/-- `load_message(reader, msg_type)` on a stream holding `bs`. -/
def loadMessage (S : Schema) (utf8 : Bytes → Bool) (name : Nat) (bs : Bytes) : Option (List (List Value)) :=
  (loadLoop S utf8 (2 * bs.length + 2) (S name) ((S name).map fun _ => []) ⟨bs, none⟩).map (·.1)

end Verif.Pb
