import Verif.Model.Protobuf
import Verif.Model.Hd

/-! Messages from dictionaries, protobuf.py 411-455. -/

namespace Verif.Pb
open Verif

/-- The Python values of a dictionary read from JSON or written by hand. Text is kept as UTF-8. -/
inductive Py
  | none
  | int (n : Int)
  | bool (b : Bool)
  | str (t : Bytes)
  | bytes (b : Bytes)
  | list (l : List Py)
  | dict (d : List (Bytes × Py))

/-- Conversions of the Python library: `int(text)`, `str(value)` for a value that is no text, and the characters of a text. -/
structure PyLib where
  intText : Bytes → Option Int
  repr : Py → Bytes
  chars : Bytes → List Bytes

/-- `int(value)`. -/
def Py.toInt (L : PyLib) : Py → Option Int
  | .int n => some n
  | .bool b => some (if b then 1 else 0)
  | .str t => L.intText t
  | .bytes b => L.intText b
  | _ => Option.none

/-- `bool(value)`. -/
def Py.truth : Py → Bool
  | .none => false
  | .int n => n != 0
  | .bool b => b
  | .str t => !t.isEmpty
  | .bytes b => !b.isEmpty
  | .list l => !l.isEmpty
  | .dict d => !d.isEmpty

/-- `for v in value`. -/
def Py.items (L : PyLib) : Py → Option (List Py)
  | .list l => some l
  | .str t => some ((L.chars t).map .str)
  | .bytes b => some (b.map fun x => .int x.toNat)
  | .dict d => some (d.map fun e => .str e.1)
  | _ => Option.none

/-- `d.get(name)`; only a dictionary has that method. -/
def Py.get (d : List (Bytes × Py)) (name : Bytes) : Py := (d.lookup name).getD .none

/-- protobuf.py 411-430 `value_to_proto`. -/
def valueToProto (L : PyLib) : FType → Py → Option Value
  | .msg _, _ => Option.none
  | .uvarint, v => (v.toInt L).map .uint
  | .svarint, v => (v.toInt L).map .sint
  | .bool, v => some (.bool v.truth)
  | .unicode, .str t => some (.str t)
  | .unicode, v => some (.str (L.repr v))
  | .bytes, .str t => (Hd.unhexText t).map .bytes
  | .bytes, .bytes b => some (.bytes b)
  | .bytes, _ => Option.none

/-- One turn of the loop 435-454; `conv` is the `function` of 444-447. -/
def dictField (L : PyLib) (conv : Py → Option Value) (rep : Bool) : Py → Option (List Value)
  | .none => some []
  | v => if rep then (v.items L).bind fun l => l.mapM conv else (conv v).map fun x => [x]

/-- protobuf.py 433-455 `dict_to_proto`, `fuel` being what is left of Python's recursion limit; `names` are the attribute names by class and tag.
A class without fields does not look at the dictionary. -/
def dictToProto (S : Schema) (names : Nat → Nat → Bytes) (L : PyLib) : Nat → Nat → Py → Option Value
  | 0, _, _ => Option.none
  | fuel + 1, name, v =>
    match S name, v with
    | [], _ => some (.msg [])
    | fs, .dict d =>
      (fs.mapM fun f => dictField L (fun x => match f.ty with
        | .msg n => dictToProto S names L fuel n x
        | t => valueToProto L t x) f.rep (Py.get d (names name f.tag))).map .msg
    | _, _ => Option.none

end Verif.Pb
