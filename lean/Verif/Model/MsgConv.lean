import Verif.Model.Basic

/-!
monero_glue/protocol_base/messages.py 28-115 and monero_glue/trezor/manager.py 22-126: messages are converted between the repository's classes and those of the
library that talks to a real device.

`none` is an exception. The first number is the number of nested calls Python allows (RecursionError below). Left out: dictionaries (no message has one) and that
`bytes_fix` also changes the caller's message in place.
-/

namespace Verif.MsgConv
open Verif

/-- The two packages of message classes. -/
inductive Lib
  | ours
  | trezor
deriving DecidableEq

/-- Python values in messages. An object of a message class has its attributes in order. -/
inductive PyVal
  | none
  | int (n : Int)
  | str (s : String)
  | bytes (b : Bytes)
  | bytearray (b : Bytes)
  | list (l : List PyVal)
  | msg (lib : Lib) (cls : String) (attrs : List (String × PyVal))

/-- What the conversion looks at in the description of a field: `BytesType`, without and with `FLAG_REPEATED`, or anything else. -/
inductive Kind
  | bytes
  | bytesList
  | repeated
  | other
deriving DecidableEq

/-- Classes of a package with the fields of `get_fields`. -/
abbrev Schema := Lib → String → Option (List (String × Kind))

/-- `getattr(msg, name)`. -/
def getAttr (name : String) : List (String × PyVal) → Option PyVal
  | [] => .none
  | (n, v) :: a => if n = name then some v else getAttr name a

/-- `setattr(msg, name, v)`. -/
def setAttr (name : String) (v : PyVal) : List (String × PyVal) → List (String × PyVal)
  | [] => [(name, v)]
  | (n, w) :: a => if n = name then (n, v) :: a else (n, w) :: setAttr name v a

/-- A byte of `bytes(iterable)`. -/
def toByte : PyVal → Option UInt8
  | .int n => if 0 ≤ n ∧ n < 256 then some (UInt8.ofNat n.toNat) else .none
  | _ => .none

/-- Python's `bytes(x)`. -/
def pyBytes : PyVal → Option PyVal
  | .bytes b => some (.bytes b)
  | .bytearray b => some (.bytes b)
  | .int n => if 0 ≤ n then some (.bytes (List.replicate n.toNat 0)) else .none
  | .list l => (l.mapM toByte).map .bytes
  | _ => .none

/-- messages.py 41-46: the value of one field of `bytes_fix` before the recursive call. -/
def bytesField (k : Kind) (v : PyVal) : Option PyVal :=
  match k, v with
  | _, .none => some .none
  | .bytes, v => pyBytes v
  | .bytesList, .list l => (l.mapM pyBytes).map .list
  | .bytesList, .bytes b => (b.mapM fun x => pyBytes (.int x.toNat)).map .list
  | .bytesList, .bytearray b => (b.mapM fun x => pyBytes (.int x.toNat)).map .list
  | .bytesList, _ => .none
  | _, v => some v

/-- messages.py 28-55 `bytes_fix`. -/
def bytesFix (sch : Schema) (pkg : Lib) : Nat → PyVal → Option PyVal
  | _, .bytearray b => some (.bytes b)
  | 0, .list _ => .none
  | n + 1, .list l => (l.mapM (bytesFix sch pkg n)).map .list
  | 0, .msg lib c a => if lib = pkg then .none else some (.msg lib c a)
  | n + 1, .msg lib c a =>
    if lib = pkg then
      (((sch lib c).getD []).foldlM (fun cur (f : String × Kind) =>
        match getAttr f.1 cur with
        | .none => some cur
        | some v => do
          let v ← bytesField f.2 v
          let v ← bytesFix sch pkg n v
          some (setAttr f.1 v cur)) a).map (.msg lib c)
    else some (.msg lib c a)
  | _, v => some v

/-- An object without arguments: repeated fields are empty lists, the others `None`. -/
def defaults (fs : List (String × Kind)) : List (String × PyVal) :=
  fs.map fun f => (f.1, if f.2 = .bytesList ∨ f.2 = .repeated then .list [] else .none)

/-- messages.py 82-102 `_transform`, with the function called on parts. -/
def transform (sch : Schema) (src dst : Lib) (part : PyVal → Option PyVal) : PyVal → Option PyVal
  | .msg lib c a =>
    if lib = src then
      match sch dst c with
      | .none => .none
      | some fs =>
        (((sch lib c).getD []).foldlM (fun cur (f : String × Kind) =>
          match getAttr f.1 a with
          | .none => some cur
          | some v => (part v).map fun v => setAttr f.1 v cur) (defaults fs)).map (.msg dst c)
    else some (.msg lib c a)
  | .list l => (l.mapM part).map .list
  | v => some v

/-- messages.py 110-115 `to_trezorlib`, with `fix_bytes` as the device's client sets it. -/
def toTrezor (sch : Schema) : Nat → PyVal → Option PyVal
  | 0, v => do
    let v ← bytesFix sch .ours 0 v
    transform sch .ours .trezor (fun _ => .none) v
  | n + 1, v => do
    let v ← bytesFix sch .ours (n + 1) v
    transform sch .ours .trezor (toTrezor sch n) v

/-- messages.py 104-108 `to_phlib`: parts are passed to `to_trezorlib`. -/
def toOurs (sch : Schema) : Nat → PyVal → Option PyVal
  | 0, v => do
    let v ← bytesFix sch .trezor 0 v
    transform sch .trezor .ours (fun _ => .none) v
  | n + 1, v => do
    let v ← bytesFix sch .trezor (n + 1) v
    transform sch .trezor .ours (toTrezor sch n) v

/-- What happens to the connection. -/
inductive Event
  | opened
  | sent (m : PyVal)
  | closed

/-- manager.py 108-126 `tsx_sign` and the other calls, 85-97 `call`: the answer and what happened to the connection. `client` answers or raises. -/
def call (sch : Schema) (n : Nat) (client : PyVal → Option PyVal) (m : PyVal) : Option PyVal × List Event :=
  match toTrezor sch n m with
  | .none => (.none, [.opened, .closed])
  | some t =>
    match client t with
    | .none => (.none, [.opened, .sent t, .closed])
    | some r => (toOurs sch n r, [.opened, .sent t, .closed])

end Verif.MsgConv
