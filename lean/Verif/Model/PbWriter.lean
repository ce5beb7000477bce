import Verif.Model.Protobuf

/-!
The writing side of `monero_glue/protobuf.py` as it runs: byte by byte into a writer, nested messages twice, first into a counter; bytes values may be
given in parts. Model/Protobuf.lean gives the resulting bytes at once.
-/

namespace Verif.Pb
open Verif

/-- A writer: `CountingWriter`, protobuf.py:227-234, or a stream with the bytes written so far. -/
inductive Out
  | count (size : Nat)
  | stream (data : Bytes)
deriving DecidableEq

/-- `write(buf)`, protobuf.py:231-234 for the counter. -/
def Out.write : Out → Bytes → Out
  | .count n, b => .count (n + b.length)
  | .stream s, b => .stream (s ++ b)

/-- `counter.size`; a stream has no such attribute, its length stands for it. -/
def Out.size : Out → Nat
  | .count n => n
  | .stream s => s.length

/-- Values as they are given: as in `Value`, and bytes as a list of parts, protobuf.py:330. -/
inductive Item
  | uint (n : Int)
  | sint (n : Int)
  | bool (b : Bool)
  | bytes (b : Bytes)
  | parts (l : List Bytes)
  | str (utf8 : Bytes)
  | msg (slots : List (List Item))

/-- The loop of `dump_uvarint`, protobuf.py:66-70: one byte per call of the writer. -/
def varintLoop (n : Nat) (w : Out) : Out :=
  let shifted := n >>> 7
  if h : shifted = 0 then w.write [UInt8.ofNat (n &&& 0x7F)]
  else varintLoop shifted (w.write [UInt8.ofNat ((n &&& 0x7F) ||| 0x80)])
termination_by n
decreasing_by
  simp only [shifted, Nat.shiftRight_eq_div_pow] at h ⊢
  omega

/-- `dump_uvarint`, protobuf.py:61-70. -/
def writeVarint (n : Int) (w : Out) : Option Out := if n < 0 then none else some (varintLoop n.toNat w)

/-- `_count_bytes_list`, protobuf.py:458-462. -/
def countParts (l : List Bytes) : Nat := l.foldl (fun res x => res + x.length) 0

mutual
/-- One value, protobuf.py:320-352. -/
def writeValue (S : Schema) : FType → Item → Out → Option Out
  | .uvarint, .uint n, w => writeVarint n w
  | .svarint, .sint n, w => writeVarint (Varint.sintToUint n) w
  | .bool, .bool b, w => writeVarint (if b then 1 else 0) w
  | .bytes, .parts l, w => (writeVarint (countParts l) w).map fun w => l.foldl Out.write w
  | .bytes, .bytes b, w => (writeVarint b.length w).map fun w => w.write b
  | .unicode, .str b, w => (writeVarint b.length w).map fun w => w.write b
  | .msg name, .msg slots, w =>
    (writeSlots S (S name) slots (.count 0)).bind fun counter =>
      (writeVarint counter.size w).bind fun w => writeSlots S (S name) slots w
  | _, _, _ => none

/-- `for svalue in fvalue`, protobuf.py:317-318. -/
def writeVals (S : Schema) : Field → List Item → Out → Option Out
  | _, [], w => some w
  | f, v :: vs, w => (writeVarint f.key w).bind fun w => (writeValue S f.ty v w).bind fun w => writeVals S f vs w

/-- `for ftag in fields`, protobuf.py:304-317. -/
def writeSlots (S : Schema) : List Field → List (List Item) → Out → Option Out
  | _, [], w => some w
  | [], _ :: _, _ => none
  | f :: fs, vs :: slots, w => (writeVals S f vs w).bind fun w => writeSlots S fs slots w
end

/-- `dump_message(writer, msg)`, protobuf.py:299-352. -/
def writeMessage (S : Schema) (name : Nat) (slots : List (List Item)) (w : Out) : Option Out := writeSlots S (S name) slots w

/-- `ByteSize`, protobuf.py:207-210: `dump_message` is a coroutine that is never awaited, so nothing is written to the new stream. -/
def byteSize (_ : List (List Item)) : Nat := (Out.stream []).size

end Verif.Pb
