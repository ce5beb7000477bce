import Verif.Model.Basic

/-!
Model of the varint and zig-zag codecs, `monero_glue/protobuf.py` lines 47-105.

Simplification: a stream reader is the list of the remaining bytes; `readinto` on an
exhausted reader returning `0` (→ `EOFError`) is `none`.
-/

namespace Verif.Varint
open Verif

/-- `load_uvarint`, protobuf.py:47-58. Loop state: `result`, `shift`. -/
def loadAux (result shift : Nat) : Bytes → Option (Nat × Bytes)
  | [] => none                                            -- raise EOFError (53-54)
  | b :: rest =>
    let result := result + ((b.toNat &&& 0x7F) <<< shift)
    if b.toNat &&& 0x80 ≠ 0 then loadAux result (shift + 7) rest
    else some (result, rest)

/-- `load_uvarint`, protobuf.py:47-58. -/
def load (r : Bytes) : Option (Nat × Bytes) := loadAux 0 0 r

/-- The `while shifted` loop of `dump_uvarint`, protobuf.py:65-70 (non-negative `n`). -/
def dumpNat (n : Nat) : Bytes :=
  let shifted := n >>> 7
  if shifted = 0 then [UInt8.ofNat (n &&& 0x7F)]
  else UInt8.ofNat ((n &&& 0x7F) ||| 0x80) :: dumpNat shifted
termination_by n
decreasing_by
  simp only [Nat.shiftRight_eq_div_pow] at *
  omega

/-- `dump_uvarint`, protobuf.py:61-70; `none` is the `ValueError` for negative values. -/
def dump (n : Int) : Option Bytes :=
  if n < 0 then none else some (dumpNat n.toNat)

/-- `sint_to_uint`, protobuf.py:93-97. Python `<<` and `~` on unbounded ints. -/
def sintToUint (sint : Int) : Int :=
  let res := sint * 2
  if sint < 0 then - res - 1 else res

/-- `uint_to_sint`, protobuf.py:100-105; `uint & 1` is `uint % 2`, `uint >> 1` floor division. -/
def uintToSint (uint : Int) : Int :=
  let sign := uint % 2
  let res := uint / 2
  if sign ≠ 0 then - res - 1 else res

end Verif.Varint
