import Verif.Model.Basic

/-! Base58: the Monero block code (monero_glue/misc/b58_mnr.py) and the Bitcoin code (monero_glue/misc/b58.py). -/

namespace Verif.B58
open Verif

/-- b58_mnr.py 20-22 and b58.py 21: character codes of "123456789ABC…xyz". -/
def alphabet : Bytes :=
  [49, 50, 51, 52, 53, 54, 55, 56, 57, 65, 66, 67, 68, 69, 70, 71, 72, 74, 75, 76, 77, 78, 80, 81, 82, 83, 84, 85, 86, 87, 88, 89, 90,
    97, 98, 99, 100, 101, 102, 103, 104, 105, 106, 107, 109, 110, 111, 112, 113, 114, 115, 116, 117, 118, 119, 120, 121, 122]

/-- `alphabet[i]`; the index is always a remainder modulo 58. -/
def char (i : Nat) : UInt8 := alphabet.getD i 0

/-- `alphabet.index(c)`; `none` is the ValueError. -/
def digit (c : UInt8) : Option Nat := alphabet.idxOf? c

/-! ## Monero -/

namespace Mnr

/-- b58_mnr.py 25 `__encodedBlockSizes`. -/
def blockSizes : List Nat := [0, 2, 3, 5, 6, 7, 9, 10, 11]

/-- b58_mnr.py 50-77 `_uint8be_to_64`: `res << 8 | data[i]` over the bytes; all branches of the switch are the same. The error
string for a wrong length cannot occur, callers pass 1 to 8 bytes. The low byte of `res << 8` is zero, so `|` is `+`. -/
def uint8beTo64 (data : Bytes) : Nat := data.foldl (fun res b => res * 256 + b.toNat) 0

/-- b58_mnr.py 80-90 `_uint64_to_8be`: fill positions size-1 … 0. -/
def uint64To8be : Nat → Nat → Bytes → Bytes
  | 0, _, res => res
  | i + 1, num, res => uint64To8be i (num / 256) (res.set i (UInt8.ofNat (num % 256)))

/-- b58_mnr.py 102-106: the `while num > 0` loop, writing at `pos = index + i`. (`i` does not get negative: the round trip below would
fail.) -/
def encLoop (num pos : Nat) (buf : Bytes) : Bytes :=
  if num = 0 then buf else encLoop (num / 58) (pos - 1) (buf.set pos (char (num % 58)))
termination_by num

/-- b58_mnr.py 93-108 `encode_block`. -/
def encodeBlock (data buf : Bytes) (index : Nat) : Bytes :=
  encLoop (uint8beTo64 data) (index + (blockSizes.getD data.length 0 - 1)) buf

/-- `data[a:b]`. -/
def slice (data : Bytes) (a b : Nat) : Bytes := (data.drop a).take (b - a)

/-- b58_mnr.py 111-153 `b58encode` on the bytes of the argument. (Returns the str "" instead of bytes for an empty argument.) -/
def encode (data : Bytes) : Bytes :=
  if data.length = 0 then [] else
    let full := data.length / 8
    let last := data.length % 8
    let res := List.replicate (full * 11 + blockSizes.getD last 0) (char 0)
    let res := (List.range full).foldl (fun res i => encodeBlock (slice data (i * 8) (i * 8 + 8)) res (i * 11)) res
    if last > 0 then encodeBlock (slice data (full * 8) (full * 8 + last)) res (full * 11) else res

/-- b58_mnr.py 166-178: the loop over the characters from the last to the first. -/
def decLoop : Bytes → Nat → Nat → Option Nat
  | [], _, res => some res
  | c :: cs, order, res =>
    match digit c with
    | none => none
    | some d =>
      let product := order * d + res
      if product > 2 ^ 64 then none else decLoop cs (order * 58) product

/-- b58_mnr.py 156-187 `decode_block`. Error strings are returned into the variable that holds the buffer; the next item assignment or
the final `bytes(data)` on a string raises TypeError, hence `none`. -/
def decodeBlock (data : Bytes) (buf : Bytes) (index : Nat) : Option Bytes :=
  if data.length < 1 ∨ data.length > 11 then none else
    match blockSizes.idxOf? data.length with
    | none => none
    | some size =>
      if size ≤ 0 then none else
        match decLoop data.reverse 1 0 with
        | none => none
        | some num =>
          if size < 8 ∧ 2 ^ (8 * size) ≤ num then none else
            let tmp := uint64To8be size num (List.replicate size 0)
            some ((List.range tmp.length).foldl (fun buf i => buf.set (i + index) (tmp.getD i 0)) buf)

/-- b58_mnr.py 190-236 `b58decode`, the part after the argument selection. -/
def decodeText (enc : Bytes) : Option Bytes :=
  if enc.length = 0 then some [] else
    let full := enc.length / 11
    let last := enc.length % 11
    match blockSizes.idxOf? last with
    | none => none
    | some lastSize =>
      let data := List.replicate (full * 8 + lastSize) (0 : UInt8)
      match (List.range full).foldl (fun data i => data.bind fun data => decodeBlock (slice enc (i * 11) (i * 11 + 11)) data (i * 8))
        (some data) with
      | none => none
      | some data => if last > 0 then decodeBlock (slice enc (full * 11) (full * 11 + last)) data (full * 8) else some data

/-- `b58decode(data_bin=…)`, b58_mnr.py 198: an empty argument falls through to `data_hex`, which is None: TypeError. -/
def decodeBin (enc : Bytes) : Option Bytes := if enc.isEmpty then none else decodeText enc

end Mnr

/-! ## Bitcoin -/

namespace Btc

/-- b58.py 46-54 `b58encode_int(i, default_one=False)`. -/
def encodeInt (i : Nat) (string : Bytes) : Bytes :=
  if i = 0 then string else encodeInt (i / 58) (char (i % 58) :: string)
termination_by i

/-- b58.py 66-69: the loop over the reversed bytes. -/
def accLoop : Bytes → Nat → Nat → Nat
  | [], _, acc => acc
  | c :: cs, p, acc => accLoop cs (p * 256) (acc + p * c.toNat)

/-- b58.py 57-73 `b58encode`. -/
def encode (v : Bytes) : Bytes :=
  let v' := v.dropWhile (· == 0)
  let nPad := v.length - v'.length
  List.replicate nPad (char 0) ++ encodeInt (accLoop v'.reverse 1 0) []

/-- b58.py 76-84 `b58decode_int`. -/
def decodeInt : Bytes → Nat → Option Nat
  | [], acc => some acc
  | c :: cs, acc =>
    match digit c with
    | none => none
    | some d => decodeInt cs (acc * 58 + d)

/-- b58.py 98-101: `while acc > 0`, the digits are appended; reversed at the end. -/
def decLoop (acc : Nat) (result : Bytes) : Bytes :=
  if acc = 0 then result else decLoop (acc / 256) (result ++ [UInt8.ofNat (acc % 256)])
termination_by acc

/-- b58.py 87-103 `b58decode`. -/
def decode (v : Bytes) : Option Bytes :=
  let v' := v.dropWhile (· == char 0)
  match decodeInt v' 0 with
  | none => none
  | some acc => some (List.replicate (v.length - v'.length) 0 ++ (decLoop acc []).reverse)

/-- b58.py 106-110 `b58encode_check`; `H` is the double SHA-256. -/
def encodeCheck (H : Bytes → Bytes) (v : Bytes) : Bytes := encode (v ++ (H v).take 4)

/-- b58.py 113-123 `b58decode_check`; `result[:-4]`, `result[-4:]`. -/
def decodeCheck (H : Bytes → Bytes) (v : Bytes) : Option Bytes :=
  match decode v with
  | none => none
  | some r =>
    let result := r.take (r.length - 4)
    let check := r.drop (r.length - 4)
    if check ≠ (H result).take 4 then none else some result

end Btc
end Verif.B58
