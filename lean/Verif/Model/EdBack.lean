import Verif.Model.Ed25519

/-!
The two other implementations of the curve: monero_glue/xmr/core/backend/ed25519.py (affine coordinates) and ed25519ietf.py (extended coordinates that are
not reduced). `expmod` and the builtin `pow` are `Ed.expmod`, `H` is a parameter.
-/

namespace Verif.EdBack
open Verif Verif.Ed

/-! ## ed25519.py -/

/-- A list `[x, y]`. -/
abbrev Pair := Int × Int

/-- ed25519.py 26: not reduced, negative. -/
def d : Int := -121665 * invPow 121666

/-- ed25519.py 55-62 `xrecover`; `I` (27) is `Ed.I`. -/
def xrecover (y : Int) : Int :=
  let xx := (y * y - 1) * invPow (d * y * y + 1)
  let x := expmod q 256 xx ((2 ^ 255 - 16) / 8)
  let x := if (x * x - xx) % q ≠ 0 then x * I % q else x
  if x % 2 ≠ 0 then q - x else x

/-- ed25519.py 65-71 `sqroot`; the message that there is no root is not modelled. -/
def sqroot (xx : Int) : Int :=
  let x := expmod q 256 xx ((2 ^ 255 - 16) / 8)
  if (x * x - xx) % q ≠ 0 then x * I % q else x

/-- ed25519.py 74-76. -/
def By : Int := 4 * invPow 5
def Bx : Int := xrecover By
def B : Pair := (Bx % q, By % q)

/-- ed25519.py 79-86 `edwards`. -/
def edwards (P Q : Pair) : Pair :=
  let x1 := P.1
  let y1 := P.2
  let x2 := Q.1
  let y2 := Q.2
  let x3 := (x1 * y2 + x2 * y1) * invPow (1 + d * x1 * x2 * y1 * y2)
  let y3 := (y1 * y2 + x1 * x2) * invPow (1 - d * x1 * x2 * y1 * y2)
  (x3 % q, y3 % q)

/-- ed25519.py 89-96 `edwards_Minus`. -/
def edwardsMinus (P Q : Pair) : Pair :=
  let x1 := P.1
  let y1 := P.2
  let x2 := -1 * Q.1 % q
  let y2 := Q.2
  let x3 := (x1 * y2 + x2 * y1) * invPow (1 + d * x1 * x2 * y1 * y2)
  let y3 := (y1 * y2 + x1 * x2) * invPow (1 - d * x1 * x2 * y1 * y2)
  (x3 % q, y3 % q)

/-- ed25519.py 99-106 `scalarmult`; the first argument bounds the depth of the recursion: `2 ^ fuel > e`. -/
def smulFuel : Nat → Pair → Nat → Pair
  | 0, _, _ => (0, 1)
  | fuel + 1, P, e =>
    if e = 0 then (0, 1) else
      let Q := smulFuel fuel P (e / 2)
      let Q := edwards Q Q
      if e % 2 = 1 then edwards Q P else Q

/-- ed25519.py 99-106 `scalarmult`, `e ≥ 0`. -/
def scalarmult (P : Pair) (e : Nat) : Pair := smulFuel (Nat.log2 e + 1) P e

/-- ed25519.py 110-117 `scalarmultbase`. -/
def scalarmultBase (e : Nat) : Pair :=
  if e = 0 then (0, 1) else
    let Q := scalarmult B (e / 2)
    let Q := edwards Q Q
    if e % 2 = 1 then edwards Q B else Q

/-- ed25519.py 127-133 `encodepoint`: the coordinates are not reduced. -/
def encodePoint (P : Pair) : Bytes := packBits fun i => if i < 255 then intBit P.2 i else (P.1 % 2).toNat

/-- ed25519.py 161-164 `isoncurve`. -/
def isOnCurve (P : Pair) : Bool := (-P.1 * P.1 + P.2 * P.2 - 1 - d * P.1 * P.1 * P.2 * P.2) % q == 0

/-- ed25519.py 171-178 `decodepoint`; `none` is the IndexError. -/
def decodePoint (s : Bytes) : Option Pair :=
  if s.length < 32 then none else
    let y : Int := bitSum s 255
    let x := xrecover y
    let x := if x % 2 ≠ bit s 255 then q - x else x
    some (x, y)

/-- ed25519.py 181-189 `decodepointcheck`. -/
def decodePointCheck (s : Bytes) : Option Pair :=
  match decodePoint s with
  | none => none
  | some P => if isOnCurve P then some P else none

/-! ## ed25519ietf.py -/

/-- ed25519ietf.py 42-43 `modp_inv`. -/
def modpInv (x : Int) : Int := expmod q 256 x (2 ^ 255 - 21)

/-- ed25519ietf.py 47. -/
def dI : Int := -121665 * modpInv 121666 % q

/-- ed25519ietf.py 57-66 `point_add`. -/
def pointAdd (P Q : Ext) : Ext :=
  let a := (P.y - P.x) * (Q.y - Q.x) % q
  let b := (P.y + P.x) * (Q.y + Q.x) % q
  let c := 2 * P.t * Q.t * dI % q
  let d := 2 * P.z * Q.z % q
  let e := b - a
  let f := d - c
  let g := d + c
  let h := b + a
  ⟨e * f, g * h, f * g, e * h⟩

/-- The loop of ed25519ietf.py 72-77; the first argument bounds the number of rounds: `2 ^ fuel > s`. -/
def pointMulLoop : Nat → Nat → Ext → Ext → Ext
  | 0, _, _, Q => Q
  | fuel + 1, s, P, Q =>
    if s > 0 then pointMulLoop fuel (s / 2) (pointAdd P P) (if s % 2 = 1 then pointAdd Q P else Q) else Q

/-- ed25519ietf.py 70-78 `point_mul`, `s ≥ 0`. -/
def pointMul (s : Nat) (P : Ext) : Ext := pointMulLoop (Nat.log2 s + 1) s P ⟨0, 1, 1, 0⟩

/-- ed25519ietf.py 96-113 `recover_x`; `modp_sqrt_m1` (91) is `Ed.I`. -/
def recoverX (y : Int) (sign : Int) : Option Int :=
  let x2 := (y * y - 1) * modpInv (dI * y * y + 1)
  if x2 = 0 then
    if sign ≠ 0 then none else some 0
  else
    let x := expmod q 256 x2 ((2 ^ 255 - 16) / 8)
    let x := if (x * x - x2) % q ≠ 0 then x * I % q else x
    if (x * x - x2) % q ≠ 0 then none
    else some (if x % 2 ≠ sign then q - x else x)

/-- ed25519ietf.py 126-130 `point_compress`; `y | (s << 255)` with `y < 2^255` is a sum. -/
def pointCompress (P : Ext) : Bytes :=
  let zinv := modpInv P.z
  let x := P.x * zinv % q
  let y := P.y * zinv % q
  encodeInt (y + x % 2 * 2 ^ 255)

/-- ed25519ietf.py 133-145 `point_decompress`: outer `none` the IndexError, inner `none` the result None. -/
def pointDecompress (s : Bytes) : Option (Option Ext) :=
  match decodeInt s with
  | none => none
  | some n =>
    let sign : Int := n / 2 ^ 255
    let y : Int := n % 2 ^ 255
    match recoverX y sign with
    | none => some none
    | some x => some (some ⟨x, y, 1, x * y % q⟩)

end Verif.EdBack
