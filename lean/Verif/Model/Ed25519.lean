import Verif.Model.Basic

/-!
Curve arithmetic: monero_glue/xmr/core/backend/ed25519.py, ed25519_2.py, ed25519ietf.py 81-87 and xmr/core/ec_py.py. Python integers are
`Int`; Python's `%` and `//` with a positive right argument are `Int.emod` and `Int.ediv`, `>>` is division by a power of two and `& 1` the
remainder modulo 2.
-/

namespace Verif.Ed
open Verif

/-- ed25519_2.py 59. -/
def q : Int := 2 ^ 255 - 19
/-- ed25519_2.py 60. -/
def l : Int := 2 ^ 252 + 27742317777372353535851937790883648493

/-! ## Inversion and powers -/

/-- ed25519_2.py 67-72 `pow2(x, p)`. -/
def pow2 (x : Int) : Nat → Int
  | 0 => x
  | p + 1 => pow2 (x * x % q) p

/-- ed25519_2.py 75-89 `inv`. -/
def inv (z : Int) : Int :=
  let z2 := z * z % q
  let z9 := pow2 z2 2 * z % q
  let z11 := z9 * z2 % q
  let z2_5_0 := (z11 * z11) % q * z9 % q
  let z2_10_0 := pow2 z2_5_0 5 * z2_5_0 % q
  let z2_20_0 := pow2 z2_10_0 10 * z2_10_0 % q
  let z2_40_0 := pow2 z2_20_0 20 * z2_20_0 % q
  let z2_50_0 := pow2 z2_40_0 10 * z2_10_0 % q
  let z2_100_0 := pow2 z2_50_0 50 * z2_50_0 % q
  let z2_200_0 := pow2 z2_100_0 100 * z2_100_0 % q
  let z2_250_0 := pow2 z2_200_0 50 * z2_50_0 % q
  pow2 z2_250_0 5 * z11 % q

/-- ed25519.py 13-19 `expmod(b, e, m)`. The first argument bounds the depth of the recursion: `2 ^ fuel > e`. Also used for the builtin
`pow(b, e, m)`. -/
def expmod (m : Int) : Nat → Int → Nat → Int
  | 0, _, _ => 1
  | fuel + 1, b, e =>
    if e = 0 then 1 else
      let t := expmod m fuel b (e / 2) ^ 2 % m
      if e % 2 = 1 then t * b % m else t

/-- `pow(x, e, q)` with `e < 2^255`. -/
def powq (x : Int) (e : Nat) : Int := expmod q 256 x e

/-- ed25519_2.py 92-93. -/
def d : Int := -121665 * inv 121666 % q
def I : Int := powq 2 ((2 ^ 255 - 20) / 4)

/-- ec_py.py 73-75 `EdScalar.modinv`: `pow(v, l - 2, l)`. -/
def scInv (v : Int) : Int := expmod l 256 v (2 ^ 252 + 27742317777372353535851937790883648491)

/-! ## Points -/

/-- Extended coordinates. -/
structure Ext where
  x : Int
  y : Int
  z : Int
  t : Int
deriving DecidableEq

/-- ed25519_2.py 96-106 `xrecover`. -/
def xrecover (y : Int) : Int :=
  let xx := (y * y - 1) * inv (d * y * y + 1)
  let x := powq xx ((2 ^ 255 - 16) / 8)
  let x := if (x * x - xx) % q ≠ 0 then x * I % q else x
  if x % 2 ≠ 0 then q - x else x

/-- ed25519_2.py 109-112. -/
def By : Int := 4 * inv 5
def Bx : Int := xrecover By
def B : Ext := ⟨Bx % q, By % q, 1, Bx * By % q⟩
def ident : Ext := ⟨0, 1, 1, 0⟩

/-- ed25519_2.py 115-134 `edwards_add`. -/
def add (P Q : Ext) : Ext :=
  let a := (P.y - P.x) * (Q.y - Q.x) % q
  let b := (P.y + P.x) * (Q.y + Q.x) % q
  let c := P.t * 2 * d * Q.t % q
  let dd := P.z * 2 * Q.z % q
  let e := b - a
  let f := dd - c
  let g := dd + c
  let h := b + a
  ⟨e * f % q, g * h % q, f * g % q, e * h % q⟩

/-- ed25519_2.py 137-155 `edwards_double`. -/
def double (P : Ext) : Ext :=
  let a := P.x * P.x % q
  let b := P.y * P.y % q
  let c := 2 * P.z * P.z % q
  let e := ((P.x + P.y) * (P.x + P.y) - a - b) % q
  let g := -a + b
  let f := g - c
  let h := -a - b
  ⟨e * f % q, g * h % q, f * g % q, e * h % q⟩

/-- ed25519_2.py 158-165 `scalarmult(P, e)`; the first argument bounds the depth of the recursion: `2 ^ fuel > e`. -/
def smulFuel : Nat → Ext → Nat → Ext
  | 0, _, _ => ident
  | fuel + 1, P, e =>
    if e = 0 then ident else
      let Q := double (smulFuel fuel P (e / 2))
      if e % 2 = 1 then add Q P else Q

/-- ed25519_2.py 158-165 `scalarmult(P, e)`, `e ≥ 0` (no recursion deeper than `e`). -/
def scalarmult (P : Ext) (e : Nat) : Ext := smulFuel (Nat.log2 e + 1) P e

/-- ed25519_2.py 169-179: the first `n` entries of `Bpow`, `P` being the next one. -/
def bpow : Nat → Ext → List Ext
  | 0, _ => []
  | n + 1, P => P :: bpow n (double P)

/-- The loop of `scalarmult_B`, ed25519_2.py 187-192. -/
def smulBLoop : List Ext → Ext → Nat → Ext
  | [], P, _ => P
  | b :: bs, P, e => smulBLoop bs (if e % 2 = 1 then add P b else P) (e / 2)

/-- ed25519_2.py 182-194 `scalarmult_B`. (The final assertion `e == 0` holds: `e < l < 2^253`.) -/
def scalarmultB (e : Int) : Ext := smulBLoop (bpow 253 B) ident (e % l).toNat

/-- ed25519_2.py 248-254 `isoncurve`. -/
def isOnCurve (P : Ext) : Bool :=
  P.z % q != 0 && P.x * P.y % q == P.z * P.t % q && (P.y * P.y - P.x * P.x - P.z * P.z - d * P.t * P.t) % q == 0

/-- ed25519ietf.py 81-87 `point_equal`. -/
def pointEqual (P Q : Ext) : Bool :=
  if (P.x * Q.z - Q.x * P.z) % q ≠ 0 then false else if (P.y * Q.z - Q.y * P.z) % q ≠ 0 then false else true

/-- ec_py.py 134-136 `invert_v`. -/
def neg (P : Ext) : Ext := ⟨-1 * P.x % q, P.y, P.z, -1 * P.t % q⟩

/-- ec_py.py 153-155 `EdPoint.__sub__`. -/
def sub (P Q : Ext) : Ext := add P (neg Q)

/-! ## Encodings -/

/-- `bytes([sum(bits[i*8+j] << j for j in range(8)) for i in range(32)])`. -/
def packBits (bits : Nat → Nat) : Bytes :=
  (List.range 32).map fun i => UInt8.ofNat ((List.range 8).map fun j => bits (i * 8 + j) * 2 ^ j).sum

/-- `(y >> i) & 1`. -/
def intBit (y : Int) (i : Nat) : Nat := (y / 2 ^ i % 2).toNat

/-- ed25519.py 120-124 `encodeint`. -/
def encodeInt (y : Int) : Bytes := packBits (intBit y)

/-- ed25519.py 136-137 `bit(h, i)`; in range. -/
def bit (h : Bytes) (i : Nat) : Nat := (h.getD (i / 8) 0).toNat / 2 ^ (i % 8) % 2

/-- `sum(2 ** i * bit(s, i) for i in range(0, n))`. -/
def bitSum (s : Bytes) (n : Nat) : Nat := ((List.range n).map fun i => 2 ^ i * bit s i).sum

/-- ed25519.py 167-168 `decodeint`; `none` is the IndexError for less than 32 bytes. -/
def decodeInt (s : Bytes) : Option Nat := if s.length < 32 then none else some (bitSum s 256)

/-- ec_py.py 41-50 `EdScalar(bytes)`. -/
def decodeScalar (s : Bytes) : Option Int := (decodeInt s).map fun n => (n : Int) % l

/-- ed25519_2.py 204-212 `encodepoint`. -/
def encodePoint (P : Ext) : Bytes :=
  let zi := inv P.z
  let x := P.x * zi % q
  let y := P.y * zi % q
  packBits fun i => if i < 255 then intBit y i else (x % 2).toNat

/-- ed25519_2.py 261-269 `decodepoint`; `none`: IndexError or "not on curve". -/
def decodePoint (s : Bytes) : Option Ext :=
  if s.length < 32 then none else
    let y : Int := bitSum s 255
    let x := xrecover y
    let x := if x % 2 ≠ bit s 255 then q - x else x
    let P : Ext := ⟨x, y, 1, x * y % q⟩
    if isOnCurve P then some P else none

/-! ## Checks of ec_py -/

/-- ec_py.py 472-481 `sc_check`. -/
def scCheck (v : Int) : Int := if v % l = 0 then -1 else if v = v % l then 0 else -1

/-- ec_py.py 742-778 `ge_frombytes_vartime_check`; `none` is the ValueError. -/
def geFrombytesCheck (P : Ext) : Option Int :=
  let u := P.y * P.y % q
  let v := u * d % q
  let u := (u - 1) % q
  let v := (v + 1) % q
  let vxx := P.x * P.x % q
  let vxx := vxx * v % q
  let check := (vxx - u) % q
  if check ≠ 0 then
    let check := (vxx + u) % q
    if check < 0 then none else some 0
  else some 0

/-- ed25519.py 22-23 `inv`. -/
def invPow (x : Int) : Int := expmod q 256 x (2 ^ 255 - 21)

/-! ec_base.py 34-61: square roots of -1, -2A(A+2), 2A(A+2), -√-1·A(A+2), √-1·A(A+2). -/
def feSqrtm1 : Int := 0x2B8324804FC1DF0B2B4D00993DFBD7A72F431806AD2FE478C4EE1B274A0EA0B0
def fffb1 : Int := 0x018E04102529E4E8DF563AC8BE04E61C2E6BFB5746D58C72DD58968ACDE3BDFF
def fffb2 : Int := 0x32F9E1F5FBA5D3096E2BAE483FE9A041AE21FCB9FBA908202D219B7C9F83650D
def fffb3 : Int := 0x18B5EEF2EB3DF710476AB9BFC0F25D12BFDB00B15A69BDD6A7E48278E8CFD387
def fffb4 : Int := 0x1A43F3031067DBF926C0F4887EF7432EEE46FC08A13F4A49853D1903B6B39186

/-- ec_py.py 852-893 of `hash_to_point`: from `u` to `(rx, z, w, sign)`. -/
def elligator (u : Int) : Int × Int × Int × Int :=
  let A : Int := 486662
  let w := (2 * u * u + 1) % q
  let xp := (w * w - 2 * A * A * u * u) % q
  let rx := expmod q 256 (w * invPow xp) ((2 ^ 255 - 16) / 8)
  let x := rx * rx * (w * w - 2 * A * A * u * u) % q
  let y := (2 * u * u + 1 - x) % q
  if y ≠ 0 then
    let y := (w + x) % q
    if y ≠ 0 then
      let z := -1 * A
      let x := x * feSqrtm1 % q
      let y := (w - x) % q
      let rx := if y ≠ 0 then rx * fffb3 % q else rx * -1 * fffb4 % q
      (rx, z, w, 1)
    else
      let rx := rx * -1 * fffb1 % q
      let rx := rx * u % q
      (rx, -2 * A * u * u % q, w, 0)
  else
    let rx := rx * -1 * fffb2 % q
    let rx := rx * u % q
    (rx, -2 * A * u * u % q, w, 0)

/-- ec_py.py 842-909 `hash_to_point`: the point before it is multiplied by eight, from the reduced hash `u`. -/
def hashPoint (u : Int) : Ext :=
  let (rx, z, w, sign) := elligator u
  let rx := if rx % 2 ≠ sign then -rx % q else rx
  let rz := (z + w) % q
  let ry := (z - w) % q
  let rx := rx * rz % q
  ⟨rx, ry, rz, rx * ry % q * inv rz % q⟩

/-- ec_py.py 842-909 `hash_to_point` on the hash of the argument (32 bytes). -/
def hashToPoint (h : Bytes) : Option Ext := (decodeInt h).map fun n => scalarmult (hashPoint ((n : Int) % q)) 8

/-- ec_py.py 130-132, 292-293 `check_ed25519point`: `true` is no exception. -/
def checkPoint (P : Ext) : Bool := isOnCurve P

/-- ec_py.py 367-369 `point_eq`: `P.check() and Q.check()` calls only the first, which returns None; `none` is its ValueError. -/
def pointEq (P Q : Ext) : Option Bool := if isOnCurve P then some (pointEqual P Q) else none

/-- ec_py.py 660-670 `point_mulinv8`: the scalar whose bytes are INV_EIGHT. -/
def invEight : Bytes := [0x79, 0x2f, 0xdc, 0xe2, 0x29, 0xe5, 0x06, 0x61, 0xd0, 0xda, 0x1c, 0x7d, 0xb3, 0x9d, 0xd3, 0x07, 0, 0, 0, 0, 0, 0, 0, 0,
  0, 0, 0, 0, 0, 0, 0, 0x06]
def mulInv8 (P : Ext) : Option Ext := (decodeScalar invEight).map fun e => scalarmult P e.toNat

/-! ## Limbs, xmr/core/ec_base.py -/

def limbBits : List Nat := [26, 25, 26, 25, 26, 25, 26, 25, 26, 25]

/-- Loop of ec_base.py 105-118 `encode_ed25519` / 157-169 `encode_modm`: `limbs[i] = n & mask; n >>= bits`. -/
def toLimbs : List Nat → Int → List Int
  | [], _ => []
  | b :: bs, n => n % 2 ^ b :: toLimbs bs (n / 2 ^ b)

/-- Loop of ec_base.py 121-136 `decode_ed25519` / 172-187 `decode_modm`; `limbs[i]` raises for a short list. -/
def fromLimbs : List Nat → List Int → Int → Int → Nat → Option Int
  | [], _, n, _, _ => some n
  | _ :: _, [], _, _, _ => none
  | b :: bs, x :: xs, n, c, shift => fromLimbs bs xs (n + (x % 2 ^ b + c) * 2 ^ shift) (x / 2 ^ b) (shift + b)

/-- ec_base.py 84-102 `encode_edd25519_xmr_const`: negative limbs are made positive, the borrow goes to the next one. -/
def xmrConst : List Nat → List Int → Int → List Int
  | b :: bs, x :: xs, c => (if x < 0 then x + c + 2 ^ b else x + c) :: xmrConst bs xs (if x < 0 then x / 2 ^ b else 0)
  | _, _, _ => []

/-- ec_base.py 105-118. -/
def encodeEd25519 (n : Int) : List Int := toLimbs limbBits (n % q)
/-- ec_base.py 121-136. -/
def decodeEd25519 (limbs : List Int) : Option Int := fromLimbs limbBits limbs 0 0 0

/-- The loop of ec_base.py 139-155 `encode_ed25519_sign`, with the value `x` at the current position; the last position keeps its value. -/
def toSigned : List Nat → Int → List Int
  | [], x => [x]
  | b :: bs, x =>
    let carry := (x + 2 ^ (b - 1)) / 2 ^ b
    (x - carry * 2 ^ b) :: toSigned bs (0 + carry)

/-- ec_base.py 139-155 `encode_ed25519_sign`. -/
def encodeEd25519Sign (x : Int) : List Int :=
  let x := x % q
  let x := if x + x > q then x - q else x
  toSigned (limbBits.take 9) x

def modmBits : List Nat := List.replicate 9 30

/-- ec_base.py 158-170. -/
def encodeModm (n : Int) : List Int := toLimbs modmBits (n % l)
/-- ec_base.py 173-188. -/
def decodeModm (limbs : List Int) : Option Int := fromLimbs modmBits limbs 0 0 0

end Verif.Ed
