import Verif.Model.Ed25519

/-! The part of the `ecdsa` package that monero_glue/misc/bip/keys.py 6-9 and bip32.py 6-8 use: the curve SECP256k1 in affine coordinates.
The package is not part of the repository; this file stands for it. `none` is `INFINITY`. -/

namespace Verif.Secp
open Verif

/-- `SECP256k1.curve.p()`; `a() = 0`, `b() = 7`. -/
def p : Int := 2 ^ 256 - 2 ^ 32 - 977
/-- `SECP256k1.order`. -/
def n : Nat := 0xFFFFFFFFFFFFFFFFFFFFFFFFFFFFFFFEBAAEDCE6AF48A03BBFD25E8CD0364141

/-- `ellipticcurve.Point`: coordinates, or `INFINITY`. -/
abbrev Pt := Option (Int × Int)

/-- `numbertheory.inverse_mod(a, p)` (as a power). -/
def inv (a : Int) : Int := Ed.expmod p 256 a (2 ^ 256 - 2 ^ 32 - 979)

/-- `Point.double`. -/
def double : Pt → Pt
  | none => none
  | some (x, y) =>
    if y = 0 then none else
      let l := 3 * x * x * inv (2 * y) % p
      let x3 := (l * l - 2 * x) % p
      some (x3, (l * (x - x3) - y) % p)

/-- `Point.__add__`. -/
def add : Pt → Pt → Pt
  | none, Q => Q
  | some P, none => some P
  | some (x1, y1), some (x2, y2) =>
    if x1 = x2 then
      if (y1 + y2) % p = 0 then none else double (some (x1, y1))
    else
      let l := (y2 - y1) * inv (x2 - x1) % p
      let x3 := (l * l - x1 - x2) % p
      some (x3, (l * (x1 - x3) - y1) % p)

/-- `SECP256k1.generator`. -/
def g : Pt := some (0x79BE667EF9DCBBAC55A06295CE870B07029BFCDB2DCE28D959F2815B16F81798,
  0x483ADA7726A3C4655DA4FBFC0E1108A8FD17B448A68554199C47D08FFB10D4B8)

/-- `Point.__mul__`; the first argument bounds the recursion: `e < 2 ^ fuel`. -/
def mulFuel : Nat → Pt → Nat → Pt
  | 0, _, _ => none
  | k + 1, P, e => if e = 0 then none else
      let Q := double (mulFuel k P (e / 2))
      if e % 2 = 1 then add Q P else Q

/-- `P * e`. -/
def mul (P : Pt) (e : Nat) : Pt := mulFuel (Nat.log2 e + 1) P e

/-- `curve.contains_point`. -/
def contains (x y : Int) : Bool := (y * y - (x * x * x + 7)) % p = 0

/-- `numbertheory.square_root_mod_prime(a, p)`; `none`: SquareRootError. (`p % 4 = 3`.) -/
def sqrt (a : Int) : Option Int :=
  let r := Ed.expmod p 256 a ((2 ^ 256 - 2 ^ 32 - 976) / 4)
  if r * r % p = a % p then some r else none

end Verif.Secp
