import Verif.Model.EdBack

/-!
Ed25519 signatures: monero_glue/xmr/core/backend/ed25519_2.py 219-302 and ed25519.py 140-158, 192-206. `H` is SHA-512.
-/

namespace Verif.EdDsa
open Verif Verif.Ed

/-- ed25519_2.py 230-232 `Hint` (ed25519.py 147-149 the same). -/
def hint (H : Bytes → Bytes) (m : Bytes) : Nat := bitSum (H m) 512

/-- ed25519_2.py 225, 241 (ed25519.py 142, 154): `2 ** (b - 2) + sum(2 ** i * bit(h, i) for i in range(3, b - 2))`. -/
def secret (h : Bytes) : Nat := 2 ^ 254 + ((List.range' 3 251).map fun i => 2 ^ i * bit h i).sum

/-- ed25519_2.py 219-227 `publickey_unsafe`. -/
def publicKey (H : Bytes → Bytes) (sk : Bytes) : Bytes := Ed.encodePoint (scalarmultB (secret (H sk)))

/-- ed25519_2.py 235-245 `signature_unsafe`. -/
def sign (H : Bytes → Bytes) (m sk pk : Bytes) : Bytes :=
  let h := H sk
  let a := secret h
  let r := hint H ((h.drop 32).take 32 ++ m)
  let R := scalarmultB r
  let S : Int := (r + hint H (Ed.encodePoint R ++ pk ++ m) * a) % l
  Ed.encodePoint R ++ encodeInt S

/-- ed25519_2.py 276-302 `checkvalid`: `none` is an exception, nothing is returned otherwise. -/
def check (H : Bytes → Bytes) (s m pk : Bytes) : Option Unit :=
  if s.length ≠ 64 then none
  else if pk.length ≠ 32 then none
  else match Ed.decodePoint (s.take 32), Ed.decodePoint pk, decodeInt ((s.drop 32).take 32) with
    | some R, some A, some S =>
      let h := hint H (Ed.encodePoint R ++ pk ++ m)
      let P := scalarmultB S
      let Q := add R (Ed.scalarmult A h)
      if !Ed.isOnCurve P || !Ed.isOnCurve Q || (P.x * Q.z - Q.x * P.z) % q ≠ 0 || (P.y * Q.z - Q.y * P.z) % q ≠ 0 then none else some ()
    | _, _, _ => none

/-! ## ed25519.py -/

/-- ed25519.py 140-144 `publickey`. -/
def publicKeyA (H : Bytes → Bytes) (sk : Bytes) : Bytes := EdBack.encodePoint (EdBack.scalarmult EdBack.B (secret (H sk)))

/-- What Python 3 has in the list joined in ed25519.py 155: `h[i]` of bytes is a number. -/
inductive Item
  | num (n : UInt8)
  | str (s : String)

/-- `"".join(items)`; `none` is the TypeError for an item that is no string. -/
def join : List Item → Option String
  | [] => some ""
  | .num _ :: _ => none
  | .str s :: is => (join is).map (s ++ ·)

/-- ed25519.py 152-158 `signature`, up to the joining of the second half of the hash, in 155. -/
def signA (H : Bytes → Bytes) (sk : Bytes) : Option String := join ((((H sk).drop 32).take 32).map .num)

/-- ed25519.py 192-206 `checkvalid`: `none` is an exception. -/
def checkA (H : Bytes → Bytes) (s m pk : Bytes) : Option Bool :=
  if s.length ≠ 64 then none
  else if pk.length ≠ 32 then none
  else match EdBack.decodePoint (s.take 32), EdBack.decodePoint pk, decodeInt ((s.drop 32).take 32) with
    | some R, some A, some S =>
      let h := hint H (EdBack.encodePoint R ++ pk ++ m)
      if EdBack.scalarmult EdBack.B S ≠ EdBack.edwards R (EdBack.scalarmult A h) then none else some true
    | _, _, _ => none

end Verif.EdDsa
