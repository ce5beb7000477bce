import Verif.Props.KeysStandard
import Verif.Props.Curve

/-! What RFC 8032 says about Ed25519 (5.1.5-5.1.7), in terms of `Spec/Curve.lean`. `Key.number` is the number written by bytes, least significant
first. -/

namespace Verif.EdDsa.Spec
open Verif Verif.Ed

/-- The secret scalar: the first half of the hash with the lowest three bits and the highest cleared and bit 254 set. -/
def scalar (h : Bytes) : Nat := 2 ^ 254 + Key.number (h.take 32) % 2 ^ 254 / 8 * 8

/-- The equation that is checked: `S B = R + k A`, `k` the hash of `R`, the public key and the message. -/
def Holds (H : Bytes → Bytes) (Rb Sb m pk : Bytes) (R A : Ext) : Prop :=
  Ed.Spec.times (affine Ed.B) (Key.number Sb) = Ed.Spec.plus (affine R) (Ed.Spec.times (affine A) (Key.number (H (Rb ++ pk ++ m))))

end Verif.EdDsa.Spec
