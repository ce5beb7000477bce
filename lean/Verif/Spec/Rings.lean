import Verif.Model.Sig
import Verif.Spec.KeysDemo

/-! Rings of outputs, and what it means to own a member. -/

namespace Verif.Sig
open Verif Ed Key

/-- Both points of a ring member decode. -/
def decodable (p : CtPub) : Bool := (decodePoint p.dest).isSome && (decodePoint p.commitment).isSome

/-- The bytes decode to the point. -/
def decodesTo (b : Bytes) (P : Ext) : Bool :=
  match decodePoint b with
  | some Q => pointEqual Q P
  | none => false

/-- The secrets belong to the member: its key is `x·G` and its commitment is `mask·G + amount·H`. -/
def owns (p : CtPub) (k : CtSec) (amount : Int) : Bool :=
  decodesTo p.dest (scalarmultB k.dest) && decodesTo p.commitment (genC k.mask amount)

/-- An output with its secrets, for the examples. -/
def demoOut (x mask amount : Int) : CtPub := ⟨encodePoint (scalarmultB x), encodePoint (genC mask amount)⟩

/-- The randomness of a signature: `cols` columns of `rows` scalars. -/
def Random (cols rows : Nat) (rnd : List (List Int)) : Prop := rnd.length = cols ∧ ∀ s ∈ rnd, s.length = rows ∧ ∀ x ∈ s, 0 ≤ x

end Verif.Sig
