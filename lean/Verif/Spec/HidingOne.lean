import Verif.Spec.Hiding

/-!
Random scalars of the signatures with one scalar, or one pair of scalars, for each member of the ring.
-/

namespace Verif.Sig
open Verif Ed Key Edwards

/-- The random scalars of a CLSAG signature: a reduced scalar for each member. The one at the position of the signer is the nonce. -/
def OneTape (n : ℕ) (t : List ℤ) : Prop := t.length = n ∧ ∀ x ∈ t, Reduced x

/-- The random scalars of a ring signature of pairs: a pair for each member. The signer draws one nonce, written here with a zero beside it. -/
def PairTape (n idx : ℕ) (t : List (ℤ × ℤ)) : Prop :=
  t.length = n ∧ (∀ x ∈ t, Reduced x.1 ∧ Reduced x.2) ∧ (t.getD idx (0, 0)).2 = 0

/-- The members of the ring decode to these points. -/
def RingKeys (ring : List CtPub) (keys : List (Point × Point)) : Prop :=
  List.Forall₂ (fun (p : CtPub) (k : Point × Point) => ∃ P C, decodePoint p.dest = some P ∧ decodePoint p.commitment = some C ∧
    Rep P k.1 ∧ Rep C k.2) ring keys

/-- What `generate_clsag_simple` writes: length, scalars, first challenge, mask image. -/
noncomputable def clsagBytes (n : ℕ) (ss : List ℤ) (c1 : ℤ) (D : Point) : List Bytes :=
  [Varint.dumpNat n] ++ ss.map encodeInt ++ [encodeInt c1, encPt D]

end Verif.Sig
