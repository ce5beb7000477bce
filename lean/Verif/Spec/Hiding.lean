import Verif.Spec.Sig
import Verif.Lemmas.SigRings

/-!
What it means that signatures and range proofs hide something: the random scalars a program draws are its tape, and a published value hides
which of several secrets was used when each of the secrets leads to it with exactly one tape. All tapes being equally likely, the value then
says nothing about the secret.
-/

namespace Verif.Sig
open Verif Ed Key Edwards

/-- The random scalars of a ring signature: one reduced scalar for every row of every column. The column of the signer holds the nonces. -/
def RingTape (cols rows : ℕ) (t : List (List ℤ)) : Prop :=
  t.length = cols ∧ ∀ s ∈ t, s.length = rows ∧ ∀ x ∈ s, Reduced x

/-- Key images of the first rows of a column. -/
noncomputable def images (H : Bytes → Bytes) (col : List Point) (xx : List ℤ) : List Point :=
  List.zipWith (fun P x => x • hpt H (encPt P)) col xx

/-- The secrets belong to the keys of a column. -/
def OpensCol (col : List Point) (xx : List ℤ) : Prop := List.Forall₂ (fun P x => 0 ≤ x ∧ P = x • base) col xx

/-- The random scalars for one bit of a range proof: mask of the commitment, nonce, and the answer that is not computed. -/
abbrev BitTape := ℤ × ℤ × ℤ

def RangeTape (t : List BitTape) : Prop := t.length = 64 ∧ ∀ x ∈ t, Reduced x.1 ∧ Reduced x.2.1 ∧ Reduced x.2.2

/-- Only one of the two entries `s0`, `s1` of the model is used, according to the bit. -/
def BitTape.rnd (t : BitTape) : BitRnd := ⟨t.1, t.2.1, t.2.2, t.2.2⟩

/-- What is published of a range proof: the commitment and the encoded proof. -/
def published (H : Bytes → Bytes) (amount : ℕ) (t : List BitTape) : Option (Bytes × RangeBytes) :=
  (proveRangeOrig H amount none (t.map BitTape.rnd)).map fun x => (encodePoint x.1, encodeRangeSig x.2.2)

end Verif.Sig
