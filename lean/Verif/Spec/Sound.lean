import Verif.Spec.Sig

/-!
What an accepted signature proves, as in the forking lemma: the same first messages (points) answered for two different challenges. The second
challenge comes from a second hash `H'`, which agrees with the first on strings of 32 bytes (from these points and single challenges are computed).
"Up to order eight": the group has order 8·l, secrets live modulo l.
-/

namespace Verif.Sig
open Verif Ed Key Edwards

/-- The two hashes of a fork. -/
def Fork (H H' : Bytes → Bytes) : Prop := ∀ d : Bytes, d.length = 32 → H' d = H d

/-- `x` is the secret of `P` with respect to `G`, up to a point whose order divides eight. -/
def Known (G P : Point) (x : ℤ) : Prop := (8 : ℤ) • P = (8 : ℤ) • (x • G)

/-- `x` is the secret key of `P`, and `I` the key image that belongs to it. -/
def KnownKey (H : Bytes → Bytes) (P I : Point) (x : ℤ) : Prop := Known base P x ∧ Known (hpt H (encPt P)) I x

/-- The secret computed from two answers `r`, `r'` to two challenges `c`, `c'`: from `c x + r = c' x + r'` (modulo l). In a cyclic group every point has
some secret; what matters is that this number is computed from the two transcripts and nothing else. -/
def secretOf (c r c' r' : ℤ) : ℤ := Int.gcdA (c - c') l * (r' - r) % l

/-- The same for `a p + b z = x` and `a' p + b' z = x'`. -/
def firstOf (a b x a' b' x' : ℤ) : ℤ := secretOf (a * b') (-(b' * x)) (a' * b) (-(b * x'))
def secondOf (a b x a' b' x' : ℤ) : ℤ := secretOf (a' * b) (-(a' * x)) (a * b') (-(a * x'))

/-- Mask and amount computed from two range proofs for the same commitments to bits. Per bit: if the inner challenges agree, the first point (bit 0) was
answered for `ee` and `ee'`, otherwise the second point (bit 1) for the inner challenges. -/
def openRange (H : Bytes → Bytes) (ee ee' : ℤ) : List Ext → List ℤ → List ℤ → List ℤ → List ℤ → ℤ × ℕ
  | C :: Ci, a :: s0, b :: s1, a' :: t0, b' :: t1 =>
    let h := hs H (encodePoint (add (scalarmultB a) (smul C ee)))
    let h' := hs H (encodePoint (add (scalarmultB a') (smul C ee')))
    let rest := openRange H ee ee' Ci s0 s1 t0 t1
    if h = h' then (secretOf ee a ee' a' + rest.1, 2 * rest.2) else (secretOf h b h' b' + rest.1, 2 * rest.2 + 1)
  | _, _, _, _, _ => (0, 0)

/-- No collision of the hash occurs between the two proofs: bit by bit, equal inner challenges come from equal points. -/
def NoCollision (H : Bytes → Bytes) (ee ee' : ℤ) : List Point → List ℤ → List ℤ → Prop
  | c :: cs, a :: s0, a' :: t0 =>
    (hs H (encPt (a • base + ee • c)) = hs H (encPt (a' • base + ee' • c)) → a • base + ee • c = a' • base + ee' • c) ∧
      NoCollision H ee ee' cs s0 t0
  | _, _, _ => True

end Verif.Sig
