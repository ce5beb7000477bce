import Verif.Model.Asnl
import Verif.Spec.Sig

/-!
C102: what an aggregate signature is in the group, and a forger.
-/

namespace Verif.Sig
open Verif Ed Key Edwards

/-- The two challenges of a row. -/
noncomputable def challenge2 (H : Bytes → Bytes) (L1 : Point) : ℤ := hs H (encPt L1)
noncomputable def challenge1 (H : Bytes → Bytes) (P2 L1 : Point) (s2 : ℤ) : ℤ := hs H (encPt (s2 • base + challenge2 H L1 • P2))

/-- A row on its own: the chain of the two challenges closes. -/
def RowCloses (H : Bytes → Bytes) (P1 P2 L1 : Point) (s1 s2 : ℤ) : Prop := L1 = s1 • base + challenge1 H P2 L1 s2 • P1

/-- Rows: both keys, the commitment and the second answer. -/
abbrev Row := Point × Point × Point × ℤ

/-- Rows of keys and commitments represent points. -/
inductive RepRows : List Ext → List Ext → List Ext → List ℤ → List Row → Prop
  | nil : RepRows [] [] [] [] []
  | cons {P1 P2 L1 : Ext} {p1 p2 l1 : Point} {p1s p2s l1s : List Ext} {t : List ℤ} {rows : List Row} (s2 : ℤ) (h1 : Rep P1 p1) (h2 : Rep P2 p2)
    (h3 : Rep L1 l1) (h : RepRows p1s p2s l1s t rows) : RepRows (P1 :: p1s) (P2 :: p2s) (L1 :: l1s) (s2 :: t) ((p1, p2, l1, s2) :: rows)

/-- All rows together: only the sum of the closing equations is required. -/
def SumCloses (H : Bytes → Bytes) (rows : List Row) (s : ℤ) : Prop :=
  (rows.map fun r => r.2.2.1).sum = s • base + (rows.map fun r => challenge1 H r.2.1 r.2.2.1 r.2.2.2 • r.1).sum

/-- What is missing from the rows `p1`, `p2` with freely chosen commitments and answers: a program of a forger. -/
def debt (H : Bytes → Bytes) : List Ext → List Ext → List Ext → List Int → Ext → Ext
  | P1 :: p1, P2 :: p2, L1 :: l1, s2 :: t2, acc =>
    debt H p1 p2 l1 t2 (sub (add acc (smul P1 (hs H (encodePoint (add (scalarmultB s2) (smul P2 (hs H (encodePoint L1)))))))) L1)
  | _, _, _, _, acc => acc

/-- A forger who knows one secret key `x`, of the first key of the first row (`index = 0`) or of its second key. The other rows are arbitrary keys; their
commitments `L` and answers `t` are arbitrary, and so are the scalars `a` and `b`. -/
def forge (H : Bytes → Bytes) (x : Int) (P1 P2 : Ext) (index : Nat) (p1 p2 L : List Ext) (t : List Int) (a b : Int) : AsnlSig :=
  let D := debt H p1 p2 L t (scalarmultB 0)
  if index = 0 then
    let L1 := add D (scalarmultB a)
    let c1 := hs H (encodePoint (add (scalarmultB b) (smul P2 (hs H (encodePoint L1)))))
    ⟨L1 :: L, b :: t, scMulsub x c1 a⟩
  else
    let c1 := hs H (encodePoint (scalarmultB a))
    let L1 := add (add D (scalarmultB b)) (smul P1 c1)
    ⟨L1 :: L, scMulsub x (hs H (encodePoint L1)) a :: t, b⟩

end Verif.Sig
