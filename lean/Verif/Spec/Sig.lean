import Verif.Model.Sig
import Verif.Lemmas.Key

/-!
What the signatures mean, in the group of points of the curve (`Point`, see C49 for its relation to the affine addition law):
`base` is the base point, `encPt` the 32-byte encoding, `hs` the hash to a scalar, `hpt` the hash to a point.
-/

namespace Verif.Sig
open Verif Ed Key Edwards

/-- Hash to a point of the curve. -/
noncomputable def hpt (H : Bytes → Bytes) (d : Bytes) : Point := Classical.choose (rep_hp H d)

theorem hpt_rep (H : Bytes → Bytes) (d : Bytes) : Rep (hp H d) (hpt H d) := (Classical.choose_spec (rep_hp H d)).1
theorem hpt_order (H : Bytes → Bytes) (d : Bytes) : lN • hpt H d = 0 := (Classical.choose_spec (rep_hp H d)).2

/-- A scalar as the program has them: reduced, and not zero. -/
def Proper (x : ℤ) : Prop := 0 < x ∧ x < l

/-- Reduced scalar. -/
def Reduced (x : ℤ) : Prop := 0 ≤ x ∧ x < l

/-- Schnorr equation. -/
def Schnorr (H : Bytes → Bytes) (data : Bytes) (P : Point) (c r : ℤ) : Prop :=
  c = hs H (data ++ encPt P ++ encPt (c • P + r • base))

/-- Ring signature with key image: the challenges add up to the hash of everything. -/
noncomputable def ringData (H : Bytes → Bytes) (I : Point) : List Point → List (ℤ × ℤ) → Bytes
  | P :: ps, (c, r) :: sig =>
    encPt (c • P + r • base) ++ encPt (r • hpt H (encPt P) + c • I) ++ ringData H I ps sig
  | _, _ => []

def RingValid (H : Bytes → Bytes) (pre : Bytes) (I : Point) (ps : List Point) (sig : List (ℤ × ℤ)) : Prop :=
  sig.length = ps.length ∧ (∀ x ∈ sig, Proper x.1 ∧ Proper x.2) ∧
    (sig.map (·.1)).sum % l = hs H (pre ++ ringData H I ps sig)

/-- One column of an MLSAG signature with challenge `c`: rows with an image, then rows without. -/
noncomputable def colDs (H : Bytes → Bytes) (c : ℤ) : List Point → List ℤ → List Point → Bytes
  | P :: ps, s :: ss, I :: is =>
    encPt P ++ encPt (s • base + c • P) ++ encPt (s • hpt H (encPt P) + c • I) ++ colDs H c ps ss is
  | _, _, _ => []

noncomputable def colPlain (c : ℤ) : List Point → List ℤ → Bytes
  | P :: ps, s :: ss => encPt P ++ encPt (s • base + c • P) ++ colPlain c ps ss
  | _, _ => []

noncomputable def colHash (H : Bytes → Bytes) (m : Bytes) (ds : ℕ) (II col : List Point) (s : List ℤ) (c : ℤ) : ℤ :=
  hs H (m ++ colDs H c (col.take ds) (s.take ds) II ++ colPlain c (col.drop ds) (s.drop ds))

/-- MLSAG: shapes fit and there are challenges `c 0, …, c n`, each the hash of the previous column, that begin and end with `cc`. -/
def MlsagValid (H : Bytes → Bytes) (m : Bytes) (pk : List (List Point)) (ds : ℕ) (II : List Point) (ss : List (List ℤ)) (cc : ℤ) : Prop :=
  ∃ rows, 0 < rows ∧ 2 ≤ pk.length ∧ (∀ col ∈ pk, col.length = rows) ∧ ds ≤ rows ∧ II.length = ds ∧
    ss.length = pk.length ∧ (∀ s ∈ ss, s.length = rows) ∧
    ∃ c : ℕ → ℤ, c 0 = cc ∧ c pk.length = cc ∧ ∀ (i : ℕ) (col : List Point) (s : List ℤ), pk[i]? = some col → ss[i]? = some s →
      c (i + 1) = colHash H m ds II col s (c i)

/-- The three tags of CLSAG, "CLSAG_agg_0", "CLSAG_agg_1" and "CLSAG_round", filled up to 32 bytes. -/
def fill32 (s : Bytes) : Bytes := (s ++ List.replicate 32 0).take 32
def tagAgg0 : Bytes := fill32 [67, 76, 83, 65, 71, 95, 97, 103, 103, 95, 48]
def tagAgg1 : Bytes := fill32 [67, 76, 83, 65, 71, 95, 97, 103, 103, 95, 49]
def tagRound : Bytes := fill32 [67, 76, 83, 65, 71, 95, 114, 111, 117, 110, 100]

/-- CLSAG: the same with one aggregated row. `D` is the mask image as published (divided by eight). -/
def ClsagValid (H : Bytes → Bytes) (m : Bytes) (ring : List CtPub) (keys : List (Point × Point)) (I D Cout : Point) (ss : List ℤ) (c1 : ℤ) : Prop :=
  let ringBytes := (ring.map (·.dest)).flatten ++ (ring.map (·.commitment)).flatten
  let mP := hs H (tagAgg0 ++ (ringBytes ++ encPt I ++ encPt D ++ encPt Cout))
  let mC := hs H (tagAgg1 ++ (ringBytes ++ encPt I ++ encPt D ++ encPt Cout))
  ∃ c : ℕ → ℤ, c 0 = c1 ∧ c ring.length = c1 ∧ ∀ (i : ℕ) (p : CtPub) (k : Point × Point) (s : ℤ), ring[i]? = some p → keys[i]? = some k →
    ss[i]? = some s → c (i + 1) = hs H (tagRound ++ (ringBytes ++ encPt Cout ++ m ++
      encPt (s • base + (mP * c i % l) • k.1 + (mC * c i % l) • (k.2 - Cout)) ++
      encPt (s • hpt H p.dest + (mP * c i % l) • I + (mC * c i % l) • (8 : ℤ) • D)))

/-- Borromean: for each bit two commitments of which one is opened. -/
noncomputable def boroData (H : Bytes → Bytes) (ee : ℤ) : List (Point × Point) → List ℤ → List ℤ → Bytes
  | (P1, P2) :: ps, s0 :: t0, s1 :: t1 =>
    encPt (s1 • base + hs H (encPt (s0 • base + ee • P1)) • P2) ++ boroData H ee ps t0 t1
  | _, _, _ => []

def BoroValid (H : Bytes → Bytes) (ps : List (Point × Point)) (s0 s1 : List ℤ) (ee : ℤ) : Prop :=
  ps.length ≤ s0.length ∧ ps.length ≤ s1.length ∧ ee = hs H (boroData H ee ps s0 s1)

end Verif.Sig
