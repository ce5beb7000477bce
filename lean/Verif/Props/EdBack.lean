import Verif.Lemmas.EdBack
import Verif.Props.CurveCodec

/-!
C98. The agent carries three implementations of the curve: affine pairs (ed25519.py), extended coordinates (ed25519_2.py, the one the agent
computes with) and the extended coordinates of RFC 8032 (ed25519ietf.py). They compute the same points and read and write the same bytes. The
curve is that of `Spec/Curve.lean`.
-/

namespace Verif.EdBack
open Verif Verif.Ed

/-- C98. Affine addition is the textbook law, for any two pairs of integers, and its result is reduced. -/
theorem C98_affine_add (P Q : Pair) :
    (((edwards P Q).1 : Fq), ((edwards P Q).2 : Fq)) = Spec.plus ((P.1 : Fq), (P.2 : Fq)) ((Q.1 : Fq), (Q.2 : Fq)) ∧
    (0 ≤ (edwards P Q).1 ∧ (edwards P Q).1 < 2 ^ 255 - 19) ∧ (0 ≤ (edwards P Q).2 ∧ (edwards P Q).2 < 2 ^ 255 - 19) :=
  ⟨edwards_plus P Q, edwards_reduced P Q⟩

/-- C98. Affine subtraction is addition of the opposite point. -/
theorem C98_affine_sub (P Q : Pair) :
    (((edwardsMinus P Q).1 : Fq), ((edwardsMinus P Q).2 : Fq)) =
      Spec.plus ((P.1 : Fq), (P.2 : Fq)) (Spec.minus ((Q.1 : Fq), (Q.2 : Fq))) := by
  have h := edwards_plus P (-1 * Q.1 % q, Q.2)
  rw [← edwardsMinus_eq] at h
  refine h.trans (congrArg _ ?_)
  refine Prod.ext ?_ rfl
  show ((-1 * Q.1 % q : ℤ) : Fq) = -(Q.1 : Fq)
  rw [cast_mod_q]
  push_cast
  ring

/-- C98. Multiplying a point of the curve in affine coordinates is repeated addition. -/
theorem C98_affine_times (P : Pair) (h : Spec.OnCurve ((P.1 : Fq), (P.2 : Fq))) (e : ℕ) :
    (((EdBack.scalarmult P e).1 : Fq), ((EdBack.scalarmult P e).2 : Fq)) = Spec.times ((P.1 : Fq), (P.2 : Fq)) e := by
  obtain ⟨p, hp⟩ := (onCurve_iff _).mp h
  have := scalarmult_point (P := P) (p := p) hp.symm e
  rw [toAff_times, hp] at this
  exact this

/-- C98. Both multiples of the base point agree with the multiple the agent computes, and so do their encodings. -/
theorem C98_base (e : ℕ) :
    (((scalarmultBase e).1 : Fq), ((scalarmultBase e).2 : Fq)) = affine (scalarmultB e) ∧
    EdBack.scalarmult EdBack.B e = scalarmultBase e ∧ EdBack.encodePoint (scalarmultBase e) = Ed.encodePoint (scalarmultB e) ∧
    affine (pointMul e Ed.B) = affine (scalarmultB e) := by
  refine ⟨?_, ?_, ?_, ?_⟩
  · rw [affine_rep (rep_scalarmultB e)]
    exact scalarmultBase_point e
  · exact pair_ext (smulFuel_reduced _ _ _) (scalarmultBase_reduced _) ((scalarmult_point B_point e).trans (scalarmultBase_point e).symm)
  · rw [encodePoint_rep (rep_scalarmultB e)]
    exact encode_point (scalarmultBase_reduced e) (scalarmultBase_point e)
  · rw [affine_rep (rep_scalarmultB e), affine_rep (rep_pointMul rep_base e)]

/-- C98. The extended addition of RFC 8032, on points of the curve. -/
theorem C98_ietf_add (P Q : Ext) (hP : Ed.isOnCurve P = true) (hQ : Ed.isOnCurve Q = true) :
    Ed.isOnCurve (pointAdd P Q) = true ∧ affine (pointAdd P Q) = Spec.plus (affine P) (affine Q) ∧
    affine (pointAdd P Q) = affine (Ed.add P Q) := by
  obtain ⟨p, hp⟩ := (isOnCurve_iff P).mp hP
  obtain ⟨r, hr⟩ := (isOnCurve_iff Q).mp hQ
  have h := rep_pointAdd hp hr
  refine ⟨(isOnCurve_iff _).mpr ⟨_, h⟩, ?_, ?_⟩
  · rw [affine_rep h, affine_rep hp, affine_rep hr, toAff_add]
  · rw [affine_rep h, affine_rep (rep_add hp hr)]

/-- C98. The extended multiplication of RFC 8032, on points of the curve. -/
theorem C98_ietf_times (P : Ext) (hP : Ed.isOnCurve P = true) (e : ℕ) :
    Ed.isOnCurve (pointMul e P) = true ∧ affine (pointMul e P) = Spec.times (affine P) e ∧
    affine (pointMul e P) = affine (Ed.scalarmult P e) := by
  obtain ⟨p, hp⟩ := (isOnCurve_iff P).mp hP
  have h := rep_pointMul hp e
  refine ⟨(isOnCurve_iff _).mpr ⟨_, h⟩, ?_, ?_⟩
  · rw [affine_rep h, affine_rep hp, toAff_times]
  · rw [affine_rep h, affine_rep (Ed.rep_smul hp e)]

/-- C98. Recovering `x` gives the same integer. -/
theorem C98_xrecover (y : ℤ) : EdBack.xrecover y = Ed.xrecover y := xrecover_eq y

/-- C98. A square root of a square squares back. -/
theorem C98_sqroot (a : ℤ) (s : Fq) (h : (a : Fq) = s * s) : ((sqroot a : ℤ) : Fq) * ((sqroot a : ℤ) : Fq) = (a : Fq) := by
  rw [← sq] at h ⊢
  exact sqroot_sq a s h

/-- C98. Writing a point: reduced affine pairs as the agent's coordinates of the same point, the RFC's bytes for any coordinates. -/
theorem C98_encode (P : Pair) (Q : Ext) (hr : (0 ≤ P.1 ∧ P.1 < 2 ^ 255 - 19) ∧ (0 ≤ P.2 ∧ P.2 < 2 ^ 255 - 19)) (hQ : Ed.isOnCurve Q = true)
    (h : ((P.1 : Fq), (P.2 : Fq)) = affine Q) : EdBack.encodePoint P = Ed.encodePoint Q := by
  obtain ⟨p, hp⟩ := (isOnCurve_iff Q).mp hQ
  rw [affine_rep hp] at h
  rw [encodePoint_rep hp, encode_point hr h]

theorem C98_compress (P : Ext) : pointCompress P = Ed.encodePoint P := compress_eq P

/-- C98. Reading a point with the check: the same bytes are accepted and the same coordinates read. -/
theorem C98_decode (s : Bytes) :
    Ed.decodePoint s = (EdBack.decodePointCheck s).map fun r => ⟨r.1, r.2, 1, r.1 * r.2 % (2 ^ 255 - 19)⟩ := (decodeCheck_eq s).symm

/-- C98. Reading without the check loses nothing: writing what was read gives the bytes back, whatever they are. -/
theorem C98_reencode (s : Bytes) (hl : s.length = 32) : ∃ P, EdBack.decodePoint s = some P ∧ EdBack.encodePoint P = s := by
  have h : ∃ P, EdBack.decodePoint s = some P := by
    rw [EdBack.decodePoint, if_neg (by omega)]
    exact ⟨_, rfl⟩
  obtain ⟨P, hP⟩ := h
  exact ⟨P, hP, reencode hl hP⟩

/-- The bytes of the identity with the sign bit set: `y = 1`, `x = 0` said to be odd. -/
def negZero : Bytes := 1 :: (List.replicate 30 0 ++ [0x80])

theorem negZero_bits {s : Bytes} (hl : s.length = 32) (h : bitSum s 255 = 1 ∧ bit s 255 = 1) : s = negZero := by
  apply bitSum_inj hl (by decide)
  rw [bitSum_split, h.1, h.2]
  decide +kernel

/-- C98. The RFC's reader agrees with the agent's on all 32 bytes but one. (Missing: those bytes, see `C98_false_decompress`.) -/
theorem C98_decompress_partial (s : Bytes) (hl : s.length = 32) (h : s ≠ negZero) : pointDecompress s = some (Ed.decodePoint s) := by
  rw [decompress_eq s hl.ge, if_neg (fun h' => h (negZero_bits hl h'))]

/-- C98 fails for one string of bytes: the RFC requires them to be refused, and the agent reads them as the identity. -/
theorem C98_false_decompress :
    pointDecompress negZero = some none ∧ ∃ P, Ed.decodePoint negZero = some P ∧ affine P = Spec.zero ∧ Ed.encodePoint P ≠ negZero := by
  refine ⟨by decide +kernel, ⟨q, 1, 1, 0⟩, by decide +kernel, ?_, by decide +kernel⟩
  refine Prod.ext ?_ ?_
  · show ((q : ℤ) : Fq) / ((1 : ℤ) : Fq) = 0
    rw [cast_q, zero_div]
  · show ((1 : ℤ) : Fq) / ((1 : ℤ) : Fq) = 1
    simp

/-! The hypotheses hold for the base point; some values. -/

example : Ed.isOnCurve Ed.B = true ∧ EdBack.isOnCurve EdBack.B = true ∧ EdBack.B = (Ed.B.x, Ed.B.y) := by
  refine ⟨B_on, ?_, B_eq⟩
  rw [onCurve_pair, B_point, onCurve_iff]
  exact ⟨_, rfl⟩

example : Spec.OnCurve ((EdBack.B.1 : Fq), (EdBack.B.2 : Fq)) := by
  have := B_point
  exact (onCurve_iff _).mpr ⟨base, this.symm⟩

example : EdBack.scalarmult EdBack.B 5 = EdBack.edwards (EdBack.scalarmult EdBack.B 2) (EdBack.scalarmult EdBack.B 3) := by decide +kernel

/-- A root of 4: 2 or -2. -/
example : sqroot 4 = 2 ∨ sqroot 4 = q - 2 := by decide +kernel

example : pointDecompress (Ed.encodePoint Ed.B) = some (some Ed.B) ∧ Ed.encodePoint Ed.B ≠ negZero := by decide +kernel

end Verif.EdBack
