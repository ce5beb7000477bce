import Verif.Model.EdBack
import Verif.Lemmas.EdOrder
import Verif.Props.Curve

/-! The three implementations of the curve compute the same group. -/

namespace Verif.EdBack
open Verif Verif.Ed

theorem invPow_eq (z : ℤ) : invPow z = inv z :=
  eq_of_cast (expmod_range (by decide +kernel) _ _ _) (inv_range z) (by
    rw [invPow, cast_expmod_q _ _ _ (by norm_num), cast_inv_pow])

theorem modpInv_eq (z : ℤ) : modpInv z = inv z := invPow_eq z

theorem cast_dB : ((EdBack.d : ℤ) : Fq) = dF := by
  rw [EdBack.d, dF_eq, Int.cast_mul, invPow_eq, cast_inv]
  push_cast
  rw [div_eq_mul_inv]

theorem dI_eq : dI = Ed.d := by rw [dI, modpInv_eq, Ed.d]

theorem inv_congr {a b : ℤ} (h : (a : Fq) = (b : Fq)) : inv a = inv b :=
  eq_of_cast (inv_range _) (inv_range _) (by rw [cast_inv, cast_inv, h])

theorem xrecover_eq (y : ℤ) : EdBack.xrecover y = Ed.xrecover y := by
  have h : invPow (EdBack.d * y * y + 1) = inv (Ed.d * y * y + 1) := by
    rw [invPow_eq]
    apply inv_congr
    push_cast
    rw [cast_dB, cast_d]
  unfold EdBack.xrecover Ed.xrecover
  rw [h]
  rfl

theorem By_eq : EdBack.By = Ed.By := by rw [EdBack.By, Ed.By, invPow_eq]

theorem B_eq : EdBack.B = (Ed.B.x, Ed.B.y) := by
  rw [EdBack.B, EdBack.Bx, xrecover_eq, By_eq]
  rfl

/-- The field elements of a pair. -/
def pairAff (P : Pair) : Spec.Aff := ((P.1 : Fq), (P.2 : Fq))

def Reduced (P : Pair) : Prop := (0 ≤ P.1 ∧ P.1 < q) ∧ 0 ≤ P.2 ∧ P.2 < q

theorem pair_ext {P Q : Pair} (hP : Reduced P) (hQ : Reduced Q) (h : pairAff P = pairAff Q) : P = Q :=
  Prod.ext (eq_of_cast hP.1 hQ.1 (congrArg Prod.fst h)) (eq_of_cast hP.2 hQ.2 (congrArg Prod.snd h))

theorem edwards_reduced (P Q : Pair) : Reduced (edwards P Q) := ⟨mod_q_range _, mod_q_range _⟩

theorem edwards_plus (P Q : Pair) : pairAff (edwards P Q) = Spec.plus (pairAff P) (pairAff Q) := by
  unfold Spec.plus
  rw [dA_eq]
  refine Prod.ext ?_ ?_
  · show (((P.1 * Q.2 + Q.1 * P.2) * invPow (1 + EdBack.d * P.1 * Q.1 * P.2 * Q.2) % q : ℤ) : Fq) = _
    rw [cast_mod_q, Int.cast_mul, invPow_eq, cast_inv]
    push_cast
    rw [cast_dB, div_eq_mul_inv]
    rfl
  · show (((P.2 * Q.2 + P.1 * Q.1) * invPow (1 - EdBack.d * P.1 * Q.1 * P.2 * Q.2) % q : ℤ) : Fq) = _
    rw [cast_mod_q, Int.cast_mul, invPow_eq, cast_inv]
    push_cast
    rw [cast_dB, div_eq_mul_inv]
    rfl

theorem edwardsMinus_eq (P Q : Pair) : edwardsMinus P Q = edwards P (-1 * Q.1 % q, Q.2) := rfl

theorem edwards_point {P Q : Pair} {p r : Point} (hP : pairAff P = toAff p) (hQ : pairAff Q = toAff r) :
    pairAff (edwards P Q) = toAff (p + r) := by rw [edwards_plus, hP, hQ, toAff_add]

theorem pairAff_zero : pairAff (0, 1) = toAff 0 := by
  refine Prod.ext ?_ ?_
  · show ((0 : ℤ) : Fq) = (0 : Point).x
    rw [Edwards.Pt.zero_x]; simp
  · show ((1 : ℤ) : Fq) = (0 : Point).y
    rw [Edwards.Pt.zero_y]; simp

theorem smulFuel_point {P : Pair} {p : Point} (hP : pairAff P = toAff p) (fuel e : ℕ) (h : e < 2 ^ fuel) :
    pairAff (EdBack.smulFuel fuel P e) = toAff (e • p) := by
  induction fuel generalizing e with
  | zero =>
    have : e = 0 := by simpa using h
    subst this
    rw [zero_nsmul]
    exact pairAff_zero
  | succ fuel ih =>
    rw [EdBack.smulFuel]
    by_cases h0 : e = 0
    · rw [if_pos h0, h0, zero_nsmul]
      exact pairAff_zero
    · rw [if_neg h0]
      simp only
      have hh := ih (e / 2) (by rw [pow_succ] at h; omega)
      have h2 := edwards_point hh hh
      have e2 : e = e / 2 + e / 2 + e % 2 := by omega
      by_cases h1 : e % 2 = 1
      · rw [if_pos h1, edwards_point h2 hP]
        conv_rhs => rw [e2, h1, add_nsmul, add_nsmul, one_nsmul]
      · rw [if_neg h1, h2]
        conv_rhs => rw [e2, show e % 2 = 0 by omega, add_zero, add_nsmul]

theorem scalarmult_point {P : Pair} {p : Point} (hP : pairAff P = toAff p) (e : ℕ) :
    pairAff (EdBack.scalarmult P e) = toAff (e • p) := smulFuel_point hP _ _ Nat.lt_log2_self

theorem smulFuel_reduced (P : Pair) (fuel e : ℕ) : Reduced (EdBack.smulFuel fuel P e) := by
  have h0 : Reduced (0, 1) := by unfold Reduced; decide +kernel
  cases fuel with
  | zero => exact h0
  | succ fuel =>
    rw [EdBack.smulFuel]
    split
    · exact h0
    · simp only
      split
      · exact edwards_reduced _ _
      · exact edwards_reduced _ _

theorem B_reduced : Reduced EdBack.B := ⟨mod_q_range _, mod_q_range _⟩

theorem B_point : pairAff EdBack.B = toAff base := by
  rw [B_eq, ← affine_rep rep_base]
  have hz : Ed.B.z = 1 := rfl
  refine Prod.ext ?_ ?_
  · show (Ed.B.x : Fq) = (Ed.B.x : Fq) / (Ed.B.z : Fq)
    rw [hz]; simp
  · show (Ed.B.y : Fq) = (Ed.B.y : Fq) / (Ed.B.z : Fq)
    rw [hz]; simp

theorem scalarmultBase_point (e : ℕ) : pairAff (scalarmultBase e) = toAff (e • base) := by
  rw [scalarmultBase]
  by_cases h0 : e = 0
  · rw [if_pos h0, h0, zero_nsmul]
    exact pairAff_zero
  · rw [if_neg h0]
    simp only
    have hh := scalarmult_point B_point (e / 2)
    have h2 := edwards_point hh hh
    have e2 : e = e / 2 + e / 2 + e % 2 := by omega
    by_cases h1 : e % 2 = 1
    · rw [if_pos h1, edwards_point h2 B_point]
      conv_rhs => rw [e2, h1, add_nsmul, add_nsmul, one_nsmul]
    · rw [if_neg h1, h2]
      conv_rhs => rw [e2, show e % 2 = 0 by omega, add_zero, add_nsmul]

theorem scalarmultBase_reduced (e : ℕ) : Reduced (scalarmultBase e) := by
  have h0 : Reduced (0, 1) := by unfold Reduced; decide +kernel
  rw [scalarmultBase]
  split
  · exact h0
  · simp only
    split
    · exact edwards_reduced _ _
    · exact edwards_reduced _ _

/-! ## The ietf version -/

theorem rep_congr {P Q : Ext} {p : Point} (hx : (P.x : Fq) = Q.x) (hy : (P.y : Fq) = Q.y) (hz : (P.z : Fq) = Q.z) (ht : (P.t : Fq) = Q.t)
    (h : Rep Q p) : Rep P p :=
  ⟨by rw [hz]; exact h.z, by rw [hx, hz]; exact h.x, by rw [hy, hz]; exact h.y, by rw [ht, hz]; exact h.t⟩

theorem rep_pointAdd {P Q : Ext} {p r : Point} (hP : Rep P p) (hQ : Rep Q r) : Rep (pointAdd P Q) (p + r) := by
  refine rep_congr ?_ ?_ ?_ ?_ (rep_add hP hQ)
  all_goals
    simp only [pointAdd, Ed.add, dI_eq, cast_mod_q, Int.cast_mul, Int.cast_sub, Int.cast_add, Int.cast_ofNat]
    try ring

theorem rep_pointMulLoop (fuel s : ℕ) (P Q : Ext) (p r : Point) (h : s < 2 ^ fuel) (hP : Rep P p) (hQ : Rep Q r) :
    Rep (pointMulLoop fuel s P Q) (r + s • p) := by
  induction fuel generalizing s P Q p r with
  | zero =>
    have : s = 0 := by simpa using h
    subst this
    rw [zero_nsmul, add_zero]
    exact hQ
  | succ fuel ih =>
    rw [pointMulLoop]
    by_cases h0 : s > 0
    · rw [if_pos h0]
      have hlt : s / 2 < 2 ^ fuel := by rw [pow_succ] at h; omega
      have e2 : s = s / 2 + s / 2 + s % 2 := by omega
      by_cases h1 : s % 2 = 1
      · rw [if_pos h1]
        have := ih (s / 2) _ _ _ _ hlt (rep_pointAdd hP hP) (rep_pointAdd hQ hP)
        have e3 : r + p + (s / 2) • (p + p) = r + s • p := by
          conv_rhs => rw [e2, h1, add_nsmul, add_nsmul, one_nsmul]
          rw [nsmul_add]
          generalize (s / 2) • p = u
          rw [add_assoc, add_comm p]
        rwa [e3] at this
      · rw [if_neg h1]
        have := ih (s / 2) _ _ _ _ hlt (rep_pointAdd hP hP) hQ
        have e3 : r + (s / 2) • (p + p) = r + s • p := by
          conv_rhs => rw [e2, show s % 2 = 0 by omega, add_zero, add_nsmul]
          rw [nsmul_add]
        rwa [e3] at this
    · rw [if_neg h0, show s = 0 by omega, zero_nsmul, add_zero]
      exact hQ

theorem rep_pointMul {P : Ext} {p : Point} (hP : Rep P p) (s : ℕ) : Rep (pointMul s P) (s • p) := by
  have := rep_pointMulLoop _ s P ⟨0, 1, 1, 0⟩ p 0 Nat.lt_log2_self hP rep_ident
  rwa [zero_add] at this

/-! ## Encodings -/

theorem intBit_top {y : ℤ} (h0 : 0 ≤ y) (h1 : y < q) (b : ℤ) (i : ℕ) (hi : i < 256) (hb : 0 ≤ b ∧ b < 2) :
    intBit (y + b * 2 ^ 255) i = if i < 255 then intBit y i else b.toNat := by
  have hq : q < 2 ^ 255 := by decide +kernel
  unfold intBit
  by_cases h : i < 255
  · rw [if_pos h]
    have e : (2 : ℤ) ^ 255 = 2 ^ (254 - i) * 2 * 2 ^ i := by
      rw [mul_assoc, ← pow_succ', ← pow_add]
      congr 1
      omega
    rw [e, show y + b * (2 ^ (254 - i) * 2 * 2 ^ i) = y + (b * 2 ^ (254 - i) * 2) * 2 ^ i by ring,
      Int.add_mul_ediv_right _ _ (by positivity), Int.add_mul_emod_self_right]
  · rw [if_neg h]
    have : i = 255 := by omega
    subst this
    rw [Int.add_mul_ediv_right _ _ (by positivity), Int.ediv_eq_zero_of_lt h0 (lt_trans h1 hq), zero_add,
      Int.emod_eq_of_lt hb.1 hb.2]

theorem packBits_congr {f g : ℕ → ℕ} (h : ∀ i, i < 256 → f i = g i) : packBits f = packBits g := by
  unfold packBits
  apply List.map_congr_left
  intro i hi
  have hi := List.mem_range.mp hi
  congr 2
  apply List.map_congr_left
  intro j hj
  have hj := List.mem_range.mp hj
  rw [h _ (by omega)]

theorem compress_eq (P : Ext) : pointCompress P = Ed.encodePoint P := by
  unfold pointCompress Ed.encodePoint
  simp only [modpInv_eq]
  unfold encodeInt
  apply packBits_congr
  intro i hi
  exact intBit_top (mod_q_range _).1 (mod_q_range _).2 _ i hi ⟨by omega, by omega⟩

theorem encode_point {P : Pair} {p : Point} (hr : Reduced P) (h : pairAff P = toAff p) : EdBack.encodePoint P = encPt p := by
  have h1 : P.1 = val p.x := eq_of_cast hr.1 (val_range _) (by rw [cast_val]; exact congrArg Prod.fst h)
  have h2 : P.2 = val p.y := eq_of_cast hr.2 (val_range _) (by rw [cast_val]; exact congrArg Prod.snd h)
  rw [EdBack.encodePoint, h1, h2]
  rfl

theorem onCurve_pair (P : Pair) : EdBack.isOnCurve P = true ↔ Spec.OnCurve (pairAff P) := by
  unfold EdBack.isOnCurve Spec.OnCurve
  rw [beq_iff_eq, mod_q_eq_zero, dA_eq]
  push_cast
  rw [cast_dB]
  show _ ↔ -(P.1 : Fq) ^ 2 + (P.2 : Fq) ^ 2 = 1 + dF * (P.1 : Fq) ^ 2 * (P.2 : Fq) ^ 2
  constructor
  · intro h; linear_combination h
  · intro h; linear_combination h

theorem onCurve_ext (x y : ℤ) : Ed.isOnCurve ⟨x, y, 1, x * y % q⟩ = true ↔ Spec.OnCurve (pairAff (x, y)) := by
  rw [isOnCurve_iff, onCurve_iff]
  constructor
  · rintro ⟨p, hp⟩
    refine ⟨p, ?_⟩
    rw [← affine_rep hp]
    refine Prod.ext ?_ ?_
    · show (x : Fq) / ((1 : ℤ) : Fq) = x
      simp
    · show (y : Fq) / ((1 : ℤ) : Fq) = y
      simp
  · rintro ⟨p, hp⟩
    have h1 : p.x = (x : Fq) := congrArg Prod.fst hp
    have h2 : p.y = (y : Fq) := congrArg Prod.snd hp
    refine ⟨p, ⟨?_, ?_, ?_, ?_⟩⟩ <;> simp [h1, h2]

theorem decodeCheck_eq (s : Bytes) :
    (EdBack.decodePointCheck s).map (fun r => (⟨r.1, r.2, 1, r.1 * r.2 % q⟩ : Ext)) = Ed.decodePoint s := by
  unfold EdBack.decodePointCheck EdBack.decodePoint Ed.decodePoint
  by_cases hl : s.length < 32
  · rw [if_pos hl, if_pos hl]; rfl
  · rw [if_neg hl, if_neg hl]
    simp only [xrecover_eq]
    generalize (if Ed.xrecover (bitSum s 255 : ℤ) % 2 ≠ (bit s 255 : ℤ) then q - Ed.xrecover (bitSum s 255 : ℤ) else
      Ed.xrecover (bitSum s 255 : ℤ)) = x
    generalize (bitSum s 255 : ℤ) = y
    have : EdBack.isOnCurve (x, y) = Ed.isOnCurve ⟨x, y, 1, x * y % q⟩ := by
      rw [Bool.eq_iff_iff, onCurve_pair, onCurve_ext]
    rw [this]
    split <;> rfl

theorem intBit_bitSum (s : Bytes) (n i : ℕ) (h : i < n) : intBit (bitSum s n : ℤ) i = bit s i := by
  rw [intBit_nat, bitSum_bit _ _ _ h]

theorem bit_le (s : Bytes) (i : ℕ) : bit s i ≤ 1 := by unfold bit; omega

theorem reencode {s : Bytes} (hl : s.length = 32) {P : Pair} (h : EdBack.decodePoint s = some P) : EdBack.encodePoint P = s := by
  rw [EdBack.decodePoint, if_neg (by omega)] at h
  simp only at h
  obtain ⟨-, he, -⟩ := xrecover_spec (bitSum s 255 : ℤ)
  rw [xrecover_eq] at h
  generalize Ed.xrecover (bitSum s 255 : ℤ) = x at *
  have hb := bit_le s 255
  have hqodd : q % 2 = 1 := by decide +kernel
  have hx : (if x % 2 ≠ (bit s 255 : ℤ) then q - x else x) % 2 = (bit s 255 : ℤ) := by
    generalize q = Q at *
    split <;> omega
  generalize (if x % 2 ≠ (bit s 255 : ℤ) then q - x else x) = x' at *
  rw [← Option.some.inj h, EdBack.encodePoint, ← packBits_bit s hl]
  apply packBits_congr
  intro i hi
  rw [packBits_bit s hl]
  show (if i < 255 then intBit (bitSum s 255 : ℤ) i else (x' % 2).toNat) = bit s i
  by_cases h5 : i < 255
  · rw [if_pos h5, intBit_bitSum _ _ _ h5]
  · rw [if_neg h5, show i = 255 by omega, hx]
    rfl

/-! ## Recovery of `x` in the ietf version -/

theorem onCurve_x2 (x y : ℤ) :
    Spec.OnCurve (pairAff (x, y)) ↔ (x * x - (y * y - 1) * inv (Ed.d * y * y + 1)) % q = 0 := by
  rw [mod_q_eq_zero]
  push_cast
  rw [cast_inv]
  push_cast
  rw [cast_d]
  unfold Spec.OnCurve
  rw [dA_eq]
  show -(x : Fq) ^ 2 + (y : Fq) ^ 2 = 1 + dF * (x : Fq) ^ 2 * (y : Fq) ^ 2 ↔ _
  have hd := den_y_ne (y : Fq)
  rw [sub_eq_zero, eq_mul_inv_iff_mul_eq₀ hd]
  constructor
  · intro h; linear_combination -h
  · intro h; linear_combination -h

theorem onCurve_neg (x y : ℤ) : Spec.OnCurve (pairAff (q - x, y)) ↔ Spec.OnCurve (pairAff (x, y)) := by
  unfold Spec.OnCurve
  show -((q - x : ℤ) : Fq) ^ 2 + (y : Fq) ^ 2 = 1 + Spec.dA * ((q - x : ℤ) : Fq) ^ 2 * (y : Fq) ^ 2 ↔
    -(x : Fq) ^ 2 + (y : Fq) ^ 2 = 1 + Spec.dA * (x : Fq) ^ 2 * (y : Fq) ^ 2
  rw [Int.cast_sub, cast_q, zero_sub, neg_sq]

/-- The candidate for the root, before its parity is chosen. -/
def root (y : ℤ) : ℤ :=
  let xx := (y * y - 1) * inv (Ed.d * y * y + 1)
  let x := expmod q 256 xx ((2 ^ 255 - 16) / 8)
  if (x * x - xx) % q ≠ 0 then x * I % q else x

theorem xrecover_root (y : ℤ) : Ed.xrecover y = if root y % 2 ≠ 0 then q - root y else root y := rfl

theorem split_div (n a b : ℕ) (h : a < 2 ^ n) : ((a + b * 2 ^ n : ℕ) : ℤ) / 2 ^ n = b := by
  push_cast
  rw [Int.add_mul_ediv_right _ _ (by positivity), Int.ediv_eq_zero_of_lt (by positivity) (by exact_mod_cast h), zero_add]

theorem split_mod (n a b : ℕ) (h : a < 2 ^ n) : ((a + b * 2 ^ n : ℕ) : ℤ) % 2 ^ n = a := by
  push_cast
  rw [Int.add_mul_emod_self_right, Int.emod_eq_of_lt (by positivity) (by exact_mod_cast h)]

/-- The `x` that `ed25519_2.decodepoint` computes. -/
def flip (y sign : ℤ) : ℤ := if Ed.xrecover y % 2 ≠ sign then q - Ed.xrecover y else Ed.xrecover y

theorem recoverX_spec (y : ℕ) (hy : y < 2 ^ 255) (sign : ℤ) (hs : sign = 0 ∨ sign = 1) :
    recoverX y sign = if y = 1 ∧ sign = 1 then none else
      if Ed.isOnCurve ⟨flip y sign, y, 1, flip y sign * y % q⟩ then some (flip y sign) else none := by
  have hqodd : q % 2 = 1 := by decide +kernel
  have hcurve : Ed.isOnCurve ⟨flip y sign, y, 1, flip y sign * y % q⟩ = true ↔ Spec.OnCurve (pairAff (Ed.xrecover y, (y : ℤ))) := by
    rw [onCurve_ext, flip]
    split
    · rw [onCurve_neg]
    · rfl
  by_cases hz : ((y : ℤ) * y - 1) * inv (Ed.d * y * y + 1) = 0
  · have hy1 : y = 1 := by
      rcases mul_eq_zero.mp hz with h | h
      · have h1 : y * y = 1 := by
          have : (y : ℤ) * y = 1 := by omega
          exact_mod_cast this
        exact Nat.eq_one_of_mul_eq_one_right h1
      · exfalso
        have h1 := cast_inv (Ed.d * y * y + 1)
        rw [h, Int.cast_zero] at h1
        push_cast at h1
        rw [cast_d] at h1
        have h2 := den_y_ne ((y : ℕ) : Fq)
        exact h2 (inv_eq_zero.mp h1.symm)
    rw [recoverX, modpInv_eq, dI_eq]
    simp only
    rw [if_pos hz]
    rcases hs with rfl | rfl
    · rw [if_neg (by simp), if_neg (by simp)]
      have hx : Ed.xrecover (y : ℤ) = 0 := by rw [hy1]; decide +kernel
      have hf : flip y 0 = 0 := by rw [flip, hx]; rfl
      have hc : Ed.isOnCurve ⟨flip y 0, y, 1, flip y 0 * y % q⟩ = true := by rw [hf, hy1]; decide +kernel
      rw [if_pos hc, hf]
    · rw [if_pos (by simp), if_pos ⟨hy1, rfl⟩]
  · have hne : ¬(y = 1 ∧ sign = 1) := by
      rintro ⟨rfl, -⟩
      exact hz (by norm_num)
    rw [if_neg hne, recoverX, modpInv_eq, dI_eq]
    simp only
    rw [if_neg hz]
    have hcx := fun x : ℤ => onCurve_x2 x (y : ℤ)
    rw [xrecover_root] at hcurve
    have hfl : flip y sign = if (if root y % 2 ≠ 0 then q - root y else root y) % 2 ≠ sign then q - (if root y % 2 ≠ 0 then q - root y else root y)
        else (if root y % 2 ≠ 0 then q - root y else root y) := by rw [flip, xrecover_root]
    show (if (root y * root y - ((y : ℤ) * y - 1) * inv (Ed.d * y * y + 1)) % q ≠ 0 then none
      else some (if root y % 2 ≠ sign then q - root y else root y)) = _
    generalize root y = x at *
    generalize ((y : ℤ) * y - 1) * inv (Ed.d * y * y + 1) = xx at *
    have hc1 : Spec.OnCurve (pairAff (if x % 2 ≠ 0 then q - x else x, (y : ℤ))) ↔ (x * x - xx) % q = 0 := by
      split
      · rw [onCurve_neg, hcx]
      · rw [hcx]
    rw [hc1] at hcurve
    by_cases hx : (x * x - xx) % q = 0
    · rw [if_pos (hcurve.mpr hx), if_neg (by simpa using hx), hfl]
      clear hc1 hcurve hx hfl hcx hz hne hy
      generalize q = Q at *
      refine congrArg some ?_
      rcases hs with rfl | rfl
      · by_cases h : x % 2 = 0
        · simp [h]
        · have h1 : (Q - x) % 2 = 0 := by omega
          simp [h, h1]
      · by_cases h : x % 2 = 0
        · simp [h]
        · have h1 : (Q - x) % 2 = 0 := by omega
          have h2 : x % 2 = 1 := by omega
          simp [h1, h2]
    · rw [if_pos hx, if_neg (fun h => hx (hcurve.mp h))]

theorem bitSum_split (s : Bytes) : bitSum s 256 = bitSum s 255 + bit s 255 * 2 ^ 255 := by
  unfold bitSum
  rw [List.range_succ, List.map_append, List.sum_append]
  simp [mul_comm]

theorem decompress_eq (s : Bytes) (hl : 32 ≤ s.length) :
    pointDecompress s = some (if bitSum s 255 = 1 ∧ bit s 255 = 1 then none else Ed.decodePoint s) := by
  have hlt := bitSum_lt s 255
  have hb := bit_le s 255
  have e1 : ((bitSum s 256 : ℕ) : ℤ) / 2 ^ 255 = (bit s 255 : ℤ) := by rw [bitSum_split]; exact split_div _ _ _ hlt
  have e2 : ((bitSum s 256 : ℕ) : ℤ) % 2 ^ 255 = (bitSum s 255 : ℤ) := by rw [bitSum_split]; exact split_mod _ _ _ hlt
  have hs : ((bit s 255 : ℕ) : ℤ) = 0 ∨ ((bit s 255 : ℕ) : ℤ) = 1 := by omega
  have hdec : Ed.decodePoint s = if Ed.isOnCurve ⟨flip (bitSum s 255 : ℕ) (bit s 255 : ℕ), (bitSum s 255 : ℕ), 1,
      flip (bitSum s 255 : ℕ) (bit s 255 : ℕ) * (bitSum s 255 : ℕ) % q⟩ then some ⟨flip (bitSum s 255 : ℕ) (bit s 255 : ℕ), (bitSum s 255 : ℕ), 1,
      flip (bitSum s 255 : ℕ) (bit s 255 : ℕ) * (bitSum s 255 : ℕ) % q⟩ else none := by
    rw [Ed.decodePoint, if_neg (by omega)]
    rfl
  rw [pointDecompress, decodeInt, if_neg (by omega)]
  simp only
  rw [e1, e2, recoverX_spec _ hlt _ hs]
  rw [hdec]
  clear hdec e1 e2 hlt hl
  generalize bitSum s 255 = y
  generalize bit s 255 = b at *
  by_cases h : y = 1 ∧ b = 1
  · rw [if_pos h, if_pos ⟨h.1, by rw [h.2]; rfl⟩]
  · rw [if_neg h, if_neg (fun h' => h ⟨h'.1, by exact_mod_cast h'.2⟩)]
    generalize flip (y : ℤ) (b : ℤ) = x
    by_cases hc : Ed.isOnCurve ⟨x, y, 1, x * y % q⟩ = true
    · rw [if_pos hc, if_pos hc]
    · rw [if_neg hc, if_neg hc]

theorem sqroot_sq (a : ℤ) (s : Fq) (h : (a : Fq) = s ^ 2) : ((sqroot a : ℤ) : Fq) ^ 2 = (a : Fq) := by
  have hlt : (2 ^ 255 - 16) / 8 < 2 ^ 256 := by norm_num
  unfold sqroot
  simp only
  have hc0 := pow_q_exp (a : Fq) _ hlt a rfl
  rw [powq] at hc0
  generalize expmod q 256 a ((2 ^ 255 - 16) / 8) = x0 at *
  have hcases := sqrt_cases s (a : Fq) h
  rw [← hc0] at hcases
  have hz : (x0 * x0 - a) % q = 0 ↔ (x0 : Fq) ^ 2 = a := by
    rw [mod_q_eq_zero, Int.cast_sub, Int.cast_mul, sub_eq_zero, sq]
  split
  · rename_i hne
    rw [ne_eq, hz] at hne
    rw [cast_mod_q, Int.cast_mul, mul_pow, I_sq, hcases.resolve_left hne]; ring
  · rename_i hne
    rw [ne_eq, hz, not_not] at hne
    exact hne

end Verif.EdBack
