import Verif.Spec.Curve
import Verif.Lemmas.EdOrder

/-! C49, C50: curve arithmetic and inversion. -/

namespace Verif.Ed
open Verif Verif.Edwards

/-! ## Inversion -/

theorem qN_eq : qN = 2 ^ 255 - 19 := by decide +kernel
theorem lN_eq : lN = 2 ^ 252 + 27742317777372353535851937790883648493 := by decide +kernel

/-- C50. The addition chain returns the inverse modulo q of every integer that is not a multiple of q, reduced; for multiples of q it
returns 0. -/
theorem C50_inv (z : ℤ) : (0 ≤ inv z ∧ inv z < q) ∧ (z % q ≠ 0 → inv z * z % q = 1) ∧ (z % q = 0 → inv z = 0) := by
  refine ⟨inv_range z, fun h => ?_, fun h => ?_⟩
  · have hz : (z : Fq) ≠ 0 := fun h0 => h ((mod_q_eq_zero z).mpr h0)
    refine eq_of_cast (mod_q_range _) ⟨by norm_num, by decide +kernel⟩ ?_
    rw [cast_mod_q, Int.cast_mul, cast_inv, inv_mul_cancel₀ hz, Int.cast_one]
  · refine eq_of_cast (inv_range _) ⟨le_refl _, q_pos⟩ ?_
    rw [cast_inv, (mod_q_eq_zero z).mp h, inv_zero, Int.cast_zero]

/-- It is the power with exponent q - 2. -/
theorem C50_inv_power (z : ℤ) : inv z = z ^ (2 ^ 255 - 21) % q := by
  refine eq_of_cast (inv_range _) (mod_q_range _) ?_
  rw [cast_inv_pow, cast_mod_q, Int.cast_pow]

theorem mod_l_eq_zero (a : ℤ) : a % l = 0 ↔ (a : Fl) = 0 := by
  rw [l_eq, ZMod.intCast_zmod_eq_zero_iff_dvd]
  exact ⟨Int.dvd_of_emod_eq_zero, Int.emod_eq_zero_of_dvd⟩

/-- C50. Scalar inversion: the inverse modulo l of every scalar that is not zero modulo l. -/
theorem C50_scalar_inv (v : ℤ) : (0 ≤ scInv v ∧ scInv v < l) ∧ (v % l ≠ 0 → scInv v * v % l = 1) ∧ (v % l = 0 → scInv v = 0) := by
  have hr : 0 ≤ scInv v ∧ scInv v < l := expmod_range (by decide +kernel) _ _ _
  have hc : ((scInv v : ℤ) : Fl) = (v : Fl) ^ (lN - 2) := by
    rw [scInv, cast_expmod_l _ _ _ (by norm_num)]
    rfl
  have eq_l {a b : ℤ} (ha : 0 ≤ a ∧ a < l) (hb : 0 ≤ b ∧ b < l) (h : (a : Fl) = (b : Fl)) : a = b := by
    have : a % l = b % l := by rw [l_eq]; exact (ZMod.intCast_eq_intCast_iff _ _ _).mp h
    rwa [Int.emod_eq_of_lt ha.1 ha.2, Int.emod_eq_of_lt hb.1 hb.2] at this
  refine ⟨hr, fun h => ?_, fun h => ?_⟩
  · have hz : (v : Fl) ≠ 0 := fun h0 => h ((mod_l_eq_zero v).mpr h0)
    refine eq_l ⟨Int.emod_nonneg _ (ne_of_gt l_pos), Int.emod_lt_of_pos _ l_pos⟩ ⟨by norm_num, by decide +kernel⟩ ?_
    rw [cast_mod_l, Int.cast_mul, hc, ← pow_succ, Int.cast_one]
    have := ZMod.pow_card_sub_one_eq_one hz
    exact this
  · refine eq_l hr ⟨le_refl _, l_pos⟩ ?_
    rw [hc, (mod_l_eq_zero v).mp h, Int.cast_zero, zero_pow]
    decide +kernel

example : inv 2 = (q + 1) / 2 ∧ scInv 8 * 8 % l = 1 ∧ (2 : ℤ) % q ≠ 0 := by decide +kernel

/-! ## The group law -/

/-- The affine point that extended coordinates stand for. -/
noncomputable def affine (P : Ext) : Spec.Aff := ((P.x : Fq) / P.z, (P.y : Fq) / P.z)

theorem dA_eq : Spec.dA = dF := dF_eq.symm

def toAff (p : Point) : Spec.Aff := (p.x, p.y)

theorem toAff_injective {p r : Point} (h : toAff p = toAff r) : p = r :=
  Pt.ext' (congrArg Prod.fst h) (congrArg Prod.snd h)

theorem affine_rep {P : Ext} {p : Point} (h : Rep P p) : affine P = toAff p := by
  refine Prod.ext ?_ ?_
  · show (P.x : Fq) / P.z = p.x
    rw [h.x, mul_div_assoc, div_self h.z, mul_one]
  · show (P.y : Fq) / P.z = p.y
    rw [h.y, mul_div_assoc, div_self h.z, mul_one]

theorem onCurve_iff (p : Spec.Aff) : Spec.OnCurve p ↔ ∃ r : Point, toAff r = p := by
  unfold Spec.OnCurve
  rw [dA_eq]
  constructor
  · intro h
    exact ⟨⟨p.1, p.2, by unfold On; linear_combination h⟩, rfl⟩
  · rintro ⟨r, rfl⟩
    have := r.on
    unfold On at this
    show -r.x ^ 2 + r.y ^ 2 = 1 + dF * r.x ^ 2 * r.y ^ 2
    linear_combination this

theorem toAff_add (p r : Point) : toAff (p + r) = Spec.plus (toAff p) (toAff r) := by
  unfold Spec.plus
  rw [dA_eq]
  rfl

theorem toAff_times (p : Point) (n : ℕ) : toAff (n • p) = Spec.times (toAff p) n := by
  induction n with
  | zero => rw [zero_nsmul]; rfl
  | succ n ih => rw [succ_nsmul, toAff_add, ih]; rfl

/-- C49. The program's on-curve test: the coordinates are those of an affine point of the curve. -/
theorem C49_on_curve (P : Ext) :
    isOnCurve P = true ↔ (P.z : Fq) ≠ 0 ∧ (P.t : Fq) / P.z = (P.x : Fq) / P.z * ((P.y : Fq) / P.z) ∧ Spec.OnCurve (affine P) := by
  rw [isOnCurve_iff]
  constructor
  · rintro ⟨p, hp⟩
    have ha := affine_rep hp
    refine ⟨hp.z, ?_, (onCurve_iff _).mpr ⟨p, ha.symm⟩⟩
    have h1 : (P.x : Fq) / P.z = p.x := congrArg Prod.fst ha
    have h2 : (P.y : Fq) / P.z = p.y := congrArg Prod.snd ha
    rw [h1, h2, hp.t, mul_div_assoc, div_self hp.z, mul_one]
  · rintro ⟨hz, ht, ho⟩
    obtain ⟨p, hp⟩ := (onCurve_iff _).mp ho
    have h1 : p.x = (P.x : Fq) / P.z := congrArg Prod.fst hp
    have h2 : p.y = (P.y : Fq) / P.z := congrArg Prod.snd hp
    refine ⟨p, hz, ?_, ?_, ?_⟩
    · rw [h1, div_mul_cancel₀ _ hz]
    · rw [h2, div_mul_cancel₀ _ hz]
    · rw [h1, h2, ← ht, div_mul_cancel₀ _ hz]

/-- C49. Addition, for any two points of the curve (equal, opposite, of small order): the result is on the curve and is the affine sum. -/
theorem C49_add (P Q : Ext) (hP : isOnCurve P = true) (hQ : isOnCurve Q = true) :
    isOnCurve (add P Q) = true ∧ affine (add P Q) = Spec.plus (affine P) (affine Q) := by
  obtain ⟨p, hp⟩ := (isOnCurve_iff P).mp hP
  obtain ⟨r, hr⟩ := (isOnCurve_iff Q).mp hQ
  have h := rep_add hp hr
  exact ⟨(isOnCurve_iff _).mpr ⟨_, h⟩, by rw [affine_rep h, affine_rep hp, affine_rep hr, toAff_add]⟩

/-- C49. Doubling. -/
theorem C49_double (P : Ext) (hP : isOnCurve P = true) :
    isOnCurve (double P) = true ∧ affine (double P) = Spec.plus (affine P) (affine P) := by
  obtain ⟨p, hp⟩ := (isOnCurve_iff P).mp hP
  have h := rep_double hp
  exact ⟨(isOnCurve_iff _).mpr ⟨_, h⟩, by rw [affine_rep h, affine_rep hp, toAff_add]⟩

/-- C49. Negation and subtraction. -/
theorem C49_neg_sub (P Q : Ext) (hP : isOnCurve P = true) (hQ : isOnCurve Q = true) :
    (isOnCurve (neg Q) = true ∧ affine (neg Q) = Spec.minus (affine Q)) ∧
    isOnCurve (sub P Q) = true ∧ affine (sub P Q) = Spec.plus (affine P) (Spec.minus (affine Q)) := by
  obtain ⟨p, hp⟩ := (isOnCurve_iff P).mp hP
  obtain ⟨r, hr⟩ := (isOnCurve_iff Q).mp hQ
  have hn := rep_neg hr
  have h := rep_sub hp hr
  have he : affine (neg Q) = Spec.minus (affine Q) := by rw [affine_rep hn, affine_rep hr]; rfl
  refine ⟨⟨(isOnCurve_iff _).mpr ⟨_, hn⟩, he⟩, (isOnCurve_iff _).mpr ⟨_, h⟩, ?_⟩
  rw [← he, affine_rep h, affine_rep hp, affine_rep hn, sub_eq_add_neg, toAff_add]

/-- C49. Scalar multiplication by any number. -/
theorem C49_scalarmult (P : Ext) (hP : isOnCurve P = true) (e : ℕ) :
    isOnCurve (scalarmult P e) = true ∧ affine (scalarmult P e) = Spec.times (affine P) e := by
  obtain ⟨p, hp⟩ := (isOnCurve_iff P).mp hP
  have h := rep_smul hp e
  exact ⟨(isOnCurve_iff _).mpr ⟨_, h⟩, by rw [affine_rep h, affine_rep hp, toAff_times]⟩

/-- C49. Multiplication of the base point with the precomputed table, which first reduces modulo l, is multiplication by the number
itself. -/
theorem C49_scalarmult_base (e : ℕ) :
    isOnCurve (scalarmultB e) = true ∧ affine (scalarmultB e) = Spec.times (affine B) e ∧
    affine (scalarmultB e) = affine (scalarmult B e) := by
  have h := rep_scalarmultB e
  have h2 := rep_smul rep_base e
  refine ⟨(isOnCurve_iff _).mpr ⟨_, h⟩, ?_, ?_⟩
  · rw [affine_rep h, affine_rep rep_base, toAff_times]
  · rw [affine_rep h, affine_rep h2]

/-- The base point is on the curve, has `y = 4/5` and an even `x`. -/
theorem C49_base : isOnCurve B = true ∧ (affine B).2 = 4 / 5 ∧ B.x % 2 = 0 ∧ B.z = 1 := by
  refine ⟨B_on, ?_, by decide +kernel, by decide +kernel⟩
  show (B.y : Fq) / B.z = 4 / 5
  have hz : B.z = 1 := rfl
  have hy : B.y = By % q := rfl
  rw [hz, hy, cast_mod_q, By, Int.cast_mul, cast_inv, Int.cast_one, div_one]
  norm_num [div_eq_mul_inv]

/-- C49. Equality of points is equality of affine points. -/
theorem C49_equal (P Q : Ext) (hP : isOnCurve P = true) (hQ : isOnCurve Q = true) :
    pointEqual P Q = true ↔ affine P = affine Q := by
  obtain ⟨p, hp⟩ := (isOnCurve_iff P).mp hP
  obtain ⟨r, hr⟩ := (isOnCurve_iff Q).mp hQ
  rw [pointEqual_iff hp hr, affine_rep hp, affine_rep hr]
  exact ⟨fun h => by rw [h], toAff_injective⟩

/-- The affine law is a commutative group law (so the code's reorderings of sums are harmless). -/
theorem C49_group (p r s : Spec.Aff) (hp : Spec.OnCurve p) (hr : Spec.OnCurve r) (hs : Spec.OnCurve s) :
    Spec.OnCurve (Spec.plus p r) ∧ Spec.plus p r = Spec.plus r p ∧
    Spec.plus (Spec.plus p r) s = Spec.plus p (Spec.plus r s) ∧ Spec.plus Spec.zero p = p ∧ Spec.plus (Spec.minus p) p = Spec.zero := by
  obtain ⟨p, rfl⟩ := (onCurve_iff _).mp hp
  obtain ⟨r, rfl⟩ := (onCurve_iff _).mp hr
  obtain ⟨s, rfl⟩ := (onCurve_iff _).mp hs
  have hz : Spec.zero = toAff (0 : Point) := rfl
  have hm : Spec.minus (toAff p) = toAff (-p) := rfl
  rw [hm, hz]
  simp only [← toAff_add]
  exact ⟨(onCurve_iff _).mpr ⟨_, rfl⟩, by rw [add_comm], by rw [add_assoc], by rw [zero_add], by rw [neg_add_cancel]⟩

/-- The curve has 8 l points, and the base point has order l: what clearing the cofactor by multiplying by eight relies on. -/
theorem C49_order : Nat.card {p : Spec.Aff // Spec.OnCurve p} = 8 * (2 ^ 252 + 27742317777372353535851937790883648493) ∧
    (∀ n : ℕ, Spec.times (affine B) n = Spec.zero ↔ (2 ^ 252 + 27742317777372353535851937790883648493) ∣ n) ∧
    ∀ p, Spec.OnCurve p → Spec.times (Spec.times p 8) (2 ^ 252 + 27742317777372353535851937790883648493) = Spec.zero := by
  rw [← lN_eq]
  refine ⟨?_, fun n => ?_, fun p hp => ?_⟩
  · rw [← card_point]
    refine Nat.card_congr (Equiv.ofBijective (fun r : Point => (⟨toAff r, (onCurve_iff _).mpr ⟨r, rfl⟩⟩ : {p : Spec.Aff // Spec.OnCurve p}))
      ⟨fun a b h => toAff_injective (congrArg Subtype.val h), fun p => ?_⟩).symm
    obtain ⟨r, hr⟩ := (onCurve_iff _).mp p.2
    exact ⟨r, Subtype.ext hr⟩
  · rw [affine_rep rep_base, ← toAff_times, ← order_base, addOrderOf_dvd_iff_nsmul_eq_zero]
    exact ⟨fun h => toAff_injective (r := 0) h, fun h => congrArg toAff h⟩
  · obtain ⟨p, rfl⟩ := (onCurve_iff _).mp hp
    rw [← toAff_times, ← toAff_times]
    exact congrArg toAff (l_eight p)

/-! ## Point encodings -/

/-- C49. Decoding an encoded point returns the point: with `z = 1` and the same affine coordinates. -/
theorem C49_encode_decode (P : Ext) (hP : isOnCurve P = true) :
    ∃ R, decodePoint (encodePoint P) = some R ∧ isOnCurve R = true ∧ affine R = affine P ∧ (encodePoint P).length = 32 := by
  obtain ⟨p, hp⟩ := (isOnCurve_iff P).mp hP
  refine ⟨canon p, ?_, (isOnCurve_iff _).mpr ⟨p, rep_canon p⟩, ?_, ?_⟩
  · rw [encodePoint_rep hp, decode_encPt]
  · rw [affine_rep (rep_canon p), affine_rep hp]
  · rw [encodePoint_rep hp, encPt_length]

/-- C49. Encodings depend on the point only, and determine it. -/
theorem C49_encode_injective (P Q : Ext) (hP : isOnCurve P = true) (hQ : isOnCurve Q = true) :
    encodePoint P = encodePoint Q ↔ affine P = affine Q := by
  obtain ⟨p, hp⟩ := (isOnCurve_iff P).mp hP
  obtain ⟨r, hr⟩ := (isOnCurve_iff Q).mp hQ
  rw [encodePoint_rep hp, encodePoint_rep hr, affine_rep hp, affine_rep hr]
  exact ⟨fun h => by rw [encPt_injective h], fun h => by rw [toAff_injective h]⟩

/-- C49. Whatever decodes is on the curve. -/
theorem C49_decoded_on_curve (s : Bytes) (P : Ext) (h : decodePoint s = some P) : isOnCurve P = true :=
  (isOnCurve_iff _).mpr (decodePoint_rep h)

example : isOnCurve (add B (double B)) = true ∧ pointEqual (add B (double B)) (scalarmult B 3) = true ∧
    (add B (double B)).z ≠ 1 := by decide +kernel

end Verif.Ed
