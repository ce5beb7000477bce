import Verif.Lemmas.EdOrder

/-! Hashing to a point always lands on the curve. -/

namespace Verif.Ed
open Verif Verif.Edwards

theorem cast_invPow (x : ℤ) : ((invPow x : ℤ) : Fq) = (x : Fq)⁻¹ := by
  rw [invPow, cast_expmod_q _ _ _ (by norm_num), ← cast_inv_pow, cast_inv]

theorem feq {a b : ℤ} (h : (a - b) % q = 0) : (a : Fq) = (b : Fq) := by
  have := (mod_q_eq_zero _).mp h
  rw [Int.cast_sub] at this
  exact sub_eq_zero.mp this

abbrev AF : Fq := 486662

theorem sqrtm1_sq : ((feSqrtm1 : ℤ) : Fq) ^ 2 = -1 := by
  have := feq (a := feSqrtm1 ^ 2) (b := -1) (by decide +kernel)
  push_cast at this; exact this
theorem fffb1_sq : ((fffb1 : ℤ) : Fq) ^ 2 = -2 * AF * (AF + 2) := by
  have := feq (a := fffb1 ^ 2) (b := -2 * 486662 * (486662 + 2)) (by decide +kernel)
  push_cast at this; exact this
theorem fffb2_sq : ((fffb2 : ℤ) : Fq) ^ 2 = 2 * AF * (AF + 2) := by
  have := feq (a := fffb2 ^ 2) (b := 2 * 486662 * (486662 + 2)) (by decide +kernel)
  push_cast at this; exact this
theorem fffb3_sq : ((fffb3 : ℤ) : Fq) ^ 2 = -(feSqrtm1 : Fq) * AF * (AF + 2) := by
  have := feq (a := fffb3 ^ 2) (b := -feSqrtm1 * 486662 * (486662 + 2)) (by decide +kernel)
  push_cast at this; exact this
theorem fffb4_sq : ((fffb4 : ℤ) : Fq) ^ 2 = (feSqrtm1 : Fq) * AF * (AF + 2) := by
  have := feq (a := fffb4 ^ 2) (b := feSqrtm1 * 486662 * (486662 + 2)) (by decide +kernel)
  push_cast at this; exact this

theorem small_ne (n : ℤ) (h : n % q ≠ 0) : (n : Fq) ≠ 0 := fun h0 => h ((mod_q_eq_zero n).mpr h0)

theorem dF_A : dF * (AF + 2) = -(AF - 2) := by
  have h2 : ((121666 : ℤ) : Fq) ≠ 0 := small_ne _ (by decide +kernel)
  push_cast at h2
  rw [dF_eq, div_mul_eq_mul_div, div_eq_iff h2]
  norm_num

/-- 2 is not a square. -/
theorem two_nonsquare (s : Fq) : s ^ 2 ≠ 2 := by
  intro h
  have h0 : (2 : Fq) ^ ((qN - 1) / 2) = -1 := by
    have hv : (expmod q 256 2 ((qN - 1) / 2) - (-1)) % q = 0 := by decide +kernel
    have := feq hv
    rw [cast_expmod_q _ _ _ (by decide +kernel)] at this
    push_cast at this
    exact this
  have hs : s ≠ 0 := by
    rintro rfl
    exact two_ne (by rw [← h]; ring)
  have h1 := ZMod.pow_card_sub_one_eq_one hs
  have h2 : s ^ (qN - 1) = (2 : Fq) ^ ((qN - 1) / 2) := by
    rw [← h, ← pow_mul]
    congr 1
  rw [h1, h0] at h2
  apply two_ne
  linear_combination h2

/-- The heart: `x² (z² + w² + A z w) = -z w (A + 2)` makes `(x, (z - w)/(z + w))` a point of the curve. -/
theorem montgomery (x z w : Fq) (hw : w ≠ 0) (h : x ^ 2 * (z ^ 2 + w ^ 2 + AF * z * w) = -z * w * (AF + 2)) :
    z + w ≠ 0 ∧ On dF x ((z - w) / (z + w)) := by
  have hA : (AF + 2) ≠ 0 := by
    have := small_ne 486664 (by decide +kernel)
    push_cast at this
    norm_num at this ⊢
    exact this
  have hne : z + w ≠ 0 := by
    intro h0
    have hz : z = -w := by linear_combination h0
    have h1 : x ^ 2 * (2 - AF) = AF + 2 := by
      rw [hz] at h
      apply mul_right_cancel₀ (pow_ne_zero 2 hw)
      linear_combination h
    have h2 : x ^ 2 * dF = 1 := by
      apply mul_right_cancel₀ hA
      linear_combination x ^ 2 * dF_A + h1
    have hx : x ≠ 0 := by rintro rfl; simp at h2
    apply d_nonsquare (1 / x)
    rw [div_pow, one_pow, div_eq_iff (pow_ne_zero 2 hx)]
    linear_combination -h2
  refine ⟨hne, ?_⟩
  unfold On
  have h4 : (2 : Fq) ≠ 0 := two_ne
  apply mul_right_cancel₀ (pow_ne_zero 2 hne)
  apply mul_right_cancel₀ hA
  have e : ((z - w) / (z + w)) * (z + w) = z - w := div_mul_cancel₀ _ hne
  have e2 : ((z - w) / (z + w)) ^ 2 * (z + w) ^ 2 = (z - w) ^ 2 := by rw [← mul_pow, e]
  linear_combination (AF + 2) * (1 - dF * x ^ 2) * e2 - 4 * h - x ^ 2 * (z - w) ^ 2 * dF_A

theorem w_ne (u : Fq) : 2 * u * u + 1 ≠ 0 := by
  intro h
  have hu : u ≠ 0 := by rintro rfl; simp at h
  apply two_nonsquare (feSqrtm1 / u)
  rw [div_pow, sqrtm1_sq, div_eq_iff (pow_ne_zero 2 hu)]
  linear_combination -h

theorem xp_ne (u w : Fq) (hw : w = 2 * u * u + 1) : w * w - 2 * AF * AF * u * u ≠ 0 := by
  intro h
  have hw0 : w ≠ 0 := hw ▸ w_ne u
  have hu : AF * u ≠ 0 := by
    intro h0
    apply hw0
    apply pow_eq_zero_iff (two_ne_zero) |>.mp
    linear_combination h + 2 * (AF * u) * h0
  apply two_nonsquare (w / (AF * u))
  rw [div_pow, div_eq_iff (pow_ne_zero 2 hu)]
  linear_combination h

/-- The candidate root: its square is `w/xp` times a fourth root of unity. -/
theorem root_spec (w xp : Fq) (hw : w ≠ 0) (hx : xp ≠ 0) :
    ∃ e : Fq, ((w * xp⁻¹) ^ ((2 ^ 255 - 16) / 8)) ^ 2 * xp = w * e ∧ (e ^ 2 = 1 ∨ e ^ 2 = -1) := by
  have ha : w * xp⁻¹ ≠ 0 := mul_ne_zero hw (inv_ne_zero hx)
  refine ⟨(w * xp⁻¹) ^ ((qN - 1) / 4), ?_, ?_⟩
  · have : ((w * xp⁻¹) ^ ((2 ^ 255 - 16) / 8)) ^ 2 = (w * xp⁻¹) ^ ((qN - 1) / 4) * (w * xp⁻¹) := by
      rw [← pow_mul, ← pow_succ]
      congr 1
    rw [this, mul_assoc, mul_assoc, inv_mul_cancel₀ hx]
    ring
  · have h1 := ZMod.pow_card_sub_one_eq_one ha
    have h2 : (((w * xp⁻¹) ^ ((qN - 1) / 4)) ^ 2) * (((w * xp⁻¹) ^ ((qN - 1) / 4)) ^ 2) = 1 := by
      rw [← h1, ← pow_mul, ← pow_add]
      congr 1
    exact mul_self_eq_one_iff.mp h2

theorem elligator_spec (u : ℤ) (r z w s : ℤ) (h : elligator u = (r, z, w, s)) :
    (w : Fq) ≠ 0 ∧ (r : Fq) ^ 2 * ((z : Fq) ^ 2 + (w : Fq) ^ 2 + AF * z * w) = -(z : Fq) * w * (AF + 2) := by
  have hA : ((486662 : ℤ) : Fq) = AF := by norm_num
  have hW : (((2 * u * u + 1) % q : ℤ) : Fq) = 2 * (u : Fq) * u + 1 := by push_cast [cast_mod_q]; rfl
  have hW0 : (((2 * u * u + 1) % q : ℤ) : Fq) ≠ 0 := by rw [hW]; exact w_ne _
  have hXP := xp_ne (u : Fq) _ rfl
  simp only [elligator] at h
  generalize hw' : (2 * u * u + 1) % q = w' at *
  rw [← hW] at hXP
  have hcast : (((w' * w' - 2 * 486662 * 486662 * u * u : ℤ)) : Fq) = (w' : Fq) * w' - 2 * AF * AF * u * u := by push_cast; rfl
  obtain ⟨e, he, hee⟩ := root_spec (w' : Fq) _ hW0 hXP
  have hR : ((expmod q 256 (w' * invPow ((w' * w' - 2 * 486662 * 486662 * u * u) % q)) ((2 ^ 255 - 16) / 8) : ℤ) : Fq) =
      ((w' : Fq) * ((w' : Fq) * w' - 2 * AF * AF * u * u)⁻¹) ^ ((2 ^ 255 - 16) / 8) := by
    rw [cast_expmod_q _ _ _ (by norm_num), Int.cast_mul, cast_invPow, cast_mod_q, hcast]
  generalize expmod q 256 (w' * invPow ((w' * w' - 2 * 486662 * 486662 * u * u) % q)) ((2 ^ 255 - 16) / 8) = rx at *
  rw [← hR] at he
  have hx : (((rx * rx * (w' * w' - 2 * 486662 * 486662 * u * u) % q : ℤ)) : Fq) = w' * e := by
    rw [cast_mod_q, Int.cast_mul, Int.cast_mul, hcast, ← he]; ring
  generalize rx * rx * (w' * w' - 2 * 486662 * 486662 * u * u) % q = x at *
  have hy1 : (2 * u * u + 1 - x) % q = 0 ↔ e = 1 := by
    rw [mod_q_eq_zero, Int.cast_sub, hx]
    have : (((2 * u * u + 1 : ℤ)) : Fq) = w' := by rw [hW]; push_cast; rfl
    rw [this, sub_eq_zero]
    constructor
    · intro h; apply mul_left_cancel₀ hW0; linear_combination -h
    · intro h; rw [h, mul_one]
  have hy2 : (w' + x) % q = 0 ↔ e = -1 := by
    rw [mod_q_eq_zero, Int.cast_add, hx]
    constructor
    · intro h; apply mul_left_cancel₀ hW0; linear_combination h
    · intro h; rw [h]; ring
  have hy3 : (w' - x * feSqrtm1 % q) % q = 0 ↔ e * feSqrtm1 = 1 := by
    rw [mod_q_eq_zero, Int.cast_sub, cast_mod_q, Int.cast_mul, hx]
    constructor
    · intro h; apply mul_left_cancel₀ hW0; linear_combination -h
    · intro h; linear_combination -(w' : Fq) * h
  simp only [ne_eq, hy1, hy2, hy3] at h
  have hm := sqrtm1_sq
  have h1 := fffb1_sq
  have h2 := fffb2_sq
  have h3 := fffb3_sq
  have h4 := fffb4_sq
  generalize ((feSqrtm1 : ℤ) : Fq) = i at *
  -- the two denominators
  have hden1 (z : Fq) (hz : z = -2 * AF * u * u) :
      z ^ 2 + (w' : Fq) ^ 2 + AF * z * w' = (w' : Fq) * w' - 2 * AF * AF * u * u := by rw [hz, hW]; ring
  have hden2 (z : Fq) (hz : z = -AF) :
      z ^ 2 + (w' : Fq) ^ 2 + AF * z * w' = (w' : Fq) * w' - 2 * AF * AF * u * u := by rw [hz, hW]; ring
  split at h
  · rename_i hne1
    split at h
    · rename_i hne2
      have hi : e ^ 2 = -1 := by
        rcases hee with h' | h'
        · rcases (mul_self_eq_one_iff (a := e)).mp (by rw [← sq]; exact h') with h'' | h''
          · exact absurd h'' hne1
          · exact absurd h'' hne2
        · exact h'
      simp only [Prod.mk.injEq] at h
      obtain ⟨hr, hz, rfl, -⟩ := h
      refine ⟨hW0, ?_⟩
      have hz' : (z : Fq) = -AF := by rw [← hz]; push_cast; ring
      rw [hden2 _ hz', hz', ← hr]
      split
      · rename_i hei
        have : e = i := by
          have : (e - i) * (e + i) = 0 := by linear_combination hi - hm
          rcases mul_eq_zero.mp this with h' | h'
          · exact sub_eq_zero.mp h'
          · exfalso; apply hei; linear_combination i * h' - hm
        rw [cast_mod_q]; push_cast
        rw [this] at he
        linear_combination ((fffb3 : Fq) ^ 2) * he + (w' * i) * h3 - w' * AF * (AF + 2) * hm
      · rename_i hei
        have hei : e * i = 1 := not_not.mp hei
        rw [cast_mod_q]; push_cast
        linear_combination ((fffb4 : Fq) ^ 2) * he + (w' * e) * h4 + w' * AF * (AF + 2) * hei
    · rename_i hne2
      have he1 : e = -1 := not_not.mp hne2
      simp only [Prod.mk.injEq] at h
      obtain ⟨hr, hz, rfl, -⟩ := h
      refine ⟨hW0, ?_⟩
      have hz' : (z : Fq) = -2 * AF * u * u := by rw [← hz, cast_mod_q]; push_cast; rfl
      rw [hden1 _ hz', hz', ← hr, cast_mod_q, Int.cast_mul, cast_mod_q]; push_cast
      rw [he1] at he
      linear_combination ((fffb1 : Fq) ^ 2 * u ^ 2) * he - (w' * u ^ 2) * h1
  · rename_i hne1
    have he1 : e = 1 := not_not.mp hne1
    simp only [Prod.mk.injEq] at h
    obtain ⟨hr, hz, rfl, -⟩ := h
    refine ⟨hW0, ?_⟩
    have hz' : (z : Fq) = -2 * AF * u * u := by rw [← hz, cast_mod_q]; push_cast; rfl
    rw [hden1 _ hz', hz', ← hr, cast_mod_q, Int.cast_mul, cast_mod_q]; push_cast
    rw [he1] at he
    linear_combination ((fffb2 : Fq) ^ 2 * u ^ 2) * he + (w' * u ^ 2) * h2

/-- The point before multiplication by eight is on the curve, whatever the hash. -/
theorem hashPoint_on (u : ℤ) : ∃ p, Rep (hashPoint u) p := by
  unfold hashPoint
  rcases hE : elligator u with ⟨r, z, w, s⟩
  obtain ⟨hw, h⟩ := elligator_spec u r z w s hE
  simp only
  generalize hr' : (if r % 2 ≠ s then -r % q else r) = r'
  have hsq : (r' : Fq) ^ 2 = (r : Fq) ^ 2 := by
    rw [← hr']; split
    · rw [cast_mod_q, Int.cast_neg]; ring
    · rfl
  rw [← hsq] at h
  obtain ⟨hne, hon⟩ := montgomery _ _ _ hw h
  refine ⟨⟨_, _, hon⟩, ?_, ?_, ?_, ?_⟩
  · simp only [cast_mod_q]; push_cast; exact hne
  · simp only [cast_mod_q, Int.cast_mul]
  · simp only [cast_mod_q]; push_cast; rw [div_mul_cancel₀ _ hne]
  · simp only [cast_mod_q, Int.cast_mul, cast_inv]; push_cast
    field_simp

end Verif.Ed
