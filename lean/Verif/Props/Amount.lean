import Verif.Lemmas.Amount

/-! C89: amounts typed at the command line and amounts shown for confirmation. `Denotes txt a`: the text `txt` stands for `a` · 10^(-12). -/

namespace Verif.Amount

/-- The number of the smallest units that is sent for a text (misc.py 179-190, agent.py 1220). -/
def sent (txt : List Char) : Option Int := (float txt).bind amountToUint64

/-- C89 is false: for the text `4.1` the amount 4.099999999999 is sent. -/
theorem C89_false : Denotes "4.1".toList 4100000000000 ∧ sent "4.1".toList = some 4099999999999 :=
  ⟨Denotes.point "4".toList "1".toList (by decide) (by unfold Digit; decide) (by unfold Digit; decide) (by decide), by decide +kernel⟩

/-- … and for the largest amount more is sent than was typed. -/
theorem C89_false_more : Denotes "18446744.073709551615".toList (2 ^ 64 - 1) ∧ sent "18446744.073709551615".toList = some (2 ^ 64) :=
  ⟨Denotes.point "18446744".toList "073709551615".toList (by decide) (by unfold Digit; decide) (by unfold Digit; decide) (by decide), by decide +kernel⟩

/-- Every amount below 2^64 is sent with an error of less than one unit and 2^(-51) of the amount. -/
theorem C89_error_partial {txt : List Char} {a : ℕ} (h : Denotes txt a) (ha : a < 2 ^ 64) :
    ∃ s : ℤ, sent txt = some s ∧ (a : ℚ) - a / 2 ^ 51 - 1 < s ∧ (s : ℚ) ≤ a + a / 2 ^ 51 := by
  rcases Nat.eq_zero_or_pos a with rfl | h0
  · refine ⟨0, ?_, by norm_num, by norm_num⟩
    have : sent txt = amountToUint64 (round (((0 : ℕ) : ℚ) / 10 ^ 12)) := by simp only [sent, float_denotes h, Option.bind_some]
    rw [this]
    decide +kernel
  · obtain ⟨r, hr, er⟩ := product_err h0 ha
    have h1 : (1 : ℚ) ≤ a := by exact_mod_cast h0
    rw [abs_le] at er
    have hp : ¬ r < 0 := by
      have := er.1
      norm_num at this ⊢
      linarith
    have e : sent txt = some ⌊r⌋ := by
      simp only [sent, float_denotes h, Option.bind_some, amountToUint64, hr, Double.toInt, if_neg hp, floor_eq]
    exact ⟨_, e, by linarith [Int.lt_floor_add_one r, er.1], by linarith [Int.floor_le r, er.2]⟩

/-- An amount below 2^51 units (2251 and something) is sent exactly or one unit too low. -/
theorem C89_close_partial {txt : List Char} {a : ℕ} (h : Denotes txt a) (ha : a < 2 ^ 51) : sent txt = some (a : ℤ) ∨ sent txt = some ((a : ℤ) - 1) := by
  obtain ⟨s, hs, h1, h2⟩ := C89_error_partial h (ha.trans (by norm_num))
  have h3 : (a : ℚ) < 2 ^ 51 := by exact_mod_cast ha
  have h4 : (a : ℚ) / 2 ^ 51 < 1 := by rw [div_lt_one (by positivity)]; exact h3
  have h5 : s < (a : ℤ) + 1 := by
    have : (s : ℚ) < (a : ℚ) + 1 := by linarith
    exact_mod_cast this
  have h6 : (a : ℤ) - 2 < s := by
    have : (a : ℚ) - 2 < s := by linarith
    exact_mod_cast this
  rcases (by omega : s = a ∨ s = (a : ℤ) - 1) with rfl | rfl
  · exact Or.inl hs
  · exact Or.inr hs

/-- Amounts with few binary digits are sent exactly: `k / 2^j` with `j` at most 12 and `k · 5^12 < 2^53`; for example all whole amounts up to 2^64 units. -/
theorem C89_exact_partial {txt : List Char} {a k j : ℕ} (h : Denotes txt a) (hj : j ≤ 12) (hk : a * 2 ^ j = k * 10 ^ 12) (hk' : k * 5 ^ 12 < 2 ^ 53) :
    sent txt = some (a : ℤ) := by
  have hq : (a : ℚ) / 10 ^ 12 = (k : ℚ) * 2 ^ (-(j : ℤ)) := by
    rw [zpow_neg, zpow_natCast, ← div_eq_mul_inv, div_eq_div_iff (by positivity) (by positivity)]
    exact_mod_cast hk
  have h1 : round ((a : ℚ) / 10 ^ 12) = .fin ((a : ℚ) / 10 ^ 12) := by
    rw [hq]
    exact round_exact (by omega) (by omega) (by omega)
  have hp : (10 : ℚ) ^ 12 * ((a : ℚ) / 10 ^ 12) = ((k * 5 ^ 12 : ℕ) : ℚ) * 2 ^ ((12 : ℤ) - j) := by
    rw [hq, sub_eq_add_neg, zpow_add₀ (by norm_num)]
    push_cast
    norm_num
    ring
  have h2 : round ((10 : ℚ) ^ 12 * ((a : ℚ) / 10 ^ 12)) = .fin (a : ℚ) := by
    rw [hp, round_exact hk' (by omega) (by omega), ← hp]
    congr 1
    field_simp
  have h3 : ¬ (a : ℚ) < 0 := not_lt.2 (Nat.cast_nonneg a)
  simp only [sent, float_denotes h, Option.bind_some, amountToUint64, h1, Double.mul, h2, Double.toInt, if_neg h3, floor_eq, Int.floor_natCast]

/-- Whole amounts: every one that fits into 64 bits. -/
theorem C89_whole_partial {txt : List Char} {k : ℕ} (h : Denotes txt (k * 10 ^ 12)) (hk : k * 10 ^ 12 < 2 ^ 64) : sent txt = some ((k * 10 ^ 12 : ℕ) : ℤ) :=
  C89_exact_partial (k := k) (j := 0) h (Nat.zero_le _) (by rw [pow_zero, mul_one]) (by clear h; norm_num at hk ⊢; linarith)

example : sent "0.75".toList = some ((750000000000 : ℕ) : ℤ) :=
  C89_exact_partial (k := 3) (j := 2) (a := 750000000000)
    (Denotes.point "0".toList "75".toList (by decide) (by unfold Digit; decide) (by unfold Digit; decide) (by decide)) (by norm_num) (by norm_num) (by norm_num)

/-! ## What is shown for confirmation -/

/-- The confirmation shows eight decimals: 0.000000004999 is shown as 0.00000000, and different amounts look the same. -/
theorem C89_false_shown : fixed8 (convDispAmount 4999) = some 0 ∧ fixed8 (convDispAmount 1000000000000) = fixed8 (convDispAmount 1000000004999) :=
  ⟨by decide +kernel, by decide +kernel⟩

/-- The amount shown differs from the amount by at most 5001 units, for amounts up to 2^53 units. -/
theorem C89_shown_partial {a : ℕ} (ha : a < 2 ^ 53) : ∃ s : ℤ, fixed8 (convDispAmount a) = some s ∧ |10 ^ 4 * s - (a : ℤ)| ≤ 5001 := by
  rcases Nat.eq_zero_or_pos a with rfl | h0
  · exact ⟨0, by decide +kernel, by decide⟩
  · have h1 : (1 : ℚ) ≤ a := by exact_mod_cast h0
    have h2 : (a : ℚ) < 2 ^ 53 := by exact_mod_cast ha
    have e : round (a : ℚ) = .fin a := by
      have := round_exact (k := a) (j := 0) ha (by omega) (by omega)
      simpa using this
    obtain ⟨f, hf, ef⟩ : ∃ f, round ((a : ℚ) / 10 ^ 12) = .fin f ∧ |f - (a : ℚ) / 10 ^ 12| ≤ (a : ℚ) / 10 ^ 12 / 2 ^ 53 := by
      obtain ⟨b1, b2⟩ := range_ok (q := (a : ℚ) / 10 ^ 12) (by rw [div_le_div_iff₀ (by norm_num) (by norm_num)]; norm_num; linarith)
        (by rw [div_le_iff₀ (by norm_num)]; norm_num at h2 ⊢; linarith)
      exact round_err b1 b2
    rw [abs_le] at ef
    have hp : ¬ f < 0 := by
      have := ef.1
      norm_num at this ⊢
      linarith
    have hn := abs_le.1 (nearest_err (f * 10 ^ 8))
    refine ⟨nearest (f * 10 ^ 8), ?_, ?_⟩
    · simp only [convDispAmount, e, hf, fixed8, if_neg hp]
    · have e1 := ef.1
      have e2 := ef.2
      have n1 := hn.1
      have n2 := hn.2
      have : |(10 : ℚ) ^ 4 * (nearest (f * 10 ^ 8) : ℚ) - a| ≤ 5001 := by
        rw [abs_le]
        have h3 : (a : ℚ) < 9007199254740992 := by exact_mod_cast ha
        norm_num at e1 e2 n1 n2 ⊢
        constructor <;> linarith
      exact_mod_cast this

example : ∃ s : ℤ, fixed8 (convDispAmount 4099999999999) = some s ∧ |10 ^ 4 * s - ((4099999999999 : ℕ) : ℤ)| ≤ 5001 :=
  C89_shown_partial (by norm_num)

end Verif.Amount
