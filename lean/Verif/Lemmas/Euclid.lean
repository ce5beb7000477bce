import Verif.Spec.Euclid
import Mathlib.Data.Int.GCD
import Mathlib.Tactic.Ring
import Mathlib.Tactic.Linarith

/-! Lemmas about the extended Euclidean algorithm. -/

namespace Verif.Euclid

theorem egcdLoop_spec (a b : ℤ) (lastrem rem : ℕ) : ∀ (x lastx y lasty : ℤ), (lastrem : ℤ) = a * lastx + b * lasty → (rem : ℤ) = a * x + b * y →
    (egcdLoop lastrem rem x lastx y lasty).1 = Nat.gcd lastrem rem ∧
    ((egcdLoop lastrem rem x lastx y lasty).1 : ℤ) = a * (egcdLoop lastrem rem x lastx y lasty).2.1 + b * (egcdLoop lastrem rem x lastx y lasty).2.2 := by
  induction rem using Nat.strong_induction_on generalizing lastrem with
  | _ rem ih =>
    intro x lastx y lasty h1 h2
    rw [egcdLoop]
    split
    · rename_i h
      subst h
      exact ⟨(Nat.gcd_zero_right _).symm, h1⟩
    · rename_i h
      have hm : ((lastrem % rem : ℕ) : ℤ) = a * (lastx - (lastrem / rem : ℕ) * x) + b * (lasty - (lastrem / rem : ℕ) * y) := by
        have := Nat.mod_add_div lastrem rem
        have h3 : ((lastrem % rem : ℕ) : ℤ) = lastrem - rem * (lastrem / rem : ℕ) := by
          have : ((lastrem % rem + rem * (lastrem / rem) : ℕ) : ℤ) = lastrem := by rw [this]
          rw [Nat.cast_add, Nat.cast_mul] at this
          linarith
        rw [h3, h1, h2]; ring
      obtain ⟨g1, g2⟩ := ih (lastrem % rem) (Nat.mod_lt _ (Nat.pos_of_ne_zero h)) rem _ x _ y h2 hm
      refine ⟨?_, g2⟩
      rw [g1, Nat.gcd_comm, ← Nat.gcd_rec, Nat.gcd_comm]

theorem sign_mul (a : ℤ) : a * (if a < 0 then -1 else 1) = (a.natAbs : ℤ) := by
  split <;> omega

theorem extendedGcd_spec (a b : ℤ) :
    (extendedGcd a b).1 = Int.gcd a b ∧ a * (extendedGcd a b).2.1 + b * (extendedGcd a b).2.2 = Int.gcd a b := by
  obtain ⟨h1, h2⟩ := egcdLoop_spec (a.natAbs : ℤ) (b.natAbs : ℤ) a.natAbs b.natAbs 0 1 1 0 (by ring) (by ring)
  refine ⟨h1, ?_⟩
  have h3 : ((Int.gcd a b : ℕ) : ℤ) = ((egcdLoop a.natAbs b.natAbs 0 1 1 0).1 : ℤ) := by rw [h1]; rfl
  rw [h3, h2, ← sign_mul a, ← sign_mul b]
  unfold extendedGcd
  dsimp only
  ring

theorem coprime_iff (a m : ℤ) : Coprime a m ↔ Int.gcd a m = 1 := by
  constructor
  · intro h
    have := h (Int.gcd a m) (Int.gcd_dvd_left ..) (Int.gcd_dvd_right ..)
    omega
  · intro h k h1 h2
    have h3 := Int.dvd_coe_gcd h1 h2
    rw [h] at h3
    have := Int.natAbs_dvd_natAbs.mpr h3
    have := Nat.dvd_one.mp this
    omega

/-- Fields of a call below the first: `s` and `t` times the number give `x` and `n`, and the determinant is the modulus. -/
theorem mulInverse_loop (x0 N : ℤ) (hN : 2 ≤ N) (k : ℕ) : ∀ (n x s t : ℤ), n = k → 0 ≤ n → 2 ≤ x → N ∣ s * x0 - x → N ∣ t * x0 - n →
    (s * n - t * x = N ∨ s * n - t * x = -N) → Int.gcd x n = Int.gcd x0 N →
    ∃ r, mulInverse x n s t N = some r ∧ (Int.gcd x0 N = 1 → 0 ≤ r ∧ r < N ∧ N ∣ x0 * r - 1) ∧ (Int.gcd x0 N ≠ 1 → r = -1) := by
  induction k using Nat.strong_induction_on with
  | _ k ih =>
    intro n x s t hk hn hx hs ht hd hg
    rw [mulInverse]
    have hN0 : N ≠ 0 := by omega
    rcases lt_or_ge n 1 with h1 | h1
    · have hn0 : n = 0 := by omega
      subst hn0
      have hxg : (x.natAbs) = Int.gcd x0 N := by rw [← hg, Int.gcd_zero_right]
      have htx : t * x = N ∨ t * x = -N := by rcases hd with h | h <;> [right; left] <;> linarith
      have hxN : x ∣ N := by rcases htx with h | h
                             · exact ⟨t, by linarith⟩
                             · exact ⟨-t, by linarith⟩
      simp only [h1, if_true, show (0 : ℤ) < 2 by omega, if_neg hN0]
      have htN : t.fmod N ≠ 0 := by
        intro h0
        obtain ⟨c, hc'⟩ := Int.dvd_of_fmod_eq_zero h0
        have : N * (c * x) = N * 1 ∨ N * (c * x) = N * (-1) := by
          rcases htx with h | h <;> [left; right] <;> · rw [hc'] at h; linarith
        have h2 : c * x = 1 ∨ c * x = -1 := by
          rcases this with h | h <;> [left; right] <;> exact mul_left_cancel₀ hN0 h
        have h3 : x ∣ 1 := by rcases h2 with h | h
                              · exact ⟨c, by linarith⟩
                              · exact ⟨-c, by linarith⟩
        have := Nat.dvd_one.mp (Int.natAbs_dvd_natAbs.mpr h3)
        omega
      rw [if_pos htN]
      refine ⟨-1, rfl, ?_, fun _ => rfl⟩
      intro h; omega
    · simp only [if_neg (show ¬ n < 1 by omega), if_neg hN0]
      rcases (show n = 1 ∨ 2 ≤ n by omega) with h2 | h2
      · subst h2
        have htN : t.fmod N ≠ 0 := by
          intro h0
          have h3 := Int.dvd_of_fmod_eq_zero h0
          have h4 : N ∣ 1 := by
            have := Int.dvd_sub (Dvd.dvd.mul_right h3 x0) ht
            rwa [sub_sub_cancel] at this
          have := Nat.dvd_one.mp (Int.natAbs_dvd_natAbs.mpr h4)
          omega
        have hg1 : Int.gcd x0 N = 1 := by rw [← hg, Int.gcd_one_right]
        simp only [show (1 : ℤ) < 2 by omega, if_true, if_pos htN]
        refine ⟨_, rfl, fun _ => ⟨Int.fmod_nonneg_of_pos _ (by omega), Int.fmod_lt_of_pos _ (by omega), ?_⟩, fun h => absurd hg1 h⟩
        have h5 : x0 * t.fmod N - 1 = (t * x0 - 1) - N * (x0 * t.fdiv N) := by
          rw [Int.fmod_def]; ring
        rw [h5]
        exact Int.dvd_sub ht (Dvd.intro _ rfl)
      · have hn0 : n ≠ 0 := by omega
        simp only [if_neg (show ¬ n < 2 by omega), dif_neg hn0]
        have r1 := Int.fmod_nonneg_of_pos x (b := n) (by omega)
        have r2 := Int.fmod_lt_of_pos x (b := n) (by omega)
        have e := Int.fmod_def x n
        refine ih (x.fmod n).toNat (by omega) (x.fmod n) n t (s - x.fdiv n * t) (by omega) r1 h2 ht ?_ ?_ ?_
        · have : (s - x.fdiv n * t) * x0 - x.fmod n = (s * x0 - x) - x.fdiv n * (t * x0 - n) := by rw [e]; ring
          rw [this]
          exact Int.dvd_sub hs (Dvd.dvd.mul_left ht _)
        · have : t * x.fmod n - (s - x.fdiv n * t) * n = -(s * n - t * x) := by rw [e]; ring
          rw [this]
          omega
        · rw [← hg, Int.fmod_eq_emod_of_nonneg _ (by omega), ← Int.fmod_eq_emod_of_nonneg _ (show 0 ≤ n by omega), e, Int.gcd_sub_mul_left_right, Int.gcd_comm]

end Verif.Euclid
