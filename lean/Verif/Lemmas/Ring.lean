import Verif.Model.Sig
import Verif.Lemmas.Key

/-! Going round a ring: the challenges of the signer's loop are those the verifier meets, whatever the position. -/

namespace Verif.Sig

/-- The verifier's loop follows any sequence of challenges that fits the steps. -/
theorem chainLoop_of {step : Nat → Int → Option Int} (a : Nat → Int) (k : Nat) : ∀ i : Nat,
    (∀ j, j < k → step (i + j) (a (i + j)) = some (a (i + j + 1))) → chainLoop step k i (a i) = some (a (i + k)) := by
  induction k with
  | zero => intro i _; rfl
  | succ k ih =>
    intro i h
    have h0 := h 0 (by omega)
    simp only [Nat.add_zero] at h0
    simp only [chainLoop, h0]
    rw [ih (i + 1) (fun j hj => by have := h (j + 1) (by omega); rwa [show i + (j + 1) = i + 1 + j by omega] at this)]
    rw [show i + 1 + k = i + (k + 1) by omega]

/-- And conversely. -/
theorem chainLoop_inv {step : Nat → Int → Option Int} (k : Nat) : ∀ (i : Nat) (c r : Int), chainLoop step k i c = some r →
    ∃ a : Nat → Int, a i = c ∧ a (i + k) = r ∧ ∀ j, j < k → step (i + j) (a (i + j)) = some (a (i + j + 1)) := by
  induction k with
  | zero => intro i c r h; exact ⟨fun _ => c, rfl, Option.some.inj h, fun j hj => by omega⟩
  | succ k ih =>
    intro i c r h
    unfold chainLoop at h
    split at h
    · simp at h
    rename_i c' hc'
    obtain ⟨a, h0, h1, h2⟩ := ih (i + 1) c' r h
    refine ⟨fun j => if j = i then c else a j, by simp, ?_, ?_⟩
    · show (if i + (k + 1) = i then c else a (i + (k + 1))) = r
      rw [if_neg (by omega), ← h1]; congr 1; omega
    · intro j hj
      rcases Nat.eq_zero_or_pos j with rfl | hj0
      · simp [hc', h0]
      · have := h2 (j - 1) (by omega)
        rw [show i + 1 + (j - 1) = i + j by omega] at this
        simp only [show i + j ≠ i by omega, show i + j + 1 ≠ i by omega, if_false]
        exact this

/-- Challenges in the order of the signer. -/
def walk (f : Nat → Int → Int) (n idx : Nat) (c0 : Int) : Nat → Int
  | 0 => c0
  | k + 1 => f ((idx + 1 + k) % n) (walk f n idx c0 k)

theorem ringLoop_walk {step : Nat → Int → Option Int} {f : Nat → Int → Int} {n idx : Nat} (hi : idx < n)
    (hs : ∀ i c, i < n → i ≠ idx → step i c = some (f i c)) (c0 : Int) :
    ∀ (k : Nat) (cc : Int), k < n → (n - 1 - idx ≤ k → cc = walk f n idx c0 (n - 1 - idx)) →
      ringLoop step n idx (n - k) ((idx + 1 + k) % n) (walk f n idx c0 k) cc =
        some (walk f n idx c0 (n - 1), walk f n idx c0 (n - 1 - idx)) := by
  intro k
  induction hm : n - 1 - k generalizing k with
  | zero =>
    intro cc hk hcc
    have : k = n - 1 := by omega
    subst this
    rw [show n - (n - 1) = 0 + 1 by omega, ringLoop, show idx + 1 + (n - 1) = idx + n by omega, Nat.add_mod_right, Nat.mod_eq_of_lt hi,
      if_pos rfl, hcc (by omega)]
  | succ m ih =>
    intro cc hk hcc
    have hne : (idx + 1 + k) % n ≠ idx := by
      intro h
      rcases Nat.lt_or_ge (idx + 1 + k) n with hlt | hge
      · rw [Nat.mod_eq_of_lt hlt] at h; omega
      · rw [Nat.mod_eq_sub_mod hge, Nat.mod_eq_of_lt (by omega)] at h; omega
    rw [show n - k = (n - (k + 1)) + 1 by omega, ringLoop, if_neg hne, hs _ _ (Nat.mod_lt _ (by omega)) hne]
    have hi' : ((idx + 1 + k) % n + 1) % n = (idx + 1 + (k + 1)) % n := by
      rw [Nat.mod_add_mod, Nat.add_assoc (idx + 1) k 1]
    simp only [hi']
    refine ih (k + 1) (by omega) _ (by omega) ?_
    intro hle
    by_cases hz : (idx + 1 + (k + 1)) % n = 0
    · rw [if_pos hz]
      have : k + 1 = n - 1 - idx := by
        rcases Nat.lt_or_ge (idx + 1 + (k + 1)) n with hlt | hge
        · rw [Nat.mod_eq_of_lt hlt] at hz; omega
        · rw [Nat.mod_eq_sub_mod hge, Nat.mod_eq_of_lt (by omega)] at hz; omega
      rw [← this]; rfl
    · rw [if_neg hz]
      apply hcc
      by_contra hlt
      have : k + 1 = n - 1 - idx := by omega
      apply hz
      rw [this, show idx + 1 + (n - 1 - idx) = n by omega, Nat.mod_self]

theorem walk_period {f : Nat → Int → Int} {n idx : Nat} (hi : idx < n) {c0 : Int} (hclose : f idx (walk f n idx c0 (n - 1)) = c0) (k : Nat) :
    walk f n idx c0 (k + n) = walk f n idx c0 k := by
  induction k with
  | zero =>
    have h : walk f n idx c0 (n - 1 + 1) = walk f n idx c0 0 := by
      show f ((idx + 1 + (n - 1)) % n) (walk f n idx c0 (n - 1)) = _
      rw [show idx + 1 + (n - 1) = idx + n by omega, Nat.add_mod_right, Nat.mod_eq_of_lt hi, hclose]; rfl
    rwa [show n - 1 + 1 = 0 + n by omega] at h
  | succ k ih =>
    rw [show k + 1 + n = (k + n) + 1 by omega, walk, walk, ih, show idx + 1 + (k + n) = idx + 1 + k + n by omega, Nat.add_mod_right]

/-- The signer's loop, started after position `idx`. -/
theorem ring_gen {gen : Nat → Int → Option Int} {f : Nat → Int → Int} {n idx : Nat} (hi : idx < n)
    (hg : ∀ i c, i < n → i ≠ idx → gen i c = some (f i c)) (c0 : Int) :
    ringLoop gen n idx n ((idx + 1) % n) c0 (if (idx + 1) % n = 0 then c0 else 0) =
      some (walk f n idx c0 (n - 1), walk f n idx c0 (n - 1 - idx)) := by
  have h := ringLoop_walk hi hg c0 0 (if (idx + 1) % n = 0 then c0 else 0) (by omega) (by
    intro h0
    have : idx + 1 = n := by omega
    rw [if_pos (by rw [this, Nat.mod_self]), show n - 1 - idx = 0 by omega]; rfl)
  exact h

/-- When the last answer closes the ring, the challenge remembered for position 0 comes back to itself when the verifier applies all steps in
order. -/
theorem ring_ver {ver : Nat → Int → Option Int} {f : Nat → Int → Int} {n idx : Nat} (hi : idx < n) (c0 : Int) (hf : ∀ c, f idx c = c0)
    (hv : ∀ i c, i < n → i ≠ idx → ver i c = some (f i c)) (hclose : ver idx (walk f n idx c0 (n - 1)) = some c0) :
    chainLoop ver n 0 (walk f n idx c0 (n - 1 - idx)) = some (walk f n idx c0 (n - 1 - idx)) := by
  have hc := chainLoop_of (step := ver) (fun j => walk f n idx c0 (n - 1 - idx + j)) n 0 (by
    intro j hj
    simp only [Nat.zero_add]
    rw [← Nat.add_assoc (n - 1 - idx) j 1]
    conv_rhs => rw [walk]
    rw [show idx + 1 + (n - 1 - idx + j) = j + n by omega, Nat.add_mod_right, Nat.mod_eq_of_lt hj]
    by_cases hji : j = idx
    · rw [hji, hf, show n - 1 - idx + idx = n - 1 by omega, hclose]
    · rw [hv _ _ hj hji])
  simp only [Nat.zero_add, Nat.add_zero] at hc
  rw [walk_period hi (hf _)] at hc
  exact hc

theorem walk_reduced {f : Nat → Int → Int} {n idx : Nat} {c0 : Int} (p : Int → Prop) (h0 : p c0) (hf : ∀ i c, p (f i c)) (k : Nat) :
    p (walk f n idx c0 k) := by
  cases k with
  | zero => exact h0
  | succ k => exact hf _ _

end Verif.Sig
