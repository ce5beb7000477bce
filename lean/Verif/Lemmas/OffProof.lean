import Verif.Lemmas.OffMain
import Verif.Spec.Offload

/-! The offloaded prover and the prover in memory agree. -/

namespace Verif.Off
open Verif Ed Key Sig Edwards Bp Finset KeyV

theorem Fits.toL {cfg : Cfg} {M : ℕ} (h : Fits cfg M) : ∃ lgM β τ o, FitsL cfg M lgM β τ o ∧ (cfg.method = 0 → β ≤ lgM + 4) := by
  obtain ⟨lgM, hM, hlg⟩ : ∃ lgM, M = 2 ^ lgM ∧ logM M = lgM := by
    have := h.amounts
    simp only [List.mem_cons, List.not_mem_nil, or_false] at this
    rcases this with rfl | rfl | rfl | rfl | rfl | rfl
    exacts [⟨0, rfl, by decide⟩, ⟨1, rfl, by decide⟩, ⟨2, rfl, by decide⟩, ⟨3, rfl, by decide⟩, ⟨4, rfl, by decide⟩, ⟨5, rfl, by decide⟩]
  obtain ⟨β, hβ⟩ := h.batching
  obtain ⟨τ, hτ⟩ := h.thresh
  obtain ⟨o, ho⟩ := h.off2
  have le {a b : ℕ} (h : (2 : ℕ) ^ a ≤ 2 ^ b) : a ≤ b := (Nat.pow_le_pow_iff_right (by omega)).mp h
  have e (j : ℕ) : 2 ^ j * M = 2 ^ (lgM + j) := by rw [hM, pow_add, mul_comm]
  refine ⟨lgM, β, τ, o, ⟨⟨hβ, hτ, ho, fun h2 => ?_, fun h0 => ?_⟩, hM, hlg, h.method, ?_, fun h1 => ?_⟩, fun h0 => ?_⟩
  · have := h.order h2; rw [hτ, ho] at this; exact le this
  · have := (h.quarters h0).2; rw [hτ, hβ] at this; exact le this
  · have := h.all; rw [hβ, show 64 = 2 ^ 6 from rfl, e] at this; exact le this
  · have := h.halves h1; rw [hβ, show 32 = 2 ^ 5 from rfl, e] at this; exact le this
  · have := (h.quarters h0).1; rw [hβ, show 16 = 2 ^ 4 from rfl, e] at this; exact le this

theorem Blinds.ok {blind : ℕ → ℕ → ℤ} (h : Blinds blind) : ∀ k i, 0 ≤ blind k i ∧ (blind k i : Fl) ≠ 0 := fun k i =>
  ⟨(h k i).1.le, fun h0 => by
    have := eq_l ⟨(h k i).1.le, (h k i).2⟩ (b := 0) (by decide) (by rw [h0, Int.cast_zero])
    have := (h k i).1
    omega⟩

/-- The sizes of the prover in memory. -/
theorem proveBatch_sizes {H : Bytes → Bytes} {rnd : Rand} {sv gamma : List ℤ} {lgM : ℕ} (hlg : logM sv.length = lgM) : proveBatch H rnd sv gamma =
    (setup H rnd sv gamma).bind fun s =>
      (proveLoop H (xipOf H rnd sv gamma s) (lgM + 5 + 2) (2 ^ (lgM + 5)) (xipOf H rnd sv gamma s) (pts 0 (2 ^ (lgM + 5) + 2 ^ (lgM + 5)) (gPt H))
        (pts 0 (2 ^ (lgM + 5) + 2 ^ (lgM + 5)) (hPt H s.y)) (nums 0 (2 ^ (lgM + 5) + 2 ^ (lgM + 5)) (lF rnd sv s))
        (nums 0 (2 ^ (lgM + 5) + 2 ^ (lgM + 5)) (rF rnd sv s))).map (pfOf rnd sv gamma s) := by
  rw [proveBatch_eq, hlg, pow_split, half_two_pow, ← two_pow_succ]

theorem computeBp_prove {H : Bytes → Bytes} {rnd : Rand} {blind : ℕ → ℕ → ℤ} (hbl : Blinds blind) {cfg : Cfg} {sv gamma : List ℤ}
    (hF : Fits cfg sv.length) {p : Proof} (h : computeBp H rnd blind cfg sv gamma = some p) : proveBatch H rnd sv gamma = some p := by
  obtain ⟨lgM, β, τ, o, hL, h4⟩ := hF.toL
  rw [computeBp_eq H rnd blind hbl.ok cfg sv gamma hL h4] at h
  rw [proveBatch_sizes hL.lg]
  obtain ⟨s, hs, h⟩ := Option.bind_eq_some_iff.mp h
  rw [hs, Option.bind_some]
  split at h
  · simp at h
  obtain ⟨r, hr, rfl⟩ := Option.map_eq_some_iff.mp h
  refine Option.map_eq_some_iff.mpr ⟨r, strict_prove (fun w g h f e r hw => ?_) hr, rfl⟩
  rw [rest, show lgM + 5 = (lgM + 4) + 1 from rfl, half_two_pow, two_pow_succ (lgM + 4)]
  exact rounds_prove _ hw

/-- The challenges of a proof in terms of its setup. -/
theorem chXip_pf {H : Bytes → Bytes} {rnd : Rand} {sv gamma : List ℤ} {s : Setup} (h : setup H rnd sv gamma = some s) (r : List Bytes × List Bytes × ℤ × ℤ) :
    chXip H (pfOf rnd sv gamma s r) = xipOf H rnd sv gamma s := by
  have hx : chX H (pfOf rnd sv gamma s r) = s.x := by
    simp only [setup] at h
    split at h
    · simp at h
    · simp only [Option.bind_eq_bind, Option.bind_eq_some_iff] at h
      obtain ⟨V, -, A, -, S, -, h⟩ := h
      split at h
      · simp at h
      split at h
      · simp at h
      simp only [Option.bind_eq_some_iff] at h
      obtain ⟨T1, -, T2, -, h⟩ := h
      split at h
      · simp at h
      have h := Option.some.inj h
      subst h
      simp [chX, chZ, chY, pfOf, mash, hashVct]
  rw [chXip, hx, xipOf, mash]
  simp [pfOf]

theorem prove_computeBp {H : Bytes → Bytes} {rnd : Rand} {blind : ℕ → ℕ → ℤ} (hbl : Blinds blind) {cfg : Cfg} {sv gamma : List ℤ}
    (hF : Fits cfg sv.length) {p : Proof} (h : proveBatch H rnd sv gamma = some p) (hnz : Nonzero H p) : computeBp H rnd blind cfg sv gamma = some p := by
  obtain ⟨lgM, β, τ, o, hL, h4⟩ := hF.toL
  rw [computeBp_eq H rnd blind hbl.ok cfg sv gamma hL h4]
  rw [proveBatch_sizes hL.lg] at h
  obtain ⟨s, hs, h⟩ := Option.bind_eq_some_iff.mp h
  obtain ⟨r, hr, rfl⟩ := Option.map_eq_some_iff.mp h
  obtain ⟨-, -, -, hxip, hw⟩ := hnz
  rw [chXip_pf hs] at hxip hw
  rw [hs, Option.bind_some, if_neg hxip]
  refine Option.map_eq_some_iff.mpr ⟨r, strict_of_prove (fun w g h f e r hr hc => ?_) hr hw, rfl⟩
  rw [rest, show lgM + 5 = (lgM + 4) + 1 from rfl, half_two_pow, two_pow_succ (lgM + 4)] at hr
  exact rounds_of_prove _ hr hc

/-- The device expects four buffers with which to compute a part of a dot product. -/
theorem clcr_two {H : Bytes → Bytes} {blind : ℕ → ℕ → ℤ} (d : P2) (hr : d.round > 0) (a b : Buf) : clcr H blind d [a, b] = none := by
  have : ∀ d' : P2, d'.round = d.round → (if d'.round > 0 ∧ ([] : List Buf).length < 2 then (none : Option (Dev × Resp)) else some (.two d', .bufs [])) = none :=
    fun d' h => if_pos ⟨by omega, by simp⟩
  unfold clcr
  dsimp only
  rw [if_pos ⟨by split <;> exact hr, by simp⟩]

/-- With chunks of a half of the vectors and the device computing the dot products, the second round does not work. -/
theorem computeBp_stuck {H : Bytes → Bytes} {rnd : Rand} {blind : ℕ → ℕ → ℤ} (hbl : Blinds blind) {cfg : Cfg} {sv gamma : List ℤ} {lgM β τ o : ℕ}
    (hL : FitsL cfg sv.length lgM β τ o) (hm : cfg.method = 0) (hβ : β = lgM + 5) : computeBp H rnd blind cfg sv gamma = none := by
  cases hset : setup H rnd sv gamma with
  | none =>
    rw [computeBp_tail]
    unfold start
    rw [hset]
    rfl
  | some s =>
    obtain ⟨P0, P1⟩ := computeBp_first H rnd blind hbl.ok cfg sv gamma hL hset
    by_cases hx : xipOf H rnd sv gamma s = 0
    · exact P0 hx
    obtain ⟨-, P2, P3⟩ := P1 hx
    by_cases hw : chW H (K0 H rnd blind cfg sv gamma lgM s) (gPt H) (hPt H s.y) (lF rnd sv s) (rF rnd sv s) = 0
    · exact P2 hw
    obtain ⟨c, XA, XB, pl, pr, V, e⟩ := P3 hw
    rw [e, if_pos hm]
    generalize hK : (((K0 H rnd blind cfg sv gamma lgM s).after H blind (gPt H) (hPt H s.y) (lF rnd sv s) (rF rnd sv s)).sums c XA XB).next = K
    have hKr : K.r > 0 := by rw [← hK]; exact Nat.succ_pos 0
    generalize nextHost _ _ _ _ _ = h
    have hc : 2 ^ (lgM + 4) / cfg.batching = 0 := by
      rw [hL.b, hβ]; exact Nat.div_eq_of_lt (Nat.pow_lt_pow_right (by omega) (by omega))
    have hst : ∀ a b : Buf, tx H rnd blind (.two (St K 20 0 pl pr V)) [a, b] = none := by
      intro a b
      have : step H rnd blind (.two (St K 20 0 pl pr V)) [a, b] = clcr H blind (St K 20 0 pl pr V) [a, b] := by
        rw [step]
        rfl
      rw [tx, this, clcr_two _ hKr]
    rw [clientLoop, hc, dots, if_pos hm, sendDots]
    simp only [collect, Option.bind_some, Option.map_some, Option.bind_eq_bind, foldRound]
    rw [if_neg (fun h => by omega)]
    have h1 : 1 ≤ max 1 (2 ^ (lgM + 4) / min cfg.batching (2 ^ (lgM + 4))) := le_max_left _ _
    obtain ⟨n, hn⟩ := Nat.exists_eq_add_of_le' h1
    rw [hn, devFold, collect, hst]
    rfl

end Verif.Off
