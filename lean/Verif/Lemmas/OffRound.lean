import Verif.Lemmas.OffVec

/-! The rounds of the prover on encoded vectors, and the dot products of a round computed by the host from blinded vectors. -/

namespace Verif.Off
open Verif Ed Key Sig Edwards Bp Finset

theorem SV_eq_nums {a : List ℤ} {n : ℕ} {f : ℕ → Fl} (h : SV a (List.range n) f) (hl : ∀ x ∈ a, x < l) : a = nums 0 n f := by
  have e : (a.map fun x : ℤ => (x : Fl)).map num = a := by
    rw [List.map_map]
    conv_rhs => rw [← List.map_id a]
    exact List.map_congr_left fun x hx => num_cast ⟨h.nn x hx, hl x hx⟩
  rw [← e, h.eq, List.map_map, nums, map_range'_shift]
  exact List.map_congr_left fun i _ => by simp

theorem pts_PV0 (c : ℕ) (G : ℕ → Sub) : PV (pts 0 c G) (List.range c) G := by simpa using pts_PV 0 c G
theorem nums_SV0 (c : ℕ) (A : ℕ → Fl) : SV (nums 0 c A) (List.range c) A := by simpa using nums_SV 0 c A
theorem eq_pts {G : List Bytes} {c : ℕ} {g : ℕ → Sub} (h : PV G (List.range c) g) : G = pts 0 c g := by
  rw [show G = _ from h, pts, map_range'_shift]; simp

/-- `L` and `R` of a round. -/
noncomputable def ptL (n : ℕ) (f e : ℕ → Fl) (g h : ℕ → Sub) (xip : ℤ) : Bytes := enc ((inv8 : Fl) • crossL n f e g h (xip : Fl) hS)
noncomputable def ptR (n : ℕ) (f e : ℕ → Fl) (g h : ℕ → Sub) (xip : ℤ) : Bytes := enc ((inv8 : Fl) • crossR n f e g h (xip : Fl) hS)

theorem of_eight {L X : Sub} (h : (8 : Fl) • L = X) : L = (inv8 : Fl) • X := by rw [← h, smul_smul, mul_comm, cast_inv8, one_smul]

theorem prove_step (H : Bytes → Bytes) (xip : ℤ) (fuel n : ℕ) (hn : n ≠ 0) (cache : ℤ) (g h : ℕ → Sub) (f e : ℕ → Fl) :
    proveLoop H xip (fuel + 1) n cache (pts 0 (n + n) g) (pts 0 (n + n) h) (nums 0 (n + n) f) (nums 0 (n + n) e) =
      (roundChallenge H cache (ptL n f e g h xip) (ptR n f e g h xip)).bind fun w =>
        (proveLoop H xip fuel (n / 2) w (pts 0 n (foldP (w : Fl)⁻¹ n g)) (pts 0 n (foldP (w : Fl) n h)) (nums 0 n (foldS (w : Fl) n f))
          (nums 0 n (foldS (w : Fl)⁻¹ n e))).bind fun r => some (ptL n f e g h xip :: r.1, ptR n f e g h xip :: r.2.1, r.2.2) := by
  obtain ⟨L, R, vL, vR, hstep⟩ := round_enc (pts_PV0 (n + n) g) (pts_PV0 (n + n) h) (nums_SV0 (n + n) f) (nums_SV0 (n + n) e) hn H xip fuel cache
  rw [hstep, ptL, ptR, ← of_eight vL, ← of_eight vR]
  cases hw : roundChallenge H cache (enc L) (enc R) with
  | none => rfl
  | some w =>
    obtain ⟨wr, w0⟩ := roundChallenge_range hw
    obtain ⟨G', H', e1, e2, pG, pH, sa, sb⟩ := folds_enc (pts_PV0 (n + n) g) (pts_PV0 (n + n) h) (nums_SV0 (n + n) f) (nums_SV0 (n + n) e) wr.1
    simp only [Option.bind_some, e1, e2]
    rw [eq_pts pG, eq_pts pH, SV_eq_nums sa fun x hx => (scalarFold_range x hx).2, SV_eq_nums sb fun x hx => (scalarFold_range x hx).2]

/-- Enough fuel is as good as any. -/
theorem proveLoop_fuel (H : Bytes → Bytes) (xip : ℤ) : ∀ (j t n : ℕ) (cache : ℤ) (G Hp : List Bytes) (a b : List ℤ), n < 2 ^ j →
    proveLoop H xip (j + 1 + t) n cache G Hp a b = proveLoop H xip (j + 1) n cache G Hp a b
  | 0, t, n, cache, G, Hp, a, b, h => by
    have : n = 0 := by omega
    subst this
    rw [show 0 + 1 + t = t + 1 by omega, proveLoop, proveLoop, if_pos rfl, if_pos rfl]
  | j + 1, t, n, cache, G, Hp, a, b, h => by
    rw [show j + 1 + 1 + t = (j + 1 + t) + 1 by omega, proveLoop, proveLoop]
    split
    · rfl
    · simp only [proveLoop_fuel H xip j t (n / 2) _ _ _ _ _ (by rw [pow_succ] at h; omega)]

/-- A round with the challenge taken as it is, followed by `k`. -/
noncomputable def strictRound (H : Bytes → Bytes) (xip : ℤ) (n : ℕ) (cache : ℤ) (g h : ℕ → Sub) (f e : ℕ → Fl)
    (k : ℤ → (ℕ → Sub) → (ℕ → Sub) → (ℕ → Fl) → (ℕ → Fl) → Option (List Bytes × List Bytes × ℤ × ℤ)) : Option (List Bytes × List Bytes × ℤ × ℤ) :=
  let L := ptL n f e g h xip
  let R := ptR n f e g h xip
  let w := mash H cache [L, R]
  if w = 0 then none
  else (k w (foldP (w : Fl)⁻¹ n g) (foldP (w : Fl) n h) (foldS (w : Fl) n f) (foldS (w : Fl)⁻¹ n e)).map fun r => (L :: r.1, R :: r.2.1, r.2.2)

/-- What is left to the device after a round of half size `2 ^ k`. -/
noncomputable def rest (H : Bytes → Bytes) (xip : ℤ) (k : ℕ) (w : ℤ) (g h : ℕ → Sub) (f e : ℕ → Fl) : Option (List Bytes × List Bytes × ℤ × ℤ) :=
  proveLoop H xip (k + 1) (2 ^ k / 2) w (pts 0 (2 ^ k) g) (pts 0 (2 ^ k) h) (nums 0 (2 ^ k) f) (nums 0 (2 ^ k) e)

/-- Rounds with the help of the host until `stop`, the first with half size `2 ^ k`. -/
noncomputable def rounds (H : Bytes → Bytes) (xip : ℤ) (stop : ℕ → Bool) : ℕ → ℤ → (ℕ → Sub) → (ℕ → Sub) → (ℕ → Fl) → (ℕ → Fl) →
    Option (List Bytes × List Bytes × ℤ × ℤ)
  | 0, cache, g, h, f, e => strictRound H xip (2 ^ 0) cache g h f e (rest H xip 0)
  | k + 1, cache, g, h, f, e => strictRound H xip (2 ^ (k + 1)) cache g h f e fun w g h f e =>
      if stop (k + 1) then rest H xip (k + 1) w g h f e else rounds H xip stop k w g h f e

theorem strict_prove {H : Bytes → Bytes} {xip : ℤ} {k : ℕ} {cache : ℤ} {g h : ℕ → Sub} {f e : ℕ → Fl}
    {κ : ℤ → (ℕ → Sub) → (ℕ → Sub) → (ℕ → Fl) → (ℕ → Fl) → Option (List Bytes × List Bytes × ℤ × ℤ)} {r : List Bytes × List Bytes × ℤ × ℤ}
    (hκ : ∀ w g h f e r, κ w g h f e = some r → rest H xip k w g h f e = some r)
    (hr : strictRound H xip (2 ^ k) cache g h f e κ = some r) :
    proveLoop H xip (k + 2) (2 ^ k) cache (pts 0 (2 ^ k + 2 ^ k) g) (pts 0 (2 ^ k + 2 ^ k) h) (nums 0 (2 ^ k + 2 ^ k) f)
      (nums 0 (2 ^ k + 2 ^ k) e) = some r := by
  rw [prove_step H xip (k + 1) (2 ^ k) (Nat.two_pow_pos k).ne']
  simp only [strictRound] at hr
  split at hr
  · simp at hr
  · rename_i h0
    obtain ⟨r', h1, rfl⟩ := Option.map_eq_some_iff.mp hr
    rw [roundChallenge_eq h0, Option.bind_some]
    have := hκ _ _ _ _ _ _ h1
    rw [rest] at this
    rw [this]
    rfl

/-- The rounds with the help of the host give what the prover computes in memory. -/
theorem rounds_prove {H : Bytes → Bytes} {xip : ℤ} {stop : ℕ → Bool} (k : ℕ) : ∀ {cache : ℤ} {g h : ℕ → Sub} {f e : ℕ → Fl}
    {r : List Bytes × List Bytes × ℤ × ℤ}, rounds H xip stop k cache g h f e = some r →
    proveLoop H xip (k + 2) (2 ^ k) cache (pts 0 (2 ^ k + 2 ^ k) g) (pts 0 (2 ^ k + 2 ^ k) h) (nums 0 (2 ^ k + 2 ^ k) f)
      (nums 0 (2 ^ k + 2 ^ k) e) = some r := by
  induction k with
  | zero =>
    intro cache g h f e r hr
    rw [rounds] at hr
    exact strict_prove (fun _ _ _ _ _ _ h => h) hr
  | succ k ih =>
    intro cache g h f e r hr
    rw [rounds] at hr
    refine strict_prove (fun w g h f e r hw => ?_) hr
    split at hw
    · exact hw
    · rw [rest, half_two_pow, two_pow_succ k]
      exact ih hw

theorem strict_of_prove {H : Bytes → Bytes} {xip : ℤ} {k : ℕ} {cache : ℤ} {g h : ℕ → Sub} {f e : ℕ → Fl}
    {κ : ℤ → (ℕ → Sub) → (ℕ → Sub) → (ℕ → Fl) → (ℕ → Fl) → Option (List Bytes × List Bytes × ℤ × ℤ)} {r : List Bytes × List Bytes × ℤ × ℤ}
    (hκ : ∀ w g h f e r, rest H xip k w g h f e = some r → (∀ c ∈ chWs H w (r.1.zip r.2.1), c ≠ 0) → κ w g h f e = some r)
    (hr : proveLoop H xip (k + 2) (2 ^ k) cache (pts 0 (2 ^ k + 2 ^ k) g) (pts 0 (2 ^ k + 2 ^ k) h) (nums 0 (2 ^ k + 2 ^ k) f)
      (nums 0 (2 ^ k + 2 ^ k) e) = some r) (hc : ∀ c ∈ chWs H cache (r.1.zip r.2.1), c ≠ 0) :
    strictRound H xip (2 ^ k) cache g h f e κ = some r := by
  rw [prove_step H xip (k + 1) (2 ^ k) (Nat.two_pow_pos k).ne'] at hr
  obtain ⟨w, hw, hr⟩ := Option.bind_eq_some_iff.mp hr
  obtain ⟨r', h1, hr⟩ := Option.bind_eq_some_iff.mp hr
  have hr := Option.some.inj hr
  subst hr
  have hm : mash H cache [ptL (2 ^ k) f e g h xip, ptR (2 ^ k) f e g h xip] =
      Key.hs H (encodeInt cache ++ ptL (2 ^ k) f e g h xip ++ ptR (2 ^ k) f e g h xip) := by simp [mash]
  simp only [List.zip_cons_cons, chWs, List.forall_mem_cons] at hc
  rw [← hm] at hc
  rw [roundChallenge_eq hc.1] at hw
  have hw := Option.some.inj hw
  simp only [strictRound]
  rw [if_neg hc.1]
  rw [hw] at hc ⊢
  rw [hκ _ _ _ _ _ _ h1 hc.2]
  rfl

theorem rounds_of_prove {H : Bytes → Bytes} {xip : ℤ} {stop : ℕ → Bool} (k : ℕ) : ∀ {cache : ℤ} {g h : ℕ → Sub} {f e : ℕ → Fl}
    {r : List Bytes × List Bytes × ℤ × ℤ},
    proveLoop H xip (k + 2) (2 ^ k) cache (pts 0 (2 ^ k + 2 ^ k) g) (pts 0 (2 ^ k + 2 ^ k) h) (nums 0 (2 ^ k + 2 ^ k) f)
      (nums 0 (2 ^ k + 2 ^ k) e) = some r → (∀ c ∈ chWs H cache (r.1.zip r.2.1), c ≠ 0) → rounds H xip stop k cache g h f e = some r := by
  induction k with
  | zero =>
    intro cache g h f e r hr hc
    rw [rounds]
    exact strict_of_prove (fun _ _ _ _ _ _ h _ => h) hr hc
  | succ k ih =>
    intro cache g h f e r hr hc
    rw [rounds]
    refine strict_of_prove (fun w g h f e r hw hc => ?_) hr hc
    split
    · exact hw
    · rw [rest, half_two_pow, two_pow_succ k] at hw
      exact ih hw hc

/-! ## Dot products -/

/-- The blinds in force in round `r`: the generators of the first round are not blinded. -/
noncomputable def eff (r : ℕ) (β : ℕ → ℤ) (i : ℕ) : Fl := if r = 0 ∧ i < 4 then 1 else (β i : Fl)

theorem eff_ne {β : ℕ → ℤ} (hβ : ∀ i, (β i : Fl) ≠ 0) (r i : ℕ) : eff r β i ≠ 0 := by
  unfold eff; split
  · exact one_ne_zero
  · exact hβ i

/-- Blinded vectors; the halves have their own blinds. -/
noncomputable def blP (n : ℕ) (p r : Fl) (g : ℕ → Sub) (i : ℕ) : Sub := bl2 n p r i • g i
noncomputable def blS (n : ℕ) (p r : Fl) (f : ℕ → Fl) (i : ℕ) : Fl := bl2 n p r i * f i

theorem blP_lo {n i : ℕ} (h : i < n) (p r : Fl) (g : ℕ → Sub) : blP n p r g i = p • g i := by simp [blP, bl2, h]
theorem blP_hi (n i : ℕ) (p r : Fl) (g : ℕ → Sub) : blP n p r g (n + i) = r • g (n + i) := by simp [blP, bl2]
theorem blS_lo {n i : ℕ} (h : i < n) (p r : Fl) (f : ℕ → Fl) : blS n p r f i = p * f i := by simp [blS, bl2, h]
theorem blS_hi (n i : ℕ) (p r : Fl) (f : ℕ → Fl) : blS n p r f (n + i) = r * f (n + i) := by simp [blS, bl2]

theorem unblind_dot (n : ℕ) {p r : Fl} (hp : p ≠ 0) (hr : r ≠ 0) (u v : ℕ → Fl) : (∑ i ∈ range n, (p * u i) * (r * v i)) * p⁻¹ * r⁻¹ = ∑ i ∈ range n, u i * v i := by
  rw [sum_mul, sum_mul]
  exact sum_congr rfl fun i _ => by field_simp

theorem unblind_sum (n : ℕ) {p r : Fl} (hp : p ≠ 0) (hr : r ≠ 0) (u : ℕ → Fl) (g : ℕ → Sub) :
    (p⁻¹ * r⁻¹) • ∑ i ∈ range n, (p * u i) • r • g i = ∑ i ∈ range n, u i • g i := by
  rw [smul_sum]
  refine sum_congr rfl fun i _ => ?_
  rw [smul_smul, smul_smul]
  congr 1
  field_simp

theorem closeDot_enc (xip c : ℤ) (A B : Sub) : closeDot xip (enc A) (enc B) c = some (enc ((inv8 : Fl) • (A + B + ((c : Fl) * xip) • hS))) := by
  simp only [closeDot, addKeys_enc, Option.bind_eq_bind, Option.bind_some, scalarmultH_enc, cast_scMul]
  rw [scalarmultKey_enc _ inv8_nn]

theorem cross_L (n : ℕ) (f e : ℕ → Fl) (g h : ℕ → Sub) (xip : ℤ) :
    (inv8 : Fl) • (∑ i ∈ range n, f i • g (n + i) + ∑ i ∈ range n, e (n + i) • h i + ((∑ i ∈ range n, f i * e (n + i)) * xip) • hS) =
      (inv8 : Fl) • crossL n f e g h (xip : Fl) hS := by rw [crossL, sum_add_distrib]
theorem cross_R (n : ℕ) (f e : ℕ → Fl) (g h : ℕ → Sub) (xip : ℤ) :
    (inv8 : Fl) • (∑ i ∈ range n, f (n + i) • g i + ∑ i ∈ range n, e i • h (n + i) + ((∑ i ∈ range n, f (n + i) * e i) * xip) • hS) =
      (inv8 : Fl) • crossR n f e g h (xip : Fl) hS := by rw [crossR, sum_add_distrib]

/-- The device after the challenge of a round. -/
noncomputable def folding (F : Fix) (r n : ℕ) (W : ℤ) (L R : List Bytes) (c : ℤ) (XA XB : Bytes) (β γ : ℕ → ℤ) (k : ℕ) (pl pr : KeyV.Powers)
    (G Hp a b : Buf) : P2 := ⟨F, 3, 0, r, n, W, L, R, W, c, XA, XB, β, γ, k, pl, pr, G, Hp, a, b⟩

theorem challenge_run (H : Bytes → Bytes) (blind : ℕ → ℕ → ℤ) (F : Fix) (st pos r n : ℕ) (cache : ℤ) (L R : List Bytes) (w c : ℤ) (XA XB : Bytes)
    (β γ : ℕ → ℤ) (k : ℕ) (pl pr : KeyV.Powers) (G Hp a b : Buf) (x y : Bytes) (hL : L[r]? = some x) (hR : R[r]? = some y) :
    challenge H blind ⟨F, st, pos, r, n, cache, L, R, w, c, XA, XB, β, γ, k, pl, pr, G, Hp, a, b⟩ =
      if mash H cache [x, y] = 0 then none
      else some (folding F r n (mash H cache [x, y]) L R c XA XB β (blind k) (k + 1) pl pr G Hp a b) := by
  simp only [challenge, hL, hR]
  rfl

/-- The rest of `offdot` after the challenge. -/
noncomputable def afterDot (d : P2) : Option (Dev × Resp) :=
  if d.round = 0 then some (.two d, .bufs (if d.fix.cfg.method ≥ 2 then consts d else []))
  else if d.fix.cfg.method ≥ 2 ∧ d.nprime ≤ d.fix.cfg.off2 then some (.two d, .bufs [])
  else if d.fix.cfg.method ≥ 2 then
    some (.two { d with offstate := 2, nprime := d.nprime / 2, round := d.round + 1, bl0 := d.bl1, bl1 := d.bl0, G := [], Hp := [], a := [], b := [] },
      .bufs (consts d))
  else some (.two d, .bufs [])

theorem offdot_run (H : Bytes → Bytes) (blind : ℕ → ℕ → ℤ) (F : Fix) (pos r n : ℕ) (cache : ℤ) (L R : List Bytes) (w c : ℤ) (XA XB : Bytes)
    (β γ : ℕ → ℤ) (k : ℕ) (pl pr : KeyV.Powers) (G Hp a b : Buf) (hL : L.length = F.logMN) (hR : R.length = F.logMN) (hr : r < F.logMN)
    (hβ : ∀ i, (β i : Fl) ≠ 0) (g h : ℕ → Sub) (f e : ℕ → Fl) :
    (compOffdots (pts 0 (n + n) (blP n (eff r β 0) (eff r β 1) g)) (pts 0 (n + n) (blP n (eff r β 2) (eff r β 3) h))
        (scs 0 (n + n) (blS n (β 4) (β 5) f)) (scs 0 (n + n) (blS n (β 6) (β 7) e)) n).bind
      (offdot H blind ⟨F, 2, pos, r, n, cache, L, R, w, c, XA, XB, β, γ, k, pl, pr, G, Hp, a, b⟩) =
      if mash H cache [ptL n f e g h F.xip, ptR n f e g h F.xip] = 0 then none
      else afterDot (folding F r n (mash H cache [ptL n f e g h F.xip, ptR n f e g h F.xip]) (L.set r (ptL n f e g h F.xip)) (R.set r (ptR n f e g h F.xip))
        c XA XB β (blind k) (k + 1) pl pr G Hp a b) := by
  have ibg (i : ℕ) (hi : i < 4) : (((if r = 0 then 1 else scInv (β i) : ℤ)) : Fl) = (eff r β i)⁻¹ := by
    unfold eff
    by_cases h0 : r = 0
    · simp [h0, hi]
    · simp [h0]
  have s1 : ∑ i ∈ range n, blS n (β 4) (β 5) f i * blS n (β 6) (β 7) e (n + i) = ∑ i ∈ range n, ((β 4 : Fl) * f i) * ((β 7 : Fl) * e (n + i)) :=
    sum_congr rfl fun i hi => by rw [blS_lo (mem_range.mp hi), blS_hi]
  have s2 : ∑ i ∈ range n, blS n (β 4) (β 5) f (n + i) * blS n (β 6) (β 7) e i = ∑ i ∈ range n, ((β 5 : Fl) * f (n + i)) * ((β 6 : Fl) * e i) :=
    sum_congr rfl fun i hi => by rw [blS_lo (mem_range.mp hi), blS_hi]
  have s3 : ∑ i ∈ range n, blS n (β 4) (β 5) f i • blP n (eff r β 0) (eff r β 1) g (n + i) = ∑ i ∈ range n, ((β 4 : Fl) * f i) • eff r β 1 • g (n + i) :=
    sum_congr rfl fun i hi => by rw [blS_lo (mem_range.mp hi), blP_hi]
  have s4 : ∑ i ∈ range n, blS n (β 6) (β 7) e (n + i) • blP n (eff r β 2) (eff r β 3) h i = ∑ i ∈ range n, ((β 7 : Fl) * e (n + i)) • eff r β 2 • h i :=
    sum_congr rfl fun i hi => by rw [blP_lo (mem_range.mp hi), blS_hi]
  have s5 : ∑ i ∈ range n, blS n (β 4) (β 5) f (n + i) • blP n (eff r β 0) (eff r β 1) g i = ∑ i ∈ range n, ((β 5 : Fl) * f (n + i)) • eff r β 0 • g i :=
    sum_congr rfl fun i hi => by rw [blP_lo (mem_range.mp hi), blS_hi]
  have s6 : ∑ i ∈ range n, blS n (β 6) (β 7) e i • blP n (eff r β 2) (eff r β 3) h (n + i) = ∑ i ∈ range n, ((β 6 : Fl) * e i) • eff r β 3 • h (n + i) :=
    sum_congr rfl fun i hi => by rw [blS_lo (mem_range.mp hi), blP_hi]
  rw [compOffdots_enc, Option.bind_some, s1, s2, s3, s4, s5, s6]
  have E (i : ℕ) := eff_ne hβ r i
  simp only [offdot, scalarmultKey_enc _ (scMul_nn _ _), Option.bind_eq_bind, Option.bind_some, closeDot_enc, cast_scMul, cast_scInv, cast_kInt_sc,
    ibg 0 (by omega), ibg 1 (by omega), ibg 2 (by omega), ibg 3 (by omega)]
  rw [unblind_dot n (hβ 4) (hβ 7), unblind_dot n (hβ 5) (hβ 6), unblind_sum n (hβ 4) (E 1), unblind_sum n (hβ 7) (E 2), unblind_sum n (hβ 5) (E 0),
    unblind_sum n (hβ 6) (E 3), cross_L, cross_R]
  rw [if_neg (by omega), challenge_run (x := ptL n f e g h F.xip) (y := ptR n f e g h F.xip)]
  · by_cases hw : mash H cache [ptL n f e g h F.xip, ptR n f e g h F.xip] = 0
    · rw [if_pos hw, if_pos hw]; rfl
    · rw [if_neg hw, if_neg hw, Option.bind_some]; rfl
  · rw [List.getElem?_set_self (by omega)]; rfl
  · rw [List.getElem?_set_self (by omega)]; rfl

end Verif.Off
