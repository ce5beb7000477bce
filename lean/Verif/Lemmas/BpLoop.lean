import Verif.Lemmas.BpVec

/-! The rounds of the inner product argument, prover's side. -/

namespace Verif.Bp
open Verif Ed Key Sig Edwards Finset

theorem roundCommit_enc {n : ℕ} {g h : ℕ → Sub} {f k : ℕ → Fl} {A B : List Bytes} {a b : List ℤ} (hA : PV A (List.range n) g)
    (hB : PV B (List.range n) h) (ha : SV a (List.range n) f) (hb : SV b (List.range n) k) (c xip : ℤ) :
    ∃ L : Sub, roundCommit A B a b c xip = some (enc L) ∧
      (8 : Fl) • L = ∑ i ∈ range n, (f i • g i + k i • h i) + ((c : Fl) * xip) • hS := by
  refine ⟨(inv8 : Fl) • (∑ i ∈ range n, (f i • g i + k i • h i) + ((c : Fl) * xip) • hS), ?_, ?_⟩
  · rw [roundCommit, vecExp_enc hA hB ha hb]
    simp only [Option.bind_eq_bind, Option.bind_some, scalarmultH_enc, addKeys_enc, cast_scMul]
    rw [scalarmultKey_enc _ inv8_nn]
  · rw [smul_smul, cast_inv8, one_smul]

/-- Everything of one round up to the challenge. -/
theorem round_enc {n : ℕ} {g h : ℕ → Sub} {f k : ℕ → Fl} {G Hp : List Bytes} {a b : List ℤ} (hG : PV G (List.range (n + n)) g)
    (hH : PV Hp (List.range (n + n)) h) (ha : SV a (List.range (n + n)) f) (hb : SV b (List.range (n + n)) k) (hn : n ≠ 0)
    (H : Bytes → Bytes) (xip : ℤ) (fuel : ℕ) (cache : ℤ) : ∃ L R : Sub, (8 : Fl) • L = crossL n f k g h xip hS ∧
      (8 : Fl) • R = crossR n f k g h xip hS ∧
      proveLoop H xip (fuel + 1) n cache G Hp a b = (roundChallenge H cache (enc L) (enc R)).bind fun w =>
        (hadamardFold G (scInv w) w).bind fun G' => (hadamardFold Hp w (scInv w)).bind fun H' =>
          (proveLoop H xip fuel (n / 2) w G' H' (scalarFold a w (scInv w)) (scalarFold b (scInv w) w)).bind fun r =>
            some (enc L :: r.1, enc R :: r.2.1, r.2.2) := by
  have tk {α : Type} {x : List α} (hx : x.length = n + n) : (x.drop n).take n = x.drop n := List.take_of_length_le (by simp [hx])
  have la := ha.length; have lb := hb.length; have lG := hG.length; have lH := hH.length
  rw [List.length_range] at la lb lG lH
  obtain ⟨cL, eL, vL⟩ := innerProduct_enc ha.take hb.drop
  obtain ⟨cR, eR, vR⟩ := innerProduct_enc ha.drop hb.take
  obtain ⟨L, e1, v1⟩ := roundCommit_enc hG.drop hH.take ha.take hb.drop cL xip
  obtain ⟨R, e2, v2⟩ := roundCommit_enc hG.take hH.drop ha.drop hb.take cR xip
  refine ⟨L, R, by rw [v1, vL]; rfl, by rw [v2, vR]; rfl, ?_⟩
  rw [proveLoop, if_neg hn, tk la, tk lb, tk lG, tk lH, eL, eR]
  simp only [Option.bind_eq_bind, Option.bind_some, e1, e2]

theorem roundChallenge_range {H : Bytes → Bytes} {cache : ℤ} {L R : Bytes} {w : ℤ} (h : roundChallenge H cache L R = some w) :
    (0 ≤ w ∧ w < l) ∧ w ≠ 0 := by
  unfold roundChallenge at h
  dsimp only at h
  split at h
  · split at h
    · exact absurd h (by simp)
    · injection h with h; subst h; rename_i h; exact ⟨hs_range _ _, h⟩
  · injection h with h; subst h; rename_i h; exact ⟨hs_range _ _, h⟩

/-- If the verifier's challenge is not zero, it is the prover's. -/
theorem roundChallenge_eq {H : Bytes → Bytes} {cache : ℤ} {L R : Bytes} (h : mash H cache [L, R] ≠ 0) :
    roundChallenge H cache L R = some (mash H cache [L, R]) := by
  unfold roundChallenge
  dsimp only
  rw [if_neg h]

/-- The folded vectors of a round are again vectors of the same kind. -/
theorem folds_enc {n : ℕ} {g h : ℕ → Sub} {f k : ℕ → Fl} {G Hp : List Bytes} {a b : List ℤ} (hG : PV G (List.range (n + n)) g)
    (hH : PV Hp (List.range (n + n)) h) (ha : SV a (List.range (n + n)) f) (hb : SV b (List.range (n + n)) k) {w : ℤ} (hw : 0 ≤ w) :
    ∃ G' H', hadamardFold G (scInv w) w = some G' ∧ hadamardFold Hp w (scInv w) = some H' ∧
      PV G' (List.range n) (foldP (w : Fl)⁻¹ n g) ∧ PV H' (List.range n) (foldP (w : Fl) n h) ∧
      SV (scalarFold a w (scInv w)) (List.range n) (foldS (w : Fl) n f) ∧ SV (scalarFold b (scInv w) w) (List.range n) (foldS (w : Fl)⁻¹ n k) := by
  have e : ((scInv w : ℤ) : Fl) = (w : Fl)⁻¹ := cast_scInv w
  obtain ⟨G', e1, v1⟩ := hadamardFold_enc hG (scInv_nn w) hw (by rw [e, inv_inv])
  obtain ⟨H', e2, v2⟩ := hadamardFold_enc hH hw (scInv_nn w) e
  have s1 := scalarFold_enc ha (w := w) e
  have s2 := scalarFold_enc hb (w := scInv w) (winv := w) (by rw [e, inv_inv])
  rw [e] at v1 s2
  exact ⟨G', H', e1, e2, v1, v2, s1, s2⟩

theorem scalarFold_range {a : List ℤ} {w wi : ℤ} : ∀ x ∈ scalarFold a w wi, 0 ≤ x ∧ x < l := by
  intro x hx
  rw [scalarFold] at hx
  obtain ⟨i, hi, rfl⟩ := List.mem_iff_getElem.mp hx
  rw [List.getElem_zipWith]
  exact emod_l_range _

theorem half_two_pow (k : ℕ) : 2 ^ (k + 1) / 2 = 2 ^ k := by rw [pow_succ]; omega

theorem two_pow_succ (k : ℕ) : 2 ^ (k + 1) = 2 ^ k + 2 ^ k := by rw [pow_succ]; omega

theorem proveLoop_enc (H : Bytes → Bytes) (xip : ℤ) (k : ℕ) : ∀ (fuel : ℕ) (cache : ℤ) (G Hp : List Bytes) (a b : List ℤ) (g h : ℕ → Sub)
    (f e : ℕ → Fl), PV G (List.range (2 ^ k)) g → PV Hp (List.range (2 ^ k)) h → SV a (List.range (2 ^ k)) f → SV b (List.range (2 ^ k)) e →
    (∀ x ∈ a, x < l) → (∀ x ∈ b, x < l) →
    ∀ (Ls Rs : List Bytes) (a0 b0 : ℤ), proveLoop H xip fuel (2 ^ k / 2) cache G Hp a b = some (Ls, Rs, a0, b0) →
    ∃ Lp Rp : List Sub, Ls = Lp.map enc ∧ Rs = Rp.map enc ∧ Lp.length = k ∧ Rp.length = k ∧ (0 ≤ a0 ∧ a0 < l) ∧ (0 ≤ b0 ∧ b0 < l) ∧
      ∀ ws, roundChallenges H cache Ls Rs = some ws → ws.length = k ∧ (∀ w ∈ ws, (w : Fl) ≠ 0) ∧
        ∑ i ∈ range (2 ^ k), (((a0 : Fl) * coef (ws.map fun w : ℤ => (w : Fl)) i) • g i + ((b0 : Fl) * (coef (ws.map fun w : ℤ => (w : Fl)) i)⁻¹) • h i) +
          ((a0 : Fl) * b0 * xip) • hS = ipa (2 ^ k) f e g h (xip : Fl) hS + lrSum (ws.map fun w : ℤ => (w : Fl)) Lp Rp := by
  induction k with
  | zero =>
    intro fuel cache G Hp a b g h f e hG hH ha hb la lb Ls Rs a0 b0 hl
    cases fuel with
    | zero => simp [proveLoop] at hl
    | succ fuel =>
      rw [proveLoop, if_pos (by norm_num)] at hl
      obtain ⟨x, a, rfl⟩ := List.exists_cons_of_length_eq_add_one (n := 0) ha.length
      obtain ⟨y, b, rfl⟩ := List.exists_cons_of_length_eq_add_one (n := 0) hb.length
      have na := ha.nn x (by simp)
      have nb := hb.nn y (by simp)
      have ea := ha.eq
      have eb := hb.eq
      simp only [pow_zero, List.range_one, List.map_cons, List.map_nil, List.cons.injEq] at ea eb
      simp only [List.getElem?_cons_zero, Option.some.injEq, Prod.mk.injEq] at hl
      obtain ⟨rfl, rfl, rfl, rfl⟩ := hl
      refine ⟨[], [], rfl, rfl, rfl, rfl, ⟨na, la x (by simp)⟩, ⟨nb, lb y (by simp)⟩, fun ws hw => ?_⟩
      rw [roundChallenges] at hw
      injection hw with hw
      subst hw
      refine ⟨rfl, by simp, ?_⟩
      simp [ipa, lrSum, coef, ea.1, eb.1]
  | succ k ih =>
    intro fuel cache G Hp a b g h f e hG hH ha hb la lb Ls Rs a0 b0 hl
    cases fuel with
    | zero => simp [proveLoop] at hl
    | succ fuel =>
      rw [half_two_pow] at hl
      rw [two_pow_succ] at hG hH ha hb
      obtain ⟨L, R, vL, vR, hstep⟩ := round_enc hG hH ha hb (Nat.two_pow_pos k).ne' H xip fuel cache
      rw [hstep] at hl
      obtain ⟨w, hw, hl⟩ := Option.bind_eq_some_iff.mp hl
      obtain ⟨wr, w0⟩ := roundChallenge_range hw
      obtain ⟨G', H', e1, e2, pG, pH, sa, sb⟩ := folds_enc hG hH ha hb wr.1
      rw [e1, e2, Option.bind_some, Option.bind_some] at hl
      obtain ⟨⟨Ls', Rs', a0', b0'⟩, hr, hl⟩ := Option.bind_eq_some_iff.mp hl
      simp only [Option.some.injEq, Prod.mk.injEq] at hl
      obtain ⟨rfl, rfl, rfl, rfl⟩ := hl
      obtain ⟨Lp, Rp, rfl, rfl, lL, lR, ra, rb, hc⟩ := ih fuel w G' H' _ _ _ _ _ _ pG pH sa sb (fun x hx => (scalarFold_range x hx).2)
        (fun x hx => (scalarFold_range x hx).2) _ _ _ _ hr
      refine ⟨L :: Lp, R :: Rp, rfl, rfl, by simp [lL], by simp [lR], ra, rb, fun ws hws => ?_⟩
      rw [roundChallenges] at hws
      split at hws
      · simp at hws
      · rename_i h0
        rw [roundChallenge_eq h0] at hw
        injection hw with hw
        rw [hw] at hws
        obtain ⟨ws', hws', rfl⟩ := Option.map_eq_some_iff.mp hws
        obtain ⟨c1, c2, c3⟩ := hc ws' hws'
        have wF : (w : Fl) ≠ 0 := (cast_ne_zero wr).mpr w0
        refine ⟨by simp [c1], fun x hx => ?_, ?_⟩
        · rcases List.mem_cons.mp hx with rfl | hx
          · exact wF
          · exact c2 x hx
        · have hlen : (ws'.map fun w : ℤ => (w : Fl)).length = k := by simp [c1]
          rw [ipa_fold wF, ← two_pow_succ, sum_add_distrib] at c3
          simp only [mul_smul, ← smul_sum] at c3
          have g1 := coef_foldP (w : Fl) (ws'.map fun w : ℤ => (w : Fl)) g
          have g2 := coef_foldP_inv (w : Fl) (ws'.map fun w : ℤ => (w : Fl)) h
          rw [List.length_cons, hlen] at g1 g2
          rw [g1, g2, ← vL, ← vR] at c3
          rw [sum_add_distrib]
          simp only [mul_smul, ← smul_sum, List.map_cons]
          rw [c3]
          simp only [lrSum, List.map_cons, List.zip_cons_cons, List.sum_cons]
          abel

/-- With a hash that is never zero modulo `l` the prover finishes. -/
theorem proveLoop_some (H : Bytes → Bytes) (hH0 : ∀ d, hs H d ≠ 0) (xip : ℤ) (k : ℕ) : ∀ (fuel : ℕ) (cache : ℤ) (G Hp : List Bytes)
    (a b : List ℤ) (g h : ℕ → Sub) (f e : ℕ → Fl), k < fuel → PV G (List.range (2 ^ k)) g → PV Hp (List.range (2 ^ k)) h →
    SV a (List.range (2 ^ k)) f → SV b (List.range (2 ^ k)) e → ∃ r ws, proveLoop H xip fuel (2 ^ k / 2) cache G Hp a b = some r ∧
      roundChallenges H cache r.1 r.2.1 = some ws := by
  induction k with
  | zero =>
    intro fuel cache G Hp a b g h f e hk hG hH ha hb
    obtain ⟨fuel, rfl⟩ : ∃ n, fuel = n + 1 := ⟨fuel - 1, by omega⟩
    obtain ⟨x, a, rfl⟩ := List.exists_cons_of_length_eq_add_one (n := 0) ha.length
    obtain ⟨y, b, rfl⟩ := List.exists_cons_of_length_eq_add_one (n := 0) hb.length
    exact ⟨([], [], x, y), [], by rw [proveLoop, if_pos (by norm_num)]; rfl, by rw [roundChallenges]⟩
  | succ k ih =>
    intro fuel cache G Hp a b g h f e hk hG hH ha hb
    obtain ⟨fuel, rfl⟩ : ∃ n, fuel = n + 1 := ⟨fuel - 1, by omega⟩
    rw [half_two_pow]
    rw [two_pow_succ] at hG hH ha hb
    obtain ⟨L, R, vL, vR, hstep⟩ := round_enc hG hH ha hb (Nat.two_pow_pos k).ne' H xip fuel cache
    have hw : mash H cache [enc L, enc R] ≠ 0 := hH0 _
    obtain ⟨G', H', e1, e2, pG, pH, sa, sb⟩ := folds_enc hG hH ha hb (w := mash H cache [enc L, enc R]) (hs_range _ _).1
    obtain ⟨r, ws, hr, hc⟩ := ih fuel (mash H cache [enc L, enc R]) G' H' _ _ _ _ _ _ (by omega) pG pH sa sb
    refine ⟨(enc L :: r.1, enc R :: r.2.1, r.2.2), mash H cache [enc L, enc R] :: ws, ?_, ?_⟩
    · rw [hstep, roundChallenge_eq hw, Option.bind_some, e1, e2, Option.bind_some, Option.bind_some, hr, Option.bind_some]
    · rw [roundChallenges]
      rw [if_neg hw, hc]; rfl

end Verif.Bp
