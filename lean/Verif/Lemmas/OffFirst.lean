import Verif.Lemmas.OffClient

/-! The first round of the offloaded prover: the generators are not blinded. -/

namespace Verif.Off
open Verif Ed Key Sig Edwards Bp Finset KeyV

theorem nextHost_G (K : Rnd) {m : ℕ} (hm : K.n = m + m) (g h : ℕ → Sub) (f e : ℕ → Fl) :
    (nextHost K g h f e).G = pts 0 K.n (blP (K.n / 2) (K.γ 0) (K.γ 1) (foldP (wx 3 K.w) K.n g)) := by rw [nextHost_eq K hm, hm, half_add]
theorem nextHost_Hp (K : Rnd) {m : ℕ} (hm : K.n = m + m) (g h : ℕ → Sub) (f e : ℕ → Fl) :
    (nextHost K g h f e).Hp = pts 0 K.n (blP (K.n / 2) (K.γ 2) (K.γ 3) (foldP (wx 4 K.w) K.n h)) := by rw [nextHost_eq K hm, hm, half_add]
theorem nextHost_a (K : Rnd) {m : ℕ} (hm : K.n = m + m) (g h : ℕ → Sub) (f e : ℕ → Fl) :
    (nextHost K g h f e).a = scs 0 K.n (blS (K.n / 2) (K.γ 4) (K.γ 5) (foldS (wx 5 K.w) K.n f)) := by rw [nextHost_eq K hm, hm, half_add]
theorem nextHost_b (K : Rnd) {m : ℕ} (hm : K.n = m + m) (g h : ℕ → Sub) (f e : ℕ → Fl) :
    (nextHost K g h f e).b = scs 0 K.n (blS (K.n / 2) (K.γ 6) (K.γ 7) (foldS (wx 6 K.w) K.n e)) := by rw [nextHost_eq K hm, hm, half_add]

/-- With method 3 the host folds the generators and takes away what the device sent. -/
theorem fold_host_r0 (K : Rnd) {ix : ℕ} (hx : ix ≤ 1) (hr : K.r = 0) (h3 : K.F.cfg.method = 3) {m : ℕ} (hm : K.n = m + m) (g : ℕ → Sub) :
    ((compFolding (constK K) K.n (pts 0 (K.n + K.n) g) ix).bind fun F => subAll F (pts 0 K.n fun i => (K.β (2 * ix) : Fl) • g i)) =
      some (pts 0 K.n (blP (K.n / 2) (K.γ (2 * ix)) (K.γ (2 * ix + 1)) (foldP (wx (ix + 3) K.w) K.n g))) := by
  have c (j : ℕ) (hj : j < 4) := const_get K (ix := ix) (j := j) (by omega) hj
  rw [hm, compFolding_pts (c 0 (by omega)) (c 1 (by omega)) (c 2 (by omega)) (c 3 (by omega)) hx m, Option.bind_some, subAll_pts]
  refine congrArg some (pts_congr fun i hi => ?_)
  have hx2 : ix < 2 := by omega
  simp only [hr, h3, hx2, half_add, ge_iff_le, le_refl, true_and, and_true, Nat.reduceMod, Nat.reduceDiv, Nat.reduceLeDiff, if_true, one_ne_zero, if_false, Nat.add_zero]
  unfold blP foldP bl2
  split <;> (rw [smul_add, smul_smul, smul_smul, add_smul]; abel)

section
variable {H : Bytes → Bytes} {rnd : Rand} {blind : ℕ → ℕ → ℤ}

theorem fold_dev_a (K : Rnd) (hβ : ∀ i, (K.β i : Fl) ≠ 0) (hγ : ∀ i, 0 ≤ K.γ i) (hr : K.r = 0) (hn : 0 < K.n) (hm : K.F.cfg.method < 2)
    (hb0 : 0 < K.F.cfg.batching) (cnt : ℕ) (hcnt : cnt * min K.F.cfg.batching K.n = K.n) (f e : ℕ → Fl) (pl pr : Powers) (V : Host) :
    ∃ pl' pr' V', ((devFold H rnd blind K.F.cfg.batching K.n cnt (hostA K f) (.two (St K 5 0 pl pr V))).bind fun x =>
      (devFold H rnd blind K.F.cfg.batching K.n cnt (hostB K e) x.1).bind fun y => some (y.1, x.2, y.2)) =
      some (.two (St K.next (if K.n / 2 = 0 then 12 else if K.F.cfg.method ≥ 1 then 2 else 20) 0 pl' pr' V'),
        (List.range' 0 K.n).map (outS K 5 false f), (List.range' 0 K.n).map (outS K 6 false e)) := by
  have im : imK K = false := by simp [imK, hr]
  have P5 := phase_buf (H := H) (rnd := rnd) (blind := blind) K (s := 5) cnt (fun i => sc (blS K.n (K.β 4) (K.β 5) f i)) (outS K 5 (imK K) f) (by omega) (by omega)
    (fun h => ⟨by omega, hm⟩) (Or.inl hm) hb0 hn hcnt (fun pl pr V pos i hi => by
      have := foldOf_sc K (s := 5) (by omega) pos pl pr V (imK K) i hγ hβ f
      rw [blS_lo hi, blS_hi]; exact this)
  have P6 := phase_buf (H := H) (rnd := rnd) (blind := blind) K (s := 6) cnt (fun i => sc (blS K.n (K.β 6) (K.β 7) e i)) (outS K 6 (imK K) e) (by omega) (by omega)
    (fun h => ⟨by omega, hm⟩) (Or.inl hm) hb0 hn hcnt (fun pl pr V pos i hi => by
      have := foldOf_sc K (s := 6) (by omega) pos pl pr V (imK K) i hγ hβ e
      rw [blS_lo hi, blS_hi]; exact this)
  obtain ⟨l5, r5, e5⟩ := P5 pl pr V
  rw [foldNext_state K _ _ _ _ hn (by omega) (fun _ h => by omega)] at e5
  set V5 := if kept K 5 then put 5 V ((List.range' 0 K.n).map (outS K 5 (imK K) f)) else V with hV5
  obtain ⟨l6, r6, e6⟩ := P6 l5 r5 V5
  rw [foldNext_round K _ _ _ _ (Or.inl rfl)] at e6
  simp only [im, Bool.false_eq_true, if_false] at e5 e6
  refine ⟨l6, r6, if kept K 6 then put 6 V5 ((List.range' 0 K.n).map (outS K 6 false e)) else V5, ?_⟩
  rw [show devFold H rnd blind K.F.cfg.batching K.n cnt (hostA K f) (.two (St K 5 0 pl pr V)) = _ from e5]
  simp only [Option.bind_some]
  rw [show devFold H rnd blind K.F.cfg.batching K.n cnt (hostB K e) (.two (St K (5 + 1) 0 l5 r5 V5)) = _ from e6]
  rfl

/-- The folding of the first round. -/
theorem firstFold_run (K : Rnd) (hβ : ∀ i, 0 ≤ K.β i ∧ (K.β i : Fl) ≠ 0) (hγ : ∀ i, 0 ≤ K.γ i) (hr : K.r = 0) {ν : ℕ} (hn : K.n = 2 ^ (ν + 1))
    (hMN : K.F.MN = K.n + K.n) (cfg : Cfg) (hcfg : K.F.cfg = cfg) {β τ o : ℕ} (hP : Pars cfg β τ o) (hm3 : cfg.method ≤ 3) (hm1 : cfg.method ≤ 1 → β ≤ ν + 1)
    (cs : List Buf) (hcs : cfg.method ≥ 2 → cs = constK K) (y : ℤ) (hy : K.F.y = y) (f e : ℕ → Fl) (pl pr : Powers) (V : Host) :
    ∃ pl' pr' V', firstFold H rnd blind cfg (K.n + K.n) y cs (hostA K f) (hostB K e) (.two (St K 3 0 pl pr V)) =
      some (.two (St K.next (if cfg.method = 0 then 20 else 2) 0 pl' pr' V'), nextHost K (gPt H) (hPt H y) f e) := by
  subst hcfg hy
  have hm : K.n = 2 ^ ν + 2 ^ ν := by rw [hn, pow_succ]; omega
  have hn0 : 0 < K.n := by rw [hn]; exact Nat.two_pow_pos _
  have hhalf : ¬ K.n / 2 = 0 := by have := Nat.two_pow_pos ν; omega
  have hb0 : 0 < K.F.cfg.batching := by rw [hP.b]; exact Nat.two_pow_pos β
  have hm2 : K.F.cfg.method < 2 ∨ K.F.cfg.off2 ≤ K.F.cfg.thresh := by
    by_cases h : K.F.cfg.method < 2
    · exact Or.inl h
    · right; rw [hP.oo, hP.t]; exact Nat.pow_le_pow_right (by omega) (hP.m2 (by omega))
  have e2 : (K.n + K.n) / 2 = K.n := half_add _
  set cb := max 1 (K.n / K.F.cfg.batching / 2) with hcb0
  have hcb : cb * min (K.F.cfg.batching * 2) K.n = K.n := by
    rw [hcb0, hn, hP.b, Nat.div_div_eq_div_mul, ← pow_succ]
    rcases Nat.le_total (β + 1) (ν + 1) with h | h
    · rw [min_eq_left (Nat.pow_le_pow_right (by omega) h), max_eq_right (Nat.div_pos (Nat.pow_le_pow_right (by omega) h) (Nat.two_pow_pos _)),
        Nat.div_mul_cancel (Nat.pow_dvd_pow 2 h)]
    · rw [min_eq_right (Nat.pow_le_pow_right (by omega) h), max_eq_left, one_mul]
      rcases Nat.eq_or_lt_of_le h with h | h
      · rw [h, Nat.div_self (Nat.two_pow_pos _)]
      · rw [Nat.div_eq_of_lt (Nat.pow_lt_pow_right (by omega) h)]; omega
  have hcnt (h : K.F.cfg.method ≤ 1) : (K.n + K.n) / K.F.cfg.batching / 2 * min K.F.cfg.batching K.n = K.n := by
    rw [Nat.div_right_comm, e2, hn, hP.b, min_eq_left (Nat.pow_le_pow_right (by omega) (hm1 h)), Nat.div_mul_cancel (Nat.pow_dvd_pow 2 (hm1 h))]
  have im : imK K = false := by simp [imK, hr]
  have hne : K.n ≠ 0 := hn0.ne'
  have eGs : (List.range (K.n + K.n)).map (gGen H) = pts 0 (K.n + K.n) (gPt H) := by
    rw [List.range_eq_range', pts]; exact List.map_congr_left fun i _ => gGen_enc H i
  have eHs : hPrime (scInv K.F.y) 0 ((List.range (K.n + K.n)).map (hGen H)) = some (pts 0 (K.n + K.n) (hPt H K.F.y)) := by
    rw [List.range_eq_range', hPrime_enc H (scInv_nn _)]
    simp only [cast_scInv]
    rfl
  unfold firstFold
  rw [e2]
  dsimp only
  rw [← hcb0]
  have hβ' (i : ℕ) := (hβ i).2
  by_cases h3 : K.F.cfg.method = 3
  · have hge : K.F.cfg.method ≥ 2 := by omega
    obtain ⟨l3, x3⟩ := phase_r0 (H := H) (rnd := rnd) (blind := blind) K (s := 3) cb (gPt H) (fun _ _ => True) (Or.inl rfl) hr h3 hb0 hn0 hcb (fun i => (hβ i).1)
      (fun i p hi _ => ⟨p, by rw [if_pos rfl, gElem_enc H (by omega)]; rfl, trivial⟩) pl pr V trivial
    rw [foldNext_state K _ _ _ _ hn0 (by omega) (fun _ _ => le_refl 3)] at x3
    obtain ⟨l4, x4⟩ := phase_r0 (H := H) (rnd := rnd) (blind := blind) K (s := 4) cb (hPt H K.F.y) (fun i p => Rdy (scInv K.F.y) i p) (Or.inr rfl) hr h3 hb0 hn0 hcb
      (fun i => (hβ i).1) (fun i p hi hp => by
        obtain ⟨p', a, b⟩ := hElem_enc H (F := K.F) (i := i) (by omega) hp
        exact ⟨p', by rw [if_neg (by omega), a], b⟩) l3 pr V (Or.inl (by omega))
    rw [foldNext_round K _ _ _ _ (Or.inr ⟨hr, hge, rfl⟩), if_neg hhalf, im, if_neg (by simp), if_pos (by omega)] at x4
    refine ⟨l4, pr, V, ?_⟩
    rw [x3]
    simp only [Option.bind_eq_bind, Option.bind_some]
    rw [show (3 + 1 : ℕ) = 4 from rfl, x4]
    simp only [Option.bind_some, eHs, if_pos h3, if_pos hge]
    rw [eGs, hcs hge, if_neg (by omega)]
    have k3 : keyV K.n (pts 0 K.n fun i => (K.β (2 * (3 - 3)) : Fl) • gPt H i) = pts 0 K.n fun i => (K.β (2 * 0) : Fl) • gPt H i := keyV_map hne
    have k4 : keyV K.n (pts 0 K.n fun i => (K.β (2 * (4 - 3)) : Fl) • hPt H K.F.y i) = pts 0 K.n fun i => (K.β (2 * 1) : Fl) • hPt H K.F.y i := keyV_map hne
    rw [k3, k4, fold_host_r0 K (by omega) hr h3 hm (gPt H), Option.bind_some, fold_host_r0 K (by omega) hr h3 hm (hPt H K.F.y), Option.bind_some]
    unfold hostA hostB
    rw [fold_host_scs K hβ' (ix := 2) (by omega) (by omega) hm, Option.bind_some, fold_host_scs K hβ' (ix := 3) (by omega) (by omega) hm, Option.bind_some,
      nextHost_eq K hm, hm, half_add]
  · have hle : K.F.cfg.method ≤ 2 := by omega
    obtain ⟨l3, r3, x3⟩ := phase_G (H := H) (rnd := rnd) (blind := blind) K cb hr hle hm2 hb0 hn0 hMN hcb hγ hβ' pl pr V
    rw [foldNext_state K _ _ _ _ hn0 (by omega) (fun _ _ => le_refl 3)] at x3
    obtain ⟨l4, r4, x4⟩ := phase_H (H := H) (rnd := rnd) (blind := blind) K cb hr hle hm2 hb0 hn0 hMN hcb hγ hβ' l3 r3 V
    rw [x3]
    simp only [Option.bind_eq_bind, Option.bind_some]
    rw [show (3 + 1 : ℕ) = 4 from rfl, x4]
    simp only [Option.bind_some, if_neg h3]
    rw [keyV_map hne, keyV_map hne, outP_false, outP_false]
    by_cases hge : K.F.cfg.method ≥ 2
    · have x5 := foldNext_round K l4 r4 V (imK K) (s := 4) (Or.inr ⟨hr, hge, rfl⟩)
      rw [if_neg hhalf, im, if_neg (by simp), if_pos (by omega)] at x5
      refine ⟨l4, r4, V, ?_⟩
      rw [im, x5, if_pos hge, hcs hge, if_neg (by omega)]
      unfold hostA hostB
      rw [fold_host_scs K hβ' (ix := 2) (by omega) (by omega) hm, Option.bind_some, fold_host_scs K hβ' (ix := 3) (by omega) (by omega) hm, Option.bind_some,
        nextHost_eq K hm, hm, half_add]
      rfl
    · rw [foldNext_state K _ _ _ _ hn0 (by omega) (fun _ h => absurd h hge)]
      obtain ⟨l6, r6, V6, x6⟩ := fold_dev_a (H := H) (rnd := rnd) (blind := blind) K hβ' hγ hr hn0 (by omega) hb0 _ (hcnt (by omega)) f e l4 r4 V
      refine ⟨l6, r6, V6, ?_⟩
      rw [if_neg hge]
      rw [if_neg hhalf, show (if K.F.cfg.method ≥ 1 then 2 else 20) = (if K.F.cfg.method = 0 then 20 else 2) by split <;> split <;> omega] at x6
      obtain ⟨⟨d5, a5⟩, y5, x6⟩ := Option.bind_eq_some_iff.mp x6
      obtain ⟨⟨d6, a6⟩, y6, x6⟩ := Option.bind_eq_some_iff.mp x6
      simp only [Option.some.injEq, Prod.mk.injEq] at x6
      obtain ⟨rfl, rfl, rfl⟩ := x6
      rw [show (4 + 1 : ℕ) = 5 from rfl, y5]
      simp only [Option.bind_some]
      rw [y6]
      simp only [Option.bind_some]
      rw [keyV_map hne, keyV_map hne, outS_false, outS_false, nextHost_eq K hm, hm, half_add]
      rfl

/-- The first round. -/
theorem first_run (K : Rnd) (hK : Ok K) (hβ0 : ∀ i, 0 ≤ K.β i) (hbl : ∀ k i, 0 ≤ blind k i) (hr : K.r = 0) {ν : ℕ} (hn : K.n = 2 ^ (ν + 1))
    (hMN : K.F.MN = K.n + K.n) (cfg : Cfg) (hcfg : K.F.cfg = cfg) {β τ o : ℕ} (hP : Pars cfg β τ o) (hm3 : cfg.method ≤ 3) (hm1 : cfg.method ≤ 1 → β ≤ ν + 1)
    (y : ℤ) (hy : K.F.y = y) (f e : ℕ → Fl) (pl pr : Powers) (V : Host) :
    let body := (if cfg.method = 0 then some [] else hPrime (scInv y) 0 ((List.range (K.n + K.n)).map (hGen H))).bind fun Hs =>
      (dots H rnd blind cfg K.n ((K.n + K.n) / cfg.batching / 2) true ((List.range (K.n + K.n)).map (gGen H)) Hs (hostA K f) (hostB K e)
      (.two (St K (if cfg.method = 0 then 20 else 2) 0 pl pr V))).bind fun x =>
        firstFold H rnd blind cfg (K.n + K.n) y x.2 (hostA K f) (hostB K e) x.1
    (chW H K (gPt H) (hPt H y) f e = 0 → body = none) ∧
    (chW H K (gPt H) (hPt H y) f e ≠ 0 → ∃ c XA XB pl' pr' V', body =
      some (.two (St ((K.after H blind (gPt H) (hPt H y) f e).sums c XA XB).next (if cfg.method = 0 then 20 else 2) 0 pl' pr' V'),
        nextHost ((K.after H blind (gPt H) (hPt H y) f e).sums c XA XB) (gPt H) (hPt H y) f e)) := by
  intro body
  have hb0 : 0 < cfg.batching := by rw [hP.b]; exact Nat.two_pow_pos β
  have hcnt (h : cfg.method ≤ 1) : (K.n + K.n) / cfg.batching / 2 * cfg.batching = K.n := by
    rw [Nat.div_right_comm, half_add, hn, hP.b, Nat.div_mul_cancel (Nat.pow_dvd_pow 2 (hm1 h))]
  have eGs : (List.range (K.n + K.n)).map (gGen H) = hostG K (gPt H) := by
    rw [List.range_eq_range', hostG, pts, hr, eff_zero _ (by omega), eff_zero _ (by omega)]
    exact List.map_congr_left fun i _ => by rw [blP_one]; exact gGen_enc H i
  have eHs : hPrime (scInv y) 0 ((List.range (K.n + K.n)).map (hGen H)) = some (hostH K (hPt H y)) := by
    rw [List.range_eq_range', hPrime_enc H (scInv_nn _), hostH, pts, hr, eff_zero _ (by omega), eff_zero _ (by omega)]
    exact congrArg some (List.map_congr_left fun i _ => by rw [blP_one, cast_scInv]; rfl)
  have F (c : ℤ) (XA XB : Bytes) (cs : List Buf) (hcs : cfg.method ≥ 2 → cs = constK ((K.after H blind (gPt H) (hPt H y) f e).sums c XA XB)) (pl pr : Powers) (V : Host) :=
    firstFold_run (H := H) (rnd := rnd) (blind := blind) ((K.after H blind (gPt H) (hPt H y) f e).sums c XA XB) (fun i => ⟨hβ0 i, hK.β i⟩) (hbl K.k) hr hn hMN cfg hcfg hP hm3 hm1
      cs hcs y hy f e pl pr V
  by_cases hm : cfg.method = 0
  · have D := dots_device (H := H) (rnd := rnd) (blind := blind) K hK (gPt H) (hPt H y) f e cfg hcfg hm hb0 _ (hcnt (by omega)) true (by rw [decide_eq_true hr])
      (fun _ => ⟨hMN, rfl, by rw [hy]⟩) (hostG K (gPt H)) [] (fun h => absurd hr h) pl pr V
    have eb : body = (dots H rnd blind cfg K.n ((K.n + K.n) / cfg.batching / 2) true (hostG K (gPt H)) [] (hostA K f) (hostB K e)
      (.two (St K 20 0 pl pr V))).bind fun x => firstFold H rnd blind cfg (K.n + K.n) y x.2 (hostA K f) (hostB K e) x.1 := by
      show Option.bind (if cfg.method = 0 then _ else _) _ = _
      rw [if_pos hm, Option.bind_some, eGs, if_pos hm]
    rw [eb]
    refine ⟨fun h0 => by rw [D.1 h0]; rfl, fun h0 => ?_⟩
    obtain ⟨pl1, c, XA, XB, e1⟩ := D.2 h0
    obtain ⟨pl', pr', V', e2⟩ := F c XA XB [] (fun h => by omega) pl1 pr V
    refine ⟨c, XA, XB, pl', pr', V', ?_⟩
    rw [e1]; exact e2
  · have D := dots_host (H := H) (rnd := rnd) (blind := blind) K hK (gPt H) (hPt H y) f e cfg hcfg hm ((K.n + K.n) / cfg.batching / 2) true pl pr V
    have eb : body = (dots H rnd blind cfg K.n ((K.n + K.n) / cfg.batching / 2) true (hostG K (gPt H)) (hostH K (hPt H y)) (hostA K f) (hostB K e)
      (.two (St K 2 0 pl pr V))).bind fun x => firstFold H rnd blind cfg (K.n + K.n) y x.2 (hostA K f) (hostB K e) x.1 := by
      show Option.bind (if cfg.method = 0 then _ else _) _ = _
      rw [if_neg hm, eHs, Option.bind_some, eGs, if_neg hm]
    rw [eb]
    refine ⟨fun h0 => by rw [D, if_pos h0]; rfl, fun h0 => ?_⟩
    rw [if_neg h0, if_pos hr] at D
    obtain ⟨pl', pr', V', e2⟩ := F (K.after H blind (gPt H) (hPt H y) f e).c (K.after H blind (gPt H) (hPt H y) f e).XA (K.after H blind (gPt H) (hPt H y) f e).XB
      (if cfg.method ≥ 2 then constK (K.after H blind (gPt H) (hPt H y) f e) else []) (fun h => by rw [if_pos h]; rfl) pl pr V
    refine ⟨(K.after H blind (gPt H) (hPt H y) f e).c, (K.after H blind (gPt H) (hPt H y) f e).XA, (K.after H blind (gPt H) (hPt H y) f e).XB, pl', pr', V', ?_⟩
    rw [D]; exact e2

end

end Verif.Off
