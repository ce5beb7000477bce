import Verif.Lemmas.OffDots2

/-! A round of the host's loop, and the loop. -/

namespace Verif.Off
open Verif Ed Key Sig Edwards Bp Finset KeyV

theorem pts_congr {s c : ℕ} {G G' : ℕ → Sub} (h : ∀ i, i < s + c → G i = G' i) : pts s c G = pts s c G' := by
  unfold pts; exact List.map_congr_left fun i hi => by rw [h i (by simp at hi; omega)]
theorem scs_congr {s c : ℕ} {A A' : ℕ → Fl} (h : ∀ i, i < s + c → A i = A' i) : scs s c A = scs s c A' := by
  unfold scs; exact List.map_congr_left fun i hi => by rw [h i (by simp at hi; omega)]

/-! ## The constants -/

/-- The factors with which the host folds: the new blind, the challenge, the old blind. -/
theorem const_get (K : Rnd) {ix j : ℕ} (hx : ix < 4) (hj : j < 4) : (constK K)[4 * ix + j]? =
    some [sc (if K.r = 0 ∧ K.F.cfg.method ≥ 3 ∧ ix < 2 ∧ j % 2 = 0 ∧ K.F.cfg.method ≥ 2 then
      (K.γ (2 * ix + j / 2) : Fl) * (if j % 2 = 0 then wx (ix + 3) K.w else (wx (ix + 3) K.w)⁻¹) + K.β (2 * ix)
      else if K.r = 0 ∧ ix < 2 ∧ K.F.cfg.method ≥ 2 then (K.γ (2 * ix + j / 2) : Fl) * (if j % 2 = 0 then wx (ix + 3) K.w else (wx (ix + 3) K.w)⁻¹)
      else (K.γ (2 * ix + j / 2) : Fl) * (if j % 2 = 0 then wx (ix + 3) K.w else (wx (ix + 3) K.w)⁻¹) * (K.β (2 * ix + j % 2) : Fl)⁻¹)] := by
  have hi : 4 * ix + j < 16 := by omega
  have e1 : (4 * ix + j) / 4 = ix := by omega
  have e2 : (4 * ix + j) % 2 = j % 2 := by omega
  have e3 : (4 * ix + j) / 2 = 2 * ix + j / 2 := by omega
  have e4 : 4 * ix + j < 8 ↔ ix < 2 := by omega
  have ew : ((if (ix = 0 ∨ ix = 3) ↔ j % 2 = 0 then scInv K.w else K.w : ℤ) : Fl) = if j % 2 = 0 then wx (ix + 3) K.w else (wx (ix + 3) K.w)⁻¹ := by
    unfold wx
    by_cases hp : j % 2 = 0
    · by_cases h0 : ix = 0 ∨ ix = 3
      · have : ix + 3 = 3 ∨ ix + 3 = 6 := by omega
        simp [hp, h0, this]
      · have : ¬ (ix + 3 = 3 ∨ ix + 3 = 6) := by omega
        simp only [hp, h0, this, if_true, if_false, iff_true]
    · by_cases h0 : ix = 0 ∨ ix = 3
      · have : ix + 3 = 3 ∨ ix + 3 = 6 := by omega
        simp only [hp, h0, this, if_true, if_false, iff_false, not_true, inv_inv]
      · have : ¬ (ix + 3 = 3 ∨ ix + 3 = 6) := by omega
        simp only [hp, h0, this, if_true, if_false, iff_self, cast_scInv]
  rw [constK, consts, List.getElem?_map, List.getElem?_range hi, Option.map_some]
  congr 2
  have ec : constAt (St K 3 0 Powers.new Powers.new ⟨[], [], [], []⟩) (4 * ix + j) =
      if (decide (K.r = 0) && decide (K.F.cfg.method ≥ 2) && decide (ix < 2)) = true then
        (if K.F.cfg.method ≥ 3 ∧ j % 2 = 0 then scAdd (scMul (K.γ (2 * ix + j / 2)) (if (ix = 0 ∨ ix = 3) ↔ j % 2 = 0 then scInv K.w else K.w)) (K.β (2 * ix))
          else scMul (K.γ (2 * ix + j / 2)) (if (ix = 0 ∨ ix = 3) ↔ j % 2 = 0 then scInv K.w else K.w))
      else scMul (scMul (K.γ (2 * ix + j / 2)) (if (ix = 0 ∨ ix = 3) ↔ j % 2 = 0 then scInv K.w else K.w)) (scInv (K.β (2 * ix + j % 2))) := by
    unfold constAt
    simp only [e1, e2, e3, e4]
    rfl
  rw [ec]
  clear ec
  generalize (if (ix = 0 ∨ ix = 3) ↔ j % 2 = 0 then scInv K.w else K.w) = X at ew ⊢
  by_cases h1 : K.r = 0 ∧ ix < 2 ∧ K.F.cfg.method ≥ 2
  · have d1 : (decide (K.r = 0) && decide (K.F.cfg.method ≥ 2) && decide (ix < 2)) = true := by simp [h1]
    rw [if_pos d1]
    by_cases h2 : K.F.cfg.method ≥ 3 ∧ j % 2 = 0
    · rw [if_pos h2, if_pos ⟨h1.1, h2.1, h1.2.1, h2.2, h1.2.2⟩]
      rw [encodeInt_sc (a := scAdd (scMul (K.γ (2 * ix + j / 2)) X) (K.β (2 * ix))) (emod_l_range _),
        cast_scAdd, cast_scMul, ew]
    · rw [if_neg h2, if_neg (fun h => h2 ⟨h.2.1, h.2.2.2.1⟩), if_pos h1, sc_mul, ew]
  · have d1 : ¬ (decide (K.r = 0) && decide (K.F.cfg.method ≥ 2) && decide (ix < 2)) = true := by
      simp only [Bool.and_eq_true, decide_eq_true_eq]; tauto
    rw [if_neg d1, if_neg (fun h => h1 ⟨h.1, h.2.2.1, h.2.2.2.2⟩), if_neg h1, sc_mul, cast_scMul, cast_scInv, ew]

theorem constK_ne (K : Rnd) : constK K ≠ [] := by
  intro h
  have := const_get K (ix := 0) (j := 0) (by omega) (by omega)
  rw [h] at this
  simp at this

/-- Without the special case of the first round. -/
theorem const_std (K : Rnd) {ix j : ℕ} (hx : ix < 4) (hj : j < 4) (h : K.r ≠ 0 ∨ 2 ≤ ix) : (constK K)[4 * ix + j]? =
    some [sc ((K.γ (2 * ix + j / 2) : Fl) * (if j % 2 = 0 then wx (ix + 3) K.w else (wx (ix + 3) K.w)⁻¹) * (K.β (2 * ix + j % 2) : Fl)⁻¹)] := by
  rw [const_get K hx hj, if_neg (by rintro ⟨a, b, c, -⟩; omega), if_neg (by rintro ⟨a, b, c⟩; omega)]

theorem half_add (m : ℕ) : (m + m) / 2 = m := by omega

/-- The host folds points. -/
theorem fold_host_pts (K : Rnd) (hβ : ∀ i, (K.β i : Fl) ≠ 0) {ix : ℕ} (hx : ix ≤ 1) (hr : K.r ≠ 0) {m : ℕ} (hm : K.n = m + m) (g : ℕ → Sub) :
    compFolding (constK K) K.n (pts 0 (K.n + K.n) (blP K.n (K.β (2 * ix)) (K.β (2 * ix + 1)) g)) ix =
      some (pts 0 (m + m) (blP m (K.γ (2 * ix)) (K.γ (2 * ix + 1)) (foldP (wx (ix + 3) K.w) (m + m) g))) := by
  have c (j : ℕ) (hj : j < 4) := const_std K (ix := ix) (j := j) (by omega) hj (Or.inl hr)
  have n0 := hβ (2 * ix)
  have n1 := hβ (2 * ix + 1)
  rw [hm, compFolding_pts (c 0 (by omega)) (c 1 (by omega)) (c 2 (by omega)) (c 3 (by omega)) hx m]
  refine congrArg some (pts_congr fun i hi => ?_)
  simp only [Nat.zero_add] at hi
  rw [blP_lo (by omega), blP_hi, smul_smul, smul_smul]
  unfold blP foldP
  rw [smul_add, smul_smul, smul_smul]
  by_cases h : i < m
  · simp only [bl2, h, if_true, Nat.reduceMod, Nat.reduceDiv, Nat.add_zero, one_ne_zero, if_false]
    congr 2 <;> field_simp
  · simp only [bl2, h, if_true, Nat.reduceMod, Nat.reduceDiv, Nat.add_zero, one_ne_zero, if_false]
    congr 2 <;> field_simp

theorem fold_host_scs (K : Rnd) (hβ : ∀ i, (K.β i : Fl) ≠ 0) {ix : ℕ} (hx : ¬ ix ≤ 1) (hx4 : ix < 4) {m : ℕ} (hm : K.n = m + m) (f : ℕ → Fl) :
    compFolding (constK K) K.n (scs 0 (K.n + K.n) (blS K.n (K.β (2 * ix)) (K.β (2 * ix + 1)) f)) ix =
      some (scs 0 (m + m) (blS m (K.γ (2 * ix)) (K.γ (2 * ix + 1)) (foldS (wx (ix + 3) K.w) (m + m) f))) := by
  have c (j : ℕ) (hj : j < 4) := const_std K (ix := ix) (j := j) (by omega) hj (Or.inr (by omega))
  have n0 := hβ (2 * ix)
  have n1 := hβ (2 * ix + 1)
  rw [hm, compFolding_scs (c 0 (by omega)) (c 1 (by omega)) (c 2 (by omega)) (c 3 (by omega)) hx m]
  refine congrArg some (scs_congr fun i hi => ?_)
  simp only [Nat.zero_add] at hi
  rw [blS_lo (by omega), blS_hi]
  unfold blS foldS
  by_cases h : i < m
  · simp only [bl2, h, if_true, Nat.reduceMod, Nat.reduceDiv, Nat.add_zero, one_ne_zero, if_false]
    field_simp
  · simp only [bl2, h, if_true, Nat.reduceMod, Nat.reduceDiv, Nat.add_zero, one_ne_zero, if_false]
    field_simp

theorem eff_pos (r : ℕ) (hr : r ≠ 0) (β : ℕ → ℤ) (i : ℕ) : eff r β i = β i := by unfold eff; rw [if_neg (fun h => hr h.1)]

section
variable {H : Bytes → Bytes} {rnd : Rand} {blind : ℕ → ℕ → ℤ}

theorem next_n {K : Rnd} {m : ℕ} (hm : K.n = m + m) : K.next.n = m := by show K.n / 2 = m; omega

/-- The vectors of the host after a round. -/
noncomputable def nextHost (K : Rnd) (g h : ℕ → Sub) (f e : ℕ → Fl) : Host :=
  ⟨hostG K.next (foldP (K.w : Fl)⁻¹ K.n g), hostH K.next (foldP (K.w : Fl) K.n h), hostA K.next (foldS (K.w : Fl) K.n f),
    hostB K.next (foldS (K.w : Fl)⁻¹ K.n e)⟩

theorem nextHost_eq (K : Rnd) {m : ℕ} (hm : K.n = m + m) (g h : ℕ → Sub) (f e : ℕ → Fl) : nextHost K g h f e =
    ⟨pts 0 (m + m) (blP m (K.γ 0) (K.γ 1) (foldP (wx 3 K.w) (m + m) g)), pts 0 (m + m) (blP m (K.γ 2) (K.γ 3) (foldP (wx 4 K.w) (m + m) h)),
     scs 0 (m + m) (blS m (K.γ 4) (K.γ 5) (foldS (wx 5 K.w) (m + m) f)), scs 0 (m + m) (blS m (K.γ 6) (K.γ 7) (foldS (wx 6 K.w) (m + m) e))⟩ := by
  unfold nextHost hostG hostH hostA hostB
  rw [next_n hm]
  have e (i : ℕ) : eff K.next.r K.next.β i = K.γ i := eff_pos (K.r + 1) (by omega) K.γ i
  rw [e, e, e, e, hm]
  simp [wx, Rnd.next]

theorem foldRound_host (K : Rnd) (hβ : ∀ i, (K.β i : Fl) ≠ 0) (hr : K.r ≠ 0) {m : ℕ} (hm : K.n = m + m) (cfg : Cfg) (h2 : cfg.method ≥ 2)
    (g h : ℕ → Sub) (f e : ℕ → Fl) (d : Dev) :
    foldRound H rnd blind cfg K.n (constK K) ⟨hostG K g, hostH K h, hostA K f, hostB K e⟩ d = some (d, nextHost K g h f e) := by
  rw [foldRound, if_pos ⟨h2, constK_ne K⟩, nextHost_eq K hm]
  have e (i : ℕ) : eff K.r K.β i = K.β i := eff_pos K.r hr K.β i
  simp only [hostG, hostH, hostA, hostB, e]
  rw [fold_host_pts K hβ (ix := 0) (by omega) hr hm g, fold_host_pts K hβ (ix := 1) (by omega) hr hm h,
    fold_host_scs K hβ (ix := 2) (by omega) (by omega) hm f, fold_host_scs K hβ (ix := 3) (by omega) (by omega) hm _]
  rfl

theorem put_all (V : Host) (a b c d : Buf) : put 6 (put 5 (put 4 (put 3 V a) b) c) d = ⟨a, b, c, d⟩ := rfl

theorem outP_true (K : Rnd) (s : ℕ) (g : ℕ → Sub) : outP K s true g = fun i => enc (foldP (wx s K.w) K.n g i) := by
  funext i; simp [outP, nbF]
theorem outS_true (K : Rnd) (s : ℕ) (f : ℕ → Fl) : outS K s true f = fun i => sc (foldS (wx s K.w) K.n f i) := by
  funext i; simp [outS, nbF]
theorem outP_false (K : Rnd) (s : ℕ) (g : ℕ → Sub) : outP K s false g =
    fun i => enc (blP (K.n / 2) (K.γ (2 * (s - 3))) (K.γ (2 * (s - 3) + 1)) (foldP (wx s K.w) K.n g) i) := by
  funext i; simp [outP, nbF, blP, bl2]
theorem outS_false (K : Rnd) (s : ℕ) (f : ℕ → Fl) : outS K s false f =
    fun i => sc (blS (K.n / 2) (K.γ (2 * (s - 3))) (K.γ (2 * (s - 3) + 1)) (foldS (wx s K.w) K.n f) i) := by
  funext i; simp [outS, nbF, blS, bl2]

theorem foldRound_dev (K : Rnd) (hβ : ∀ i, (K.β i : Fl) ≠ 0) (hγ : ∀ i, 0 ≤ K.γ i) (hr : K.r ≠ 0) (hn : 0 < K.n) (cfg : Cfg) (hcfg : K.F.cfg = cfg)
    (cs : List Buf) (hcs : cfg.method < 2 ∨ cs = []) (hb0 : 0 < cfg.batching) (hdiv : K.n / min cfg.batching K.n * min cfg.batching K.n = K.n)
    (hm2 : cfg.method < 2 ∨ cfg.off2 ≤ cfg.thresh) (g h : ℕ → Sub) (f e : ℕ → Fl) (pl pr : Powers) (V : Host) :
    ∃ pl' pr' V' h', foldRound H rnd blind cfg K.n cs ⟨hostG K g, hostH K h, hostA K f, hostB K e⟩ (.two (St K 3 0 pl pr V)) =
        some (.two (St K.next (if K.n / 2 = 0 then 12 else if imK K then 10 else if cfg.method ≥ 1 then 2 else 20) 0 pl' pr' V'), h') ∧
      (imK K = true → V' = ⟨pts 0 K.n (foldP (K.w : Fl)⁻¹ K.n g), pts 0 K.n (foldP (K.w : Fl) K.n h), scs 0 K.n (foldS (K.w : Fl) K.n f),
        scs 0 K.n (foldS (K.w : Fl)⁻¹ K.n e)⟩) ∧
      (imK K = false → ∀ m, K.n = m + m → h' = nextHost K g h f e) := by
  subst hcfg
  have hmin : 0 < min K.F.cfg.batching K.n := by omega
  have hmax : max 1 (K.n / min K.F.cfg.batching K.n) = K.n / min K.F.cfg.batching K.n := by
    apply max_eq_right
    exact (Nat.le_div_iff_mul_le hmin).2 (by rw [Nat.one_mul]; exact min_le_right _ _)
  have ee (i : ℕ) : eff K.r K.β i = K.β i := eff_pos K.r hr K.β i
  set cnt := K.n / min K.F.cfg.batching K.n with hcnt
  have P3 := phase_buf (H := H) (rnd := rnd) (blind := blind) K (s := 3) cnt (fun i => enc (blP K.n (K.β 0) (K.β 1) g i)) (outP K 3 (imK K) g) (by omega) (by omega)
    (fun h => absurd h hr) hm2 hb0 hn hdiv (fun pl pr V pos i hi => by
      have := foldOf_pt K (s := 3) (by omega) (by omega) pos pl pr V (imK K) i hγ hβ g
      rw [ee, ee] at this
      rw [blP_lo hi, blP_hi]; exact this)
  have P4 := phase_buf (H := H) (rnd := rnd) (blind := blind) K (s := 4) cnt (fun i => enc (blP K.n (K.β 2) (K.β 3) h i)) (outP K 4 (imK K) h) (by omega) (by omega)
    (fun h => absurd h hr) hm2 hb0 hn hdiv (fun pl pr V pos i hi => by
      have := foldOf_pt K (s := 4) (by omega) (by omega) pos pl pr V (imK K) i hγ hβ h
      rw [ee, ee] at this
      rw [blP_lo hi, blP_hi]; exact this)
  have P5 := phase_buf (H := H) (rnd := rnd) (blind := blind) K (s := 5) cnt (fun i => sc (blS K.n (K.β 4) (K.β 5) f i)) (outS K 5 (imK K) f) (by omega) (by omega)
    (fun h => absurd h hr) hm2 hb0 hn hdiv (fun pl pr V pos i hi => by
      have := foldOf_sc K (s := 5) (by omega) pos pl pr V (imK K) i hγ hβ f
      rw [blS_lo hi, blS_hi]; exact this)
  have P6 := phase_buf (H := H) (rnd := rnd) (blind := blind) K (s := 6) cnt (fun i => sc (blS K.n (K.β 6) (K.β 7) e i)) (outS K 6 (imK K) e) (by omega) (by omega)
    (fun h => absurd h hr) hm2 hb0 hn hdiv (fun pl pr V pos i hi => by
      have := foldOf_sc K (s := 6) (by omega) pos pl pr V (imK K) i hγ hβ e
      rw [blS_lo hi, blS_hi]; exact this)
  obtain ⟨l3, r3, e3⟩ := P3 pl pr V
  rw [foldNext_state K _ _ _ _ hn (by omega) (fun h => absurd h hr)] at e3
  set V3 := if kept K 3 then put 3 V ((List.range' 0 K.n).map (outP K 3 (imK K) g)) else V with hV3
  obtain ⟨l4, r4, e4⟩ := P4 l3 r3 V3
  rw [foldNext_state K _ _ _ _ hn (by omega) (fun h => absurd h hr)] at e4
  set V4 := if kept K 4 then put 4 V3 ((List.range' 0 K.n).map (outP K 4 (imK K) h)) else V3 with hV4
  obtain ⟨l5, r5, e5⟩ := P5 l4 r4 V4
  rw [foldNext_state K _ _ _ _ hn (by omega) (fun h => absurd h hr)] at e5
  set V5 := if kept K 5 then put 5 V4 ((List.range' 0 K.n).map (outS K 5 (imK K) f)) else V4 with hV5
  obtain ⟨l6, r6, e6⟩ := P6 l5 r5 V5
  rw [foldNext_round K _ _ _ _ (Or.inl rfl)] at e6
  set V6 := if kept K 6 then put 6 V5 ((List.range' 0 K.n).map (outS K 6 (imK K) e)) else V5 with hV6
  refine ⟨l6, r6, V6, ⟨keyV (K.n / 2) (if imK K then [] else (List.range' 0 K.n).map (outP K 3 (imK K) g)),
    keyV (K.n / 2) (if imK K then [] else (List.range' 0 K.n).map (outP K 4 (imK K) h)),
    keyV (K.n / 2) (if imK K then [] else (List.range' 0 K.n).map (outS K 5 (imK K) f)),
    keyV (K.n / 2) (if imK K then [] else (List.range' 0 K.n).map (outS K 6 (imK K) e))⟩, ?_, fun him => ?_, fun him m hm => ?_⟩
  · rw [foldRound, if_neg (by rintro ⟨a, b⟩; rcases hcs with h | h; · omega
                              · exact b h)]
    dsimp only
    rw [hmax]
    simp only [hostG, hostH, hostA, hostB, ee]
    rw [show devFold H rnd blind K.F.cfg.batching K.n cnt (pts 0 (K.n + K.n) (blP K.n (K.β 0) (K.β 1) g)) (.two (St K 3 0 pl pr V)) = _ from e3]
    simp only [Option.bind_eq_bind, Option.bind_some]
    rw [show devFold H rnd blind K.F.cfg.batching K.n cnt (pts 0 (K.n + K.n) (blP K.n (K.β 2) (K.β 3) h)) (.two (St K (3 + 1) 0 l3 r3 V3)) = _ from e4]
    simp only [Option.bind_some]
    rw [show devFold H rnd blind K.F.cfg.batching K.n cnt (scs 0 (K.n + K.n) (blS K.n (K.β 4) (K.β 5) f)) (.two (St K (4 + 1) 0 l4 r4 V4)) = _ from e5]
    simp only [Option.bind_some]
    rw [show devFold H rnd blind K.F.cfg.batching K.n cnt (scs 0 (K.n + K.n) (blS K.n (K.β 6) (K.β 7) e)) (.two (St K (5 + 1) 0 l5 r5 V5)) = _ from e6]
    rfl
  · have hk (s : ℕ) : kept K s := Or.inl him
    rw [hV6, if_pos (hk 6), hV5, if_pos (hk 5), hV4, if_pos (hk 4), hV3, if_pos (hk 3), put_all, him]
    rw [outP_true, outP_true, outS_true, outS_true]
    simp [wx, pts, scs]
  · rw [nextHost_eq K hm, him]
    simp only [Bool.false_eq_true, if_false]
    have hm0 : m + m ≠ 0 := by omega
    rw [hm, keyV_map hm0, keyV_map hm0, keyV_map hm0, keyV_map hm0]
    rw [outP_false, outP_false, outS_false, outS_false, hm, half_add]
    rfl

end

end Verif.Off
