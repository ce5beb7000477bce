import Verif.Lemmas.OffLoop

/-! The loop of the host, up to the proof. -/

namespace Verif.Off
open Verif Ed Key Sig Edwards Bp Finset KeyV

/-- The parameters of the host are powers of two and in the right order. -/
structure Pars (cfg : Cfg) (β τ o : ℕ) : Prop where
  b : cfg.batching = 2 ^ β
  t : cfg.thresh = 2 ^ τ
  oo : cfg.off2 = 2 ^ o
  m2 : cfg.method ≥ 2 → o ≤ τ
  m0 : cfg.method = 0 → β ≤ τ

/-- When the device folds in memory. -/
def stopAt (cfg : Cfg) (τ o k : ℕ) : Bool := decide (k ≤ if cfg.method ≥ 2 then o else τ)

theorem set_take {α : Type*} (L : List α) (r : ℕ) (p : α) (h : r < L.length) : (L.set r p).take (r + 1) = L.take r ++ [p] := by
  rw [List.take_add_one, List.take_set_of_le (Nat.le_refl r)]
  simp [h]

section
variable {H : Bytes → Bytes} {rnd : Rand} {blind : ℕ → ℕ → ℤ}

/-- The last message. -/
noncomputable def finish (H : Bytes → Bytes) (rnd : Rand) (blind : ℕ → ℕ → ℤ) (d : Dev) : Option Proof :=
  match step H rnd blind d [] with
  | some (_, .proof p) => some p
  | _ => none

theorem finish_run (K : Rnd) (s : ℕ) (hs : s = 10 ∨ s = 12) {k : ℕ} (hn : K.n = 2 ^ k / 2) (hk : k ≤ K.F.logMN) (g h : ℕ → Sub) (f e : ℕ → Fl)
    (pl pr : Powers) : finish H rnd blind (.two (St K s 0 pl pr ⟨pts 0 (2 ^ k) g, pts 0 (2 ^ k) h, scs 0 (2 ^ k) f, scs 0 (2 ^ k) e⟩)) =
      (rest H K.F.xip k K.cache g h f e).map fun r => final K.F (K.L.take K.r ++ r.1) (K.R.take K.r ++ r.2.1) r.2.2.1 r.2.2.2 := by
  set V : Host := ⟨pts 0 (2 ^ k) g, pts 0 (2 ^ k) h, scs 0 (2 ^ k) f, scs 0 (2 ^ k) e⟩ with hV
  have e1 : step H rnd blind (.two (St K s 0 pl pr V)) [] = full H (St K s 0 pl pr V) := by
    unfold step
    dsimp only
    rw [if_neg (show ¬ (St K s 0 pl pr V).offstate = 2 by show ¬ s = 2; omega), if_neg (show ¬ (3 ≤ (St K s 0 pl pr V).offstate ∧ (St K s 0 pl pr V).offstate ≤ 6) by show ¬ (3 ≤ s ∧ s ≤ 6); omega),
      if_neg (show ¬ ((St K s 0 pl pr V).offstate = 20 ∨ (St K s 0 pl pr V).offstate = 21) by show ¬ (s = 20 ∨ s = 21); omega),
      if_pos (show (St K s 0 pl pr V).offstate = 10 ∨ (St K s 0 pl pr V).offstate = 12 from hs)]
  have e2 : proveLoop H K.F.xip (K.F.logMN + 1) K.n K.cache V.G V.Hp (V.a.map kInt) (V.b.map kInt) = rest H K.F.xip k K.cache g h f e := by
    rw [hV, rest]
    dsimp only
    rw [kInt_scs, kInt_scs, hn, show K.F.logMN + 1 = k + 1 + (K.F.logMN - k) by omega,
      proveLoop_fuel H K.F.xip k (K.F.logMN - k) (2 ^ k / 2) _ _ _ _ _ (Nat.div_lt_self (Nat.two_pow_pos k) (by omega))]
  unfold finish
  rw [e1]
  have e3 : full H (St K s 0 pl pr V) = match proveLoop H K.F.xip (K.F.logMN + 1) K.n K.cache V.G V.Hp (V.a.map kInt) (V.b.map kInt) with
    | none => none
    | some r => some (.two (St K s 0 pl pr V), .proof (final K.F (K.L.take K.r ++ r.1) (K.R.take K.r ++ r.2.1) r.2.2.1 r.2.2.2)) := rfl
  rw [e3, e2]
  cases rest H K.F.xip k K.cache g h f e <;> rfl

/-- A round after the first one. -/
theorem round_run (K : Rnd) (hK : Ok K) (hr : K.r ≠ 0) (cfg : Cfg) (hcfg : K.F.cfg = cfg) {β τ o : ℕ} (hP : Pars cfg β τ o) {k : ℕ} (hk : K.n = 2 ^ k)
    (hβk : cfg.method = 0 → β ≤ k) (hbl : ∀ k i, 0 ≤ blind k i) (g h : ℕ → Sub) (f e : ℕ → Fl) (pl pr : Powers) (V : Host) :
    let body := (dots H rnd blind cfg K.n (K.n / cfg.batching) false (hostG K g) (hostH K h) (hostA K f) (hostB K e)
      (.two (St K (if cfg.method = 0 then 20 else 2) 0 pl pr V))).bind fun x =>
        foldRound H rnd blind cfg K.n x.2 ⟨hostG K g, hostH K h, hostA K f, hostB K e⟩ x.1
    (chW H K g h f e = 0 → body = none) ∧
    (chW H K g h f e ≠ 0 → k = 0 ∨ stopAt cfg τ o k = true → ∃ c XA XB pl' pr' h', body =
      some (.two (St ((K.after H blind g h f e).sums c XA XB).next (if k = 0 then 12 else 10) 0 pl' pr'
        ⟨pts 0 K.n (foldP (chW H K g h f e : Fl)⁻¹ K.n g), pts 0 K.n (foldP (chW H K g h f e : Fl) K.n h),
          scs 0 K.n (foldS (chW H K g h f e : Fl) K.n f), scs 0 K.n (foldS (chW H K g h f e : Fl)⁻¹ K.n e)⟩), h')) ∧
    (chW H K g h f e ≠ 0 → ¬ (k = 0 ∨ stopAt cfg τ o k = true) → ∃ c XA XB pl' pr' V', body =
      some (.two (St ((K.after H blind g h f e).sums c XA XB).next (if cfg.method = 0 then 20 else 2) 0 pl' pr' V'),
        nextHost ((K.after H blind g h f e).sums c XA XB) g h f e)) := by
  intro body
  have hb0 : 0 < cfg.batching := by rw [hP.b]; exact Nat.two_pow_pos β
  have hdiv : K.n / min cfg.batching K.n * min cfg.batching K.n = K.n := by
    rw [hk, hP.b]
    rcases Nat.le_total β k with h | h
    · rw [min_eq_left (Nat.pow_le_pow_right (by omega) h), Nat.div_mul_cancel (Nat.pow_dvd_pow 2 h)]
    · rw [min_eq_right (Nat.pow_le_pow_right (by omega) h), Nat.div_mul_cancel (dvd_refl _)]
  have hm2 : cfg.method < 2 ∨ cfg.off2 ≤ cfg.thresh := by
    by_cases h : cfg.method < 2
    · exact Or.inl h
    · right; rw [hP.oo, hP.t]; exact Nat.pow_le_pow_right (by omega) (hP.m2 (by omega))
  have hpow (a b : ℕ) : (2 : ℕ) ^ a ≤ 2 ^ b ↔ a ≤ b := Nat.pow_le_pow_iff_right (by omega)
  have hhalf : K.n / 2 = 0 ↔ k = 0 := by
    rw [hk]
    cases k with
    | zero => simp
    | succ j => have := Nat.two_pow_pos j; rw [pow_succ]; omega
  have him (c : ℤ) (XA XB : Bytes) : imK ((K.after H blind g h f e).sums c XA XB) = decide (k ≤ τ ∨ (cfg.method ≥ 2 ∧ k ≤ o)) := by
    have : imK ((K.after H blind g h f e).sums c XA XB) =
        (decide (K.r > 0) && (decide (K.n ≤ K.F.cfg.thresh) || (decide (K.F.cfg.method ≥ 2) && decide (K.n ≤ K.F.cfg.off2)))) := rfl
    rw [this, hcfg, hk, hP.t, hP.oo]
    simp only [hpow, show decide (K.r > 0) = true from decide_eq_true (by omega), Bool.true_and]
    rw [Bool.eq_iff_iff]
    simp
  -- folding by the device
  have hdev (c : ℤ) (XA XB : Bytes) (cs : List Buf) (hcs : cfg.method < 2 ∨ cs = []) (pl pr : Powers) (V : Host) :=
    foldRound_dev (H := H) (rnd := rnd) (blind := blind) ((K.after H blind g h f e).sums c XA XB) hK.β (hbl K.k) hr hK.n cfg hcfg cs hcs hb0 hdiv hm2 g h f e pl pr V
  have dev_stop (c : ℤ) (XA XB : Bytes) (cs : List Buf) (hcs : cfg.method < 2 ∨ cs = []) (pl pr : Powers) (V : Host)
      (hs : k = 0 ∨ stopAt cfg τ o k = true) : ∃ pl' pr' h',
      foldRound H rnd blind cfg K.n cs ⟨hostG K g, hostH K h, hostA K f, hostB K e⟩ (.two (St ((K.after H blind g h f e).sums c XA XB) 3 0 pl pr V)) =
      some (.two (St ((K.after H blind g h f e).sums c XA XB).next (if k = 0 then 12 else 10) 0 pl' pr'
        ⟨pts 0 K.n (foldP (chW H K g h f e : Fl)⁻¹ K.n g), pts 0 K.n (foldP (chW H K g h f e : Fl) K.n h),
          scs 0 K.n (foldS (chW H K g h f e : Fl) K.n f), scs 0 K.n (foldS (chW H K g h f e : Fl)⁻¹ K.n e)⟩), h') := by
    obtain ⟨pl', pr', V', h', e1, e2, -⟩ := hdev c XA XB cs hcs pl pr V
    have hi : imK ((K.after H blind g h f e).sums c XA XB) = true := by
      rw [him]
      apply decide_eq_true
      rcases hs with h | h
      · left; omega
      · have h := of_decide_eq_true h
        split at h
        · exact Or.inr ⟨by assumption, h⟩
        · exact Or.inl h
    have e2 := e2 hi
    refine ⟨pl', pr', h', ?_⟩
    rw [hi] at e1
    have e4 : (if ((K.after H blind g h f e).sums c XA XB).n / 2 = 0 then 12 else if true = true then 10 else if cfg.method ≥ 1 then 2 else 20) =
        if k = 0 then 12 else 10 := by
      show (if K.n / 2 = 0 then 12 else if true = true then 10 else if cfg.method ≥ 1 then 2 else 20) = _
      simp only [hhalf, if_true]
    rw [e4, e2] at e1
    exact e1
  have dev_go (c : ℤ) (XA XB : Bytes) (cs : List Buf) (hm : cfg.method < 2) (pl pr : Powers) (V : Host)
      (hs : ¬ (k = 0 ∨ stopAt cfg τ o k = true)) : ∃ pl' pr' V',
      foldRound H rnd blind cfg K.n cs ⟨hostG K g, hostH K h, hostA K f, hostB K e⟩ (.two (St ((K.after H blind g h f e).sums c XA XB) 3 0 pl pr V)) =
      some (.two (St ((K.after H blind g h f e).sums c XA XB).next (if cfg.method = 0 then 20 else 2) 0 pl' pr' V'),
        nextHost ((K.after H blind g h f e).sums c XA XB) g h f e) := by
    obtain ⟨pl', pr', V', h', e1, -, e2⟩ := hdev c XA XB cs (Or.inl hm) pl pr V
    have hi : imK ((K.after H blind g h f e).sums c XA XB) = false := by
      rw [him]
      apply decide_eq_false
      intro h'
      apply hs
      right
      refine decide_eq_true ?_
      rw [if_neg (by omega)]
      rcases h' with h' | h' <;> omega
    obtain ⟨j, rfl⟩ : ∃ j, k = j + 1 := ⟨k - 1, by omega⟩
    have e2 := e2 hi (2 ^ j) (by show K.n = _; rw [hk, pow_succ]; omega)
    rw [hi, e2] at e1
    refine ⟨pl', pr', V', ?_⟩
    have e4 : (if ((K.after H blind g h f e).sums c XA XB).n / 2 = 0 then 12 else if false = true then 10 else if cfg.method ≥ 1 then 2 else 20) =
        if cfg.method = 0 then 20 else 2 := by
      show (if K.n / 2 = 0 then 12 else if false = true then 10 else if cfg.method ≥ 1 then 2 else 20) = _
      rw [if_neg (fun h' => by have := hhalf.1 h'; omega), if_neg (by simp)]
      by_cases h0 : cfg.method = 0
      · rw [if_pos h0, if_neg (by omega)]
      · rw [if_neg h0, if_pos (by omega)]
    rw [e4] at e1
    exact e1
  by_cases hm : cfg.method = 0
  · have D := dots_device (H := H) (rnd := rnd) (blind := blind) K hK g h f e cfg hcfg hm hb0 (K.n / cfg.batching)
      (by rw [hk, hP.b]; exact Nat.div_mul_cancel (Nat.pow_dvd_pow 2 (hβk hm))) false (by rw [decide_eq_false hr]) (fun h => absurd h hr) (hostG K g) (hostH K h) (fun _ => ⟨rfl, rfl⟩) pl pr V
    refine ⟨fun h0 => ?_, fun h0 hs => ?_, fun h0 hs => ?_⟩
    · show (dots _ _ _ _ _ _ _ _ _ _ _ _).bind _ = none
      rw [if_pos hm, D.1 h0]; rfl
    · obtain ⟨pl1, c, XA, XB, e1⟩ := D.2 h0
      obtain ⟨pl', pr', h', e2⟩ := dev_stop c XA XB [] (Or.inr rfl) pl1 pr V hs
      refine ⟨c, XA, XB, pl', pr', h', ?_⟩
      show (dots _ _ _ _ _ _ _ _ _ _ _ _).bind _ = _
      rw [if_pos hm, e1]; exact e2
    · obtain ⟨pl1, c, XA, XB, e1⟩ := D.2 h0
      obtain ⟨pl', pr', V', e2⟩ := dev_go c XA XB [] (by omega) pl1 pr V hs
      rw [if_pos hm] at e2
      refine ⟨c, XA, XB, pl', pr', V', ?_⟩
      show (dots _ _ _ _ _ _ _ _ _ _ _ _).bind _ = _
      rw [if_pos hm, e1]; exact e2
  · have D := dots_host (H := H) (rnd := rnd) (blind := blind) K hK g h f e cfg hcfg hm (K.n / cfg.batching) false pl pr V
    refine ⟨fun h0 => ?_, fun h0 hs => ?_, fun h0 hs => ?_⟩
    · show (dots _ _ _ _ _ _ _ _ _ _ _ _).bind _ = none
      rw [if_neg hm, D, if_pos h0]; rfl
    · rw [if_neg h0, if_neg hr, if_neg (by
        rintro ⟨a, b⟩
        rcases hs with h' | h'
        · apply b; rw [hk, hP.oo, h', hpow]; omega
        · have h' := of_decide_eq_true h'
          rw [if_pos a] at h'
          apply b; rw [hk, hP.oo, hpow]; exact h')] at D
      obtain ⟨pl', pr', h', e2⟩ := dev_stop (K.after H blind g h f e).c (K.after H blind g h f e).XA (K.after H blind g h f e).XB [] (Or.inr rfl) pl pr V hs
      refine ⟨(K.after H blind g h f e).c, (K.after H blind g h f e).XA, (K.after H blind g h f e).XB, pl', pr', h', ?_⟩
      show (dots _ _ _ _ _ _ _ _ _ _ _ _).bind _ = _
      rw [if_neg hm, D]; exact e2
    · rw [if_neg h0, if_neg hr] at D
      by_cases h2 : cfg.method ≥ 2
      · rw [if_pos ⟨h2, fun h' => hs (Or.inr (decide_eq_true (by rw [if_pos h2]; rw [hk, hP.oo, hpow] at h'; exact h')))⟩] at D
        refine ⟨(K.after H blind g h f e).c, (K.after H blind g h f e).XA, (K.after H blind g h f e).XB, pl, pr, ⟨[], [], [], []⟩, ?_⟩
        show (dots _ _ _ _ _ _ _ _ _ _ _ _).bind _ = _
        rw [if_neg hm, D]
        obtain ⟨j, rfl⟩ : ∃ j, k = j + 1 := ⟨k - 1, by omega⟩
        exact foldRound_host (H := H) (rnd := rnd) (blind := blind) (K.after H blind g h f e) hK.β hr (m := 2 ^ j) (by show K.n = _; rw [hk, pow_succ]; omega) cfg h2 g h f e _
      · rw [if_neg (fun h' => h2 h'.1)] at D
        obtain ⟨pl', pr', V', e2⟩ := dev_go (K.after H blind g h f e).c (K.after H blind g h f e).XA (K.after H blind g h f e).XB [] (by omega) pl pr V hs
        rw [if_neg hm] at e2
        refine ⟨(K.after H blind g h f e).c, (K.after H blind g h f e).XA, (K.after H blind g h f e).XB, pl', pr', V', ?_⟩
        show (dots _ _ _ _ _ _ _ _ _ _ _ _).bind _ = _
        rw [if_neg hm, D]; exact e2

/-- The rounds after the first one and the last message. -/
theorem loop_run (cfg : Cfg) {β τ o : ℕ} (hP : Pars cfg β τ o) (hbl : ∀ k i, 0 ≤ blind k i ∧ (blind k i : Fl) ≠ 0) (k : ℕ) :
    ∀ (K : Rnd) (fuel : ℕ) (g h : ℕ → Sub) (f e : ℕ → Fl) (pl pr : Powers) (V : Host), Ok K → K.r ≠ 0 → K.F.cfg = cfg → K.n = 2 ^ k → k < fuel →
      (cfg.method = 0 → β ≤ k) → K.r + k + 1 = K.F.logMN →
      (clientLoop H rnd blind cfg fuel (2 ^ k) ⟨hostG K g, hostH K h, hostA K f, hostB K e⟩
        (.two (St K (if cfg.method = 0 then 20 else 2) 0 pl pr V))).bind (finish H rnd blind) =
      (rounds H K.F.xip (stopAt cfg τ o) k K.cache g h f e).map fun r =>
        final K.F (K.L.take K.r ++ r.1) (K.R.take K.r ++ r.2.1) r.2.2.1 r.2.2.2 := by
  have hpow (a b : ℕ) : (2 : ℕ) ^ a ≤ 2 ^ b ↔ a ≤ b := Nat.pow_le_pow_iff_right (by omega)
  have loop_eq (K : Rnd) (fuel : ℕ) (hs : Host) (d : Dev) (k : ℕ) (hk : K.n = 2 ^ k) : clientLoop H rnd blind cfg (fuel + 1) (2 ^ k) hs d =
      ((dots H rnd blind cfg K.n (K.n / cfg.batching) false hs.G hs.Hp hs.a hs.b d).bind fun x => foldRound H rnd blind cfg K.n x.2 hs x.1).bind fun x =>
        if 2 ^ k / 2 ≥ cfg.thresh ∨ (cfg.method ≥ 2 ∧ 2 ^ k / 2 ≥ cfg.off2) then clientLoop H rnd blind cfg fuel (2 ^ k / 2) x.2 x.1 else some x.1 := by
    rw [clientLoop, hk, Option.bind_assoc]
    rfl
  -- a round after which the device goes on alone
  have stopped (k : ℕ) (K : Rnd) (fuel : ℕ) (g h : ℕ → Sub) (f e : ℕ → Fl) (pl pr : Powers) (V : Host) (hK : Ok K) (hr : K.r ≠ 0) (hcfg : K.F.cfg = cfg)
      (hn : K.n = 2 ^ k) (hfu : k < fuel) (hβ : cfg.method = 0 → β ≤ k) (hlog : K.r + k + 1 = K.F.logMN) (hs : k = 0 ∨ stopAt cfg τ o k = true) :
      (clientLoop H rnd blind cfg fuel (2 ^ k) ⟨hostG K g, hostH K h, hostA K f, hostB K e⟩
        (.two (St K (if cfg.method = 0 then 20 else 2) 0 pl pr V))).bind (finish H rnd blind) =
      (strictRound H K.F.xip (2 ^ k) K.cache g h f e (rest H K.F.xip k)).map fun r =>
        final K.F (K.L.take K.r ++ r.1) (K.R.take K.r ++ r.2.1) r.2.2.1 r.2.2.2 := by
    obtain ⟨fuel, rfl⟩ : ∃ j, fuel = j + 1 := ⟨fuel - 1, by omega⟩
    have R := round_run (H := H) (rnd := rnd) (blind := blind) K hK hr cfg hcfg hP hn hβ (fun k i => (hbl k i).1) g h f e pl pr V
    dsimp only at R
    rw [loop_eq K fuel _ _ k hn]
    dsimp only
    by_cases h0 : chW H K g h f e = 0
    · rw [R.1 h0, strictRound]
      rw [if_pos (by rw [← h0, chW, hn])]
      rfl
    · obtain ⟨c, XA, XB, pl', pr', h', e1⟩ := R.2.1 h0 hs
      rw [e1, Option.bind_some]
      have hc : ¬ (2 ^ k / 2 ≥ cfg.thresh ∨ (cfg.method ≥ 2 ∧ 2 ^ k / 2 ≥ cfg.off2)) := by
        rw [hP.t, hP.oo]
        have p1 := Nat.two_pow_pos τ
        have p2 := Nat.two_pow_pos o
        cases k with
        | zero => simp
        | succ j =>
          have hs : stopAt cfg τ o (j + 1) = true := hs.resolve_left (by omega)
          have hs := of_decide_eq_true hs
          rw [show 2 ^ (j + 1) / 2 = 2 ^ j by rw [pow_succ]; omega]
          simp only [ge_iff_le, hpow]
          split at hs
          · have := hP.m2 (by assumption); omega
          · omega
      rw [if_neg hc, Option.bind_some, hn,
        finish_run ((K.after H blind g h f e).sums c XA XB).next (if k = 0 then 12 else 10) (by split <;> simp) (k := k) (by show K.n / 2 = _; rw [hn])
          (by show k ≤ K.F.logMN; omega), strictRound]
      have ew : mash H K.cache [ptL (2 ^ k) f e g h K.F.xip, ptR (2 ^ k) f e g h K.F.xip] = chW H K g h f e := by rw [chW, hn]
      rw [ew, if_neg h0, Option.map_map]
      have eL : ((K.after H blind g h f e).sums c XA XB).next.L.take ((K.after H blind g h f e).sums c XA XB).next.r = K.L.take K.r ++ [ptL (2 ^ k) f e g h K.F.xip] := by
        rw [← hn]; exact set_take K.L K.r _ (by rw [hK.L]; exact hK.r)
      have eR : ((K.after H blind g h f e).sums c XA XB).next.R.take ((K.after H blind g h f e).sums c XA XB).next.r = K.R.take K.r ++ [ptR (2 ^ k) f e g h K.F.xip] := by
        rw [← hn]; exact set_take K.R K.r _ (by rw [hK.R]; exact hK.r)
      rw [eL, eR]
      refine congrArg (fun x => Option.map x _) (funext fun r => ?_)
      simp only [Function.comp_apply, List.append_assoc, List.singleton_append]
      rfl
  induction k with
  | zero =>
    intro K fuel g h f e pl pr V hK hr hcfg hn hfu hβ hlog
    rw [rounds]
    exact stopped 0 K fuel g h f e pl pr V hK hr hcfg hn hfu hβ hlog (Or.inl rfl)
  | succ k ih =>
    intro K fuel g h f e pl pr V hK hr hcfg hn hfu hβ hlog
    rw [rounds]
    by_cases hs : stopAt cfg τ o (k + 1) = true
    · simp only [hs, if_true]
      exact stopped (k + 1) K fuel g h f e pl pr V hK hr hcfg hn hfu hβ hlog (Or.inr hs)
    · have hs' : ¬ (k + 1 = 0 ∨ stopAt cfg τ o (k + 1) = true) := fun h => h.elim (Nat.succ_ne_zero k) hs
      simp only [hs, Bool.false_eq_true, if_false]
      obtain ⟨fuel, rfl⟩ : ∃ j, fuel = j + 1 := ⟨fuel - 1, by omega⟩
      have R := round_run (H := H) (rnd := rnd) (blind := blind) K hK hr cfg hcfg hP hn hβ (fun k i => (hbl k i).1) g h f e pl pr V
      dsimp only at R
      rw [loop_eq K fuel _ _ (k + 1) hn]
      dsimp only
      by_cases h0 : chW H K g h f e = 0
      · rw [R.1 h0, strictRound]
        rw [if_pos (by rw [← h0, chW, hn])]
        rfl
      · obtain ⟨c, XA, XB, pl', pr', V', e1⟩ := R.2.2 h0 hs'
        have hh : 2 ^ (k + 1) / 2 = 2 ^ k := by rw [pow_succ]; omega
        have hs2 : ¬ (k + 1 ≤ if cfg.method ≥ 2 then o else τ) := fun h => hs (decide_eq_true h)
        have hc : 2 ^ (k + 1) / 2 ≥ cfg.thresh ∨ (cfg.method ≥ 2 ∧ 2 ^ (k + 1) / 2 ≥ cfg.off2) := by
          rw [hP.t, hP.oo, hh]
          simp only [ge_iff_le, hpow]
          split at hs2
          · right; exact ⟨by assumption, by omega⟩
          · left; omega
        rw [e1, Option.bind_some, if_pos hc, hh]
        set K' := ((K.after H blind g h f e).sums c XA XB).next with hK'
        have hOk : Ok K' := by
          refine ⟨?_, ?_, ?_, fun i => (hbl K.k i).2, ?_⟩
          · show K.r + 1 < K.F.logMN; omega
          · show (K.L.set K.r _).length = K.F.logMN; rw [List.length_set, hK.L]
          · show (K.R.set K.r _).length = K.F.logMN; rw [List.length_set, hK.R]
          · show 0 < K.n / 2; rw [hn, hh]; exact Nat.two_pow_pos k
        have IH := ih K' fuel (foldP (chW H K g h f e : Fl)⁻¹ K.n g) (foldP (chW H K g h f e : Fl) K.n h) (foldS (chW H K g h f e : Fl) K.n f)
          (foldS (chW H K g h f e : Fl)⁻¹ K.n e) pl' pr' V' hOk (Nat.succ_ne_zero K.r) hcfg (by show K.n / 2 = _; rw [hn, hh]) (by omega)
          (fun hm => by rw [if_neg (by omega)] at hs2; have := hP.m0 hm; omega) (by show K.r + 1 + k + 1 = K.F.logMN; omega)
        refine Eq.trans IH ?_
        rw [strictRound]
        have ew : mash H K.cache [ptL (2 ^ (k + 1)) f e g h K.F.xip, ptR (2 ^ (k + 1)) f e g h K.F.xip] = chW H K g h f e := by rw [chW, hn]
        rw [ew, if_neg h0, Option.map_map, ← hn]
        have eL : K'.L.take K'.r = K.L.take K.r ++ [ptL K.n f e g h K.F.xip] := set_take K.L K.r _ (by rw [hK.L]; exact hK.r)
        have eR : K'.R.take K'.r = K.R.take K.r ++ [ptR K.n f e g h K.F.xip] := set_take K.R K.r _ (by rw [hK.R]; exact hK.r)
        rw [eL, eR]
        refine congrArg (fun x => Option.map x _) (funext fun r => ?_)
        simp only [Function.comp_apply, List.append_assoc, List.singleton_append]
        rfl

end

end Verif.Off
