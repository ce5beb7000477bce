import Verif.Lemmas.OffDots

/-! The dot products of a round, whoever computes them. -/

namespace Verif.Off
open Verif Ed Key Sig Edwards Bp Finset KeyV

/-- The vectors the host holds in a round: both halves of each have their own blind, the generators of the first round have none. -/
noncomputable def hostG (K : Rnd) (g : ℕ → Sub) : Buf := pts 0 (K.n + K.n) (blP K.n (eff K.r K.β 0) (eff K.r K.β 1) g)
noncomputable def hostH (K : Rnd) (h : ℕ → Sub) : Buf := pts 0 (K.n + K.n) (blP K.n (eff K.r K.β 2) (eff K.r K.β 3) h)
noncomputable def hostA (K : Rnd) (f : ℕ → Fl) : Buf := scs 0 (K.n + K.n) (blS K.n (K.β 4) (K.β 5) f)
noncomputable def hostB (K : Rnd) (e : ℕ → Fl) : Buf := scs 0 (K.n + K.n) (blS K.n (K.β 6) (K.β 7) e)

/-- The challenge of the round. -/
noncomputable def chW (H : Bytes → Bytes) (K : Rnd) (g h : ℕ → Sub) (f e : ℕ → Fl) : ℤ :=
  mash H K.cache [ptL K.n f e g h K.F.xip, ptR K.n f e g h K.F.xip]

/-- The device after it. -/
noncomputable def Rnd.after (K : Rnd) (H : Bytes → Bytes) (blind : ℕ → ℕ → ℤ) (g h : ℕ → Sub) (f e : ℕ → Fl) : Rnd :=
  K.chal (chW H K g h f e) (ptL K.n f e g h K.F.xip) (ptR K.n f e g h K.F.xip) (blind K.k)

/-- What every round starts with. -/
structure Ok (K : Rnd) : Prop where
  r : K.r < K.F.logMN
  L : K.L.length = K.F.logMN
  R : K.R.length = K.F.logMN
  β : ∀ i, (K.β i : Fl) ≠ 0
  n : 0 < K.n

section
variable {H : Bytes → Bytes} {rnd : Rand} {blind : ℕ → ℕ → ℤ}

theorem blP_one (n : ℕ) (g : ℕ → Sub) (i : ℕ) : blP n 1 1 g i = g i := by simp [blP, bl2]

theorem chunkLo_pts (N b j : ℕ) (g : ℕ → Sub) (h : j * b + b ≤ N) : chunkLo b j (pts 0 N g) = pts (j * b) b g := chunkLo_map h
theorem chunkLo_scs (N b j : ℕ) (f : ℕ → Fl) (h : j * b + b ≤ N) : chunkLo b j (scs 0 N f) = scs (j * b) b f := chunkLo_map h
theorem chunkHi_pts (N b n j : ℕ) (g : ℕ → Sub) (h : j * b + n + b ≤ N) : chunkHi b n j (pts 0 N g) = pts (j * b) b fun i => g (n + i) := by
  rw [pts, chunkHi_map h, pts, map_range'_shift, map_range'_shift]; exact List.map_congr_left fun i _ => by rw [Nat.add_assoc]
theorem chunkHi_scs (N b n j : ℕ) (f : ℕ → Fl) (h : j * b + n + b ≤ N) : chunkHi b n j (scs 0 N f) = scs (j * b) b fun i => f (n + i) := by
  rw [scs, chunkHi_map h, scs, map_range'_shift, map_range'_shift]; exact List.map_congr_left fun i _ => by rw [Nat.add_assoc]

theorem pts_get (s c i : ℕ) (g : ℕ → Sub) (h : i < c) : (pts s c g)[i]? = some (enc (g (s + i))) := map_range'_get _ _ _ _ h
theorem keyV_pts {n s c : ℕ} {g : ℕ → Sub} (h : c ≠ 0) : keyV n (pts s c g) = pts s c g := keyV_map h

theorem gOf_20 (K : Rnd) (hr : K.r = 0) (pos : ℕ) (p pr : Powers) (V : Host) (gB : Buf) (i : ℕ) : gOf H (St K 20 pos p pr V) gB i =
    (sliceIdx (K.n + pos) (K.n + min (pos + K.F.cfg.batching) (2 * K.n)) i).bind (gElem H K.F) := by
  unfold gOf; rw [if_pos (show (St K 20 pos p pr V).round = 0 from hr), if_pos (show (St K 20 pos p pr V).offstate = 20 from rfl)]; rfl
theorem gOf_21 (K : Rnd) (hr : K.r = 0) (pos : ℕ) (p pr : Powers) (V : Host) (gB : Buf) (i : ℕ) : gOf H (St K 21 pos p pr V) gB i =
    (sliceIdx pos (min (pos + K.F.cfg.batching) K.n) i).bind (gElem H K.F) := by
  unfold gOf; rw [if_pos (show (St K 21 pos p pr V).round = 0 from hr), if_neg (show ¬ (St K 21 pos p pr V).offstate = 20 by show ¬ (21 = 20); omega)]; rfl
theorem hOf_20 (K : Rnd) (hr : K.r = 0) (pos : ℕ) (p pr : Powers) (V : Host) (hB : Buf) (i : ℕ) (p' : Powers) : hOf H (St K 20 pos p pr V) hB i p' =
    (sliceIdx pos (min (pos + K.F.cfg.batching) K.n) i).bind (hElem H K.F p') := by
  unfold hOf; rw [if_pos (show (St K 20 pos p pr V).round = 0 from hr), if_pos (show (St K 20 pos p pr V).offstate = 20 from rfl)]; rfl
theorem hOf_21 (K : Rnd) (hr : K.r = 0) (pos : ℕ) (p pr : Powers) (V : Host) (hB : Buf) (i : ℕ) (p' : Powers) : hOf H (St K 21 pos p pr V) hB i p' =
    (sliceIdx (K.n + pos) (K.n + min (pos + K.F.cfg.batching) (2 * K.n)) i).bind (hElem H K.F p') := by
  unfold hOf; rw [if_pos (show (St K 21 pos p pr V).round = 0 from hr), if_neg (show ¬ (St K 21 pos p pr V).offstate = 20 by show ¬ (21 = 20); omega)]; rfl
theorem gOf_pos (K : Rnd) (hr : K.r ≠ 0) (st pos : ℕ) (p pr : Powers) (V : Host) (gB : Buf) (i : ℕ) : gOf H (St K st pos p pr V) gB i = gB[i]? := by
  unfold gOf; rw [if_neg (show ¬ (St K st pos p pr V).round = 0 from hr)]
theorem hOf_pos (K : Rnd) (hr : K.r ≠ 0) (st pos : ℕ) (p pr : Powers) (V : Host) (hB : Buf) (i : ℕ) (p' : Powers) :
    hOf H (St K st pos p pr V) hB i p' = hB[i]?.map fun k => (p', k) := by
  unfold hOf; rw [if_neg (show ¬ (St K st pos p pr V).round = 0 from hr)]

/-- The device computes the products. -/
theorem dots_device (K : Rnd) (hK : Ok K) (g h : ℕ → Sub) (f e : ℕ → Fl) (cfg : Cfg) (hcfg : K.F.cfg = cfg) (hm : cfg.method = 0) (hb0 : 0 < cfg.batching)
    (cnt : ℕ) (hcnt : cnt * cfg.batching = K.n) (first : Bool) (hf : first = decide (K.r = 0))
    (h0 : K.r = 0 → K.F.MN = K.n + K.n ∧ g = gPt H ∧ h = hPt H K.F.y) (G Hp : Buf) (hGH : K.r ≠ 0 → G = hostG K g ∧ Hp = hostH K h)
    (pl pr : Powers) (V : Host) :
    (chW H K g h f e = 0 → dots H rnd blind cfg K.n cnt first G Hp (hostA K f) (hostB K e) (.two (St K 20 0 pl pr V)) = none) ∧
    (chW H K g h f e ≠ 0 → ∃ pl' c XA XB, dots H rnd blind cfg K.n cnt first G Hp (hostA K f) (hostB K e) (.two (St K 20 0 pl pr V)) =
      some (.two (St ((K.after H blind g h f e).sums c XA XB) 3 0 pl' pr V), [])) := by
  subst hcfg
  set b := K.F.cfg.batching with hb
  have hβ := hK.β
  set A := blS K.n (K.β 4) (K.β 5) f with hA
  set B := blS K.n (K.β 6) (K.β 7) e with hB
  set Gf := blP K.n (eff K.r K.β 0) (eff K.r K.β 1) g with hGf
  set Hf := blP K.n (eff K.r K.β 2) (eff K.r K.β 3) h with hHf
  have hG0 (hr : K.r = 0) (i : ℕ) : enc (Gf i) = enc (gPt H i) := by
    rw [hGf, hr, eff_zero _ (by omega), eff_zero _ (by omega), blP_one, (h0 hr).2.1]
  have hH0 (hr : K.r = 0) (i : ℕ) : enc (Hf i) = enc (hPt H K.F.y i) := by
    rw [hHf, hr, eff_zero _ (by omega), eff_zero _ (by omega), blP_one, (h0 hr).2.2]
  have hjb (j : ℕ) (hj : j < cnt) : j * b + b ≤ K.n := by
    have : (j + 1) * b ≤ cnt * b := Nat.mul_le_mul_right _ (by omega)
    rw [hcnt, Nat.succ_mul] at this
    exact this
  -- the first product
  obtain ⟨p1, c1, e1, ec1, hp1⟩ := clcr_phase (H := H) (rnd := rnd) (blind := blind) K 20 cnt (Or.inl rfl) pl pr V
    (fun i => [chunkLo b i (hostA K f), chunkHi b K.n i (hostB K e)] ++
      (match (if first then none else some (G, Hp)) with | some (G, Hp) => [chunkHi b K.n i G, chunkLo b i Hp] | none => []))
    (fun i p => K.r = 0 → Rdy (scInv K.F.y) i p) A (fun i => B (K.n + i)) (fun i => Gf (K.n + i)) Hf hb0 hK.n hcnt (fun h => by omega) (by
      intro j c XA XB p hj
      have hj' := hjb j hj
      simp only [hostA, hostB]
      rw [chunkLo_scs _ _ _ _ (by omega), chunkHi_scs _ _ _ _ _ (by omega)]
      by_cases hr : K.r = 0
      · have hft : first = true := by rw [hf, decide_eq_true_eq]; exact hr
        rw [hft]
        refine ⟨_, rfl, fun h => by omega, fun i hi => ?_, fun i p' hi hp => ?_⟩
        · rw [gOf_20 (K.sums c XA XB) hr]
          show (sliceIdx (K.n + j * b) (K.n + min (j * b + b) (2 * K.n)) i).bind (gElem H K.F) = _
          rw [sliceIdx_hi hj' hi, Option.bind_some, gElem_enc H (by have := (h0 hr).1; omega), hG0 hr]
        · rw [hOf_20 (K.sums c XA XB) hr]
          show ∃ p'', (sliceIdx (j * b) (min (j * b + b) K.n) i).bind (hElem H K.F p') = _ ∧ _
          rw [sliceIdx_lo hj' hi, Option.bind_some, hH0 hr]
          obtain ⟨p'', e, h'⟩ := hElem_enc H (F := K.F) (i := j * b + i) (by have := (h0 hr).1; omega) (hp hr)
          exact ⟨p'', e, fun _ => h'⟩
      · obtain ⟨rfl, rfl⟩ := hGH hr
        have hft : first = false := by rw [hf, decide_eq_false_iff_not]; exact hr
        simp only [hft, Bool.false_eq_true, if_false, hostG, hostH]
        rw [chunkHi_pts _ _ _ _ _ (by omega), chunkLo_pts _ _ _ _ (by omega)]
        refine ⟨_, rfl, fun _ => by simp, fun i hi => ?_, fun i p' hi _ => ⟨p', ?_, fun h => absurd h hr⟩⟩
        · rw [gOf_pos (K.sums c XA XB) hr]
          show (keyV b (pts (j * b) b fun i => Gf (K.n + i)))[i]? = _
          rw [keyV_pts (by omega), pts_get _ _ _ _ hi]
        · rw [hOf_pos (K.sums c XA XB) hr]
          show (keyV b (pts (j * b) b Hf))[i]?.map (fun k => (p', k)) = _
          rw [keyV_pts (by omega), pts_get _ _ _ _ hi]
          rfl) (fun _ => Or.inl (by omega))
  set K2 : Rnd := Rnd.sums { K with L := K.L.set K.r (ptL K.n f e g h K.F.xip) } 0 one one with hK2
  have s1 : ∑ i ∈ range K.n, A i * B (K.n + i) = ∑ i ∈ range K.n, ((K.β 4 : Fl) * f i) * ((K.β 7 : Fl) * e (K.n + i)) :=
    sum_congr rfl fun i hi => by rw [hA, hB, blS_lo (mem_range.mp hi), blS_hi]
  have s2 : ∑ i ∈ range K.n, A (K.n + i) * B i = ∑ i ∈ range K.n, ((K.β 5 : Fl) * f (K.n + i)) * ((K.β 6 : Fl) * e i) :=
    sum_congr rfl fun i hi => by rw [hA, hB, blS_lo (mem_range.mp hi), blS_hi]
  have s3 : ∑ i ∈ range K.n, A i • Gf (K.n + i) = ∑ i ∈ range K.n, ((K.β 4 : Fl) * f i) • eff K.r K.β 1 • g (K.n + i) :=
    sum_congr rfl fun i hi => by rw [hA, hGf, blS_lo (mem_range.mp hi), blP_hi]
  have s4 : ∑ i ∈ range K.n, B (K.n + i) • Hf i = ∑ i ∈ range K.n, ((K.β 7 : Fl) * e (K.n + i)) • eff K.r K.β 2 • h i :=
    sum_congr rfl fun i hi => by rw [hB, hHf, blP_lo (mem_range.mp hi), blS_hi]
  have s5 : ∑ i ∈ range K.n, A (K.n + i) • Gf i = ∑ i ∈ range K.n, ((K.β 5 : Fl) * f (K.n + i)) • eff K.r K.β 0 • g i :=
    sum_congr rfl fun i hi => by rw [hA, hGf, blP_lo (mem_range.mp hi), blS_hi]
  have s6 : ∑ i ∈ range K.n, B i • Hf (K.n + i) = ∑ i ∈ range K.n, ((K.β 6 : Fl) * e i) • eff K.r K.β 3 • h (K.n + i) :=
    sum_congr rfl fun i hi => by rw [hB, hHf, blS_lo (mem_range.mp hi), blP_hi]
  have E (i : ℕ) := eff_ne hβ K.r i
  rw [clcrEnd_20 K K.n p1 pr V c1 _ _ hK.r, ec1, s1, s3, s4, unblind_dot K.n (hβ 4) (hβ 7), unblind_sum K.n (hβ 4) (E 1), unblind_sum K.n (hβ 7) (E 2), cross_L] at e1
  -- the second product
  obtain ⟨p2, c2, e2, ec2, hp2⟩ := clcr_phase (H := H) (rnd := rnd) (blind := blind) K2 21 cnt (Or.inr rfl) p1 pr V
    (fun i => [chunkHi b K.n i (hostA K f), chunkLo b i (hostB K e)] ++
      (match (if first then none else some (G, Hp)) with | some (G, Hp) => [chunkLo b i G, chunkHi b K.n i Hp] | none => []))
    (fun i p => K.r = 0 → Rdy (scInv K.F.y) (K.n + i) p) (fun i => A (K.n + i)) B Gf (fun i => Hf (K.n + i)) hb0 hK.n hcnt
    (fun _ => ⟨rfl, one_eq, one_eq⟩) (by
      intro j c XA XB p hj
      have hj' := hjb j hj
      simp only [hostA, hostB]
      rw [chunkHi_scs _ _ _ _ _ (by omega), chunkLo_scs _ _ _ _ (by omega)]
      by_cases hr : K.r = 0
      · have hft : first = true := by rw [hf, decide_eq_true_eq]; exact hr
        rw [hft]
        refine ⟨_, rfl, fun h => absurd h (by show ¬ K.r > 0; omega), fun i hi => ?_, fun i p' hi hp => ?_⟩
        · replace hi : i < b := hi
          rw [gOf_21 (K2.sums c XA XB) hr]
          show (sliceIdx (j * b) (min (j * b + b) K.n) i).bind (gElem H K.F) = _
          rw [sliceIdx_lo hj' hi, Option.bind_some, gElem_enc H (by have := (h0 hr).1; omega), hG0 hr]
          rfl
        · replace hi : i < b := hi
          rw [hOf_21 (K2.sums c XA XB) hr]
          show ∃ p'', (sliceIdx (K.n + j * b) (K.n + min (j * b + b) (2 * K.n)) i).bind (hElem H K.F p') = _ ∧ _
          rw [sliceIdx_hi hj' hi, Option.bind_some, hH0 hr]
          obtain ⟨p'', e, h'⟩ := hElem_enc H (F := K.F) (i := K.n + (j * b + i)) (by have := (h0 hr).1; have : i < b := hi; omega) (hp hr)
          exact ⟨p'', e, fun _ => h'⟩
      · obtain ⟨rfl, rfl⟩ := hGH hr
        have hft : first = false := by rw [hf, decide_eq_false_iff_not]; exact hr
        simp only [hft, Bool.false_eq_true, if_false, hostG, hostH]
        rw [chunkLo_pts _ _ _ _ (by omega), chunkHi_pts _ _ _ _ _ (by omega)]
        refine ⟨_, rfl, fun _ => by simp, fun i hi => ?_, fun i p' hi _ => ⟨p', ?_, fun h => absurd h hr⟩⟩
        · replace hi : i < b := hi
          rw [gOf_pos (K2.sums c XA XB) hr]
          show (keyV b (pts (j * b) b Gf))[i]? = _
          rw [keyV_pts (by omega), pts_get _ _ _ _ hi]
          rfl
        · replace hi : i < b := hi
          rw [hOf_pos (K2.sums c XA XB) hr]
          show (keyV b (pts (j * b) b fun i => Hf (K.n + i)))[i]?.map (fun k => (p', k)) = _
          rw [keyV_pts (by omega), pts_get _ _ _ _ hi]
          rfl) (fun hr => hp1 hr)
  have en : K2.n = K.n := rfl
  rw [en] at e2 ec2
  have eR : ptR K.n f e g h K.F.xip = enc ((inv8 : Fl) • (((K2.β 5 : Fl)⁻¹ * (eff K2.r K2.β 0)⁻¹) • ∑ i ∈ range K.n, A (K.n + i) • Gf i +
      ((K2.β 6 : Fl)⁻¹ * (eff K2.r K2.β 3)⁻¹) • ∑ i ∈ range K.n, B i • Hf (K.n + i) + (((c2 : Fl) * (K2.β 5 : Fl)⁻¹ * (K2.β 6 : Fl)⁻¹) * K2.F.xip) • hS)) := by
    show _ = enc ((inv8 : Fl) • (((K.β 5 : Fl)⁻¹ * (eff K.r K.β 0)⁻¹) • ∑ i ∈ range K.n, A (K.n + i) • Gf i +
      ((K.β 6 : Fl)⁻¹ * (eff K.r K.β 3)⁻¹) • ∑ i ∈ range K.n, B i • Hf (K.n + i) + (((c2 : Fl) * (K.β 5 : Fl)⁻¹ * (K.β 6 : Fl)⁻¹) * K.F.xip) • hS))
    rw [ec2, s2, s5, s6, unblind_dot K.n (hβ 5) (hβ 6), unblind_sum K.n (hβ 5) (E 0), unblind_sum K.n (hβ 6) (E 3), cross_R]
    rfl
  have hend := clcrEnd_21 (H := H) (blind := blind) K2 K.n p2 pr V c2 _ _ hK.r hK.R (Lp := ptL K.n f e g h K.F.xip)
    (by show (K.L.set K.r _)[K.r]? = _; rw [List.getElem?_set_self (by rw [hK.L]; exact hK.r)]) eR hm
  rw [hend] at e2
  have eW : mash H K2.cache [ptL K.n f e g h K.F.xip, ptR K.n f e g h K.F.xip] = chW H K g h f e := rfl
  rw [eW] at e2
  have e1' := e1
  simp only [Option.bind_some] at e1'
  constructor
  · intro hw
    rw [dots, if_pos hm, sendDots]
    erw [e1']
    rw [Option.bind_some]
    rw [if_pos hw] at e2
    exact congrArg (fun x => (x.map (·.1)).map fun d => (d, ([] : List Buf))) e2
  · intro hw
    rw [if_neg hw] at e2
    simp only [Option.bind_some] at e2
    refine ⟨p2, c2, enc (∑ i ∈ range K.n, A (K.n + i) • Gf i), enc (∑ i ∈ range K.n, B i • Hf (K.n + i)), ?_⟩
    rw [dots, if_pos hm, sendDots]
    erw [e1']
    rw [Option.bind_some]
    refine (congrArg (fun x => (x.map (·.1)).map fun d => (d, ([] : List Buf))) e2).trans ?_
    simp only [Option.map_some, hK2, Rnd.after, Rnd.chal, Rnd.sums, St, List.set_set]

/-- The constants a device sends. -/
noncomputable def constK (K : Rnd) : List Buf := consts (St K 3 0 Powers.new Powers.new ⟨[], [], [], []⟩)

theorem consts_St (K : Rnd) (pos : ℕ) (pl pr : Powers) (V : Host) : consts (St K 3 pos pl pr V) = constK K := rfl

theorem folding_St (K : Rnd) (pl pr : Powers) (V : Host) (g h : ℕ → Sub) (f e : ℕ → Fl) :
    folding K.F K.r K.n (chW H K g h f e) (K.L.set K.r (ptL K.n f e g h K.F.xip)) (K.R.set K.r (ptR K.n f e g h K.F.xip)) K.c K.XA K.XB K.β (blind K.k) (K.k + 1)
      pl pr V.G V.Hp V.a V.b = St (K.after H blind g h f e) 3 0 pl pr V := rfl

/-- The host computes the products. -/
theorem dots_host (K : Rnd) (hK : Ok K) (g h : ℕ → Sub) (f e : ℕ → Fl) (cfg : Cfg) (hcfg : K.F.cfg = cfg) (hm : cfg.method ≠ 0) (cnt : ℕ) (first : Bool)
    (pl pr : Powers) (V : Host) :
    dots H rnd blind cfg K.n cnt first (hostG K g) (hostH K h) (hostA K f) (hostB K e) (.two (St K 2 0 pl pr V)) =
      if chW H K g h f e = 0 then none
      else if K.r = 0 then some (.two (St (K.after H blind g h f e) 3 0 pl pr V), if cfg.method ≥ 2 then constK (K.after H blind g h f e) else [])
      else if cfg.method ≥ 2 ∧ ¬ K.n ≤ cfg.off2 then some (.two (St (K.after H blind g h f e).next 2 0 pl pr ⟨[], [], [], []⟩), constK (K.after H blind g h f e))
      else some (.two (St (K.after H blind g h f e) 3 0 pl pr V), []) := by
  subst hcfg
  have es (bufs : List Buf) : tx H rnd blind (.two (St K 2 0 pl pr V)) bufs =
      (offdot H blind (St K 2 0 pl pr V) bufs).bind fun r => match r with | (d, .bufs b) => some (d, b) | _ => none := by
    rw [tx]
    have : step H rnd blind (.two (St K 2 0 pl pr V)) bufs = offdot H blind (St K 2 0 pl pr V) bufs := by
      unfold step
      exact if_pos (show (St K 2 0 pl pr V).offstate = 2 from rfl)
    rw [this]
    cases offdot H blind (St K 2 0 pl pr V) bufs with
    | none => rfl
    | some r => obtain ⟨d, r⟩ := r; cases r <;> rfl
  have := offdot_run H blind K.F 0 K.r K.n K.cache K.L K.R K.w K.c K.XA K.XB K.β K.γ K.k pl pr V.G V.Hp V.a V.b hK.L hK.R hK.r hK.β g h f e
  rw [show mash H K.cache [ptL K.n f e g h K.F.xip, ptR K.n f e g h K.F.xip] = chW H K g h f e from rfl, folding_St] at this
  rw [dots, if_neg hm]
  rw [show (tx H rnd blind (.two (St K 2 0 pl pr V))) = fun bufs =>
      (offdot H blind (St K 2 0 pl pr V) bufs).bind fun r => match r with | (d, .bufs b) => some (d, b) | _ => none from funext es]
  rw [← Option.bind_assoc]
  rw [show (compOffdots (hostG K g) (hostH K h) (hostA K f) (hostB K e) K.n).bind (offdot H blind (St K 2 0 pl pr V)) = _ from this]
  by_cases hw : chW H K g h f e = 0
  · rw [if_pos hw, if_pos hw]; rfl
  · rw [if_neg hw, if_neg hw]
    by_cases hr : K.r = 0
    · rw [if_pos hr, afterDot, if_pos (show (St (K.after H blind g h f e) 3 0 pl pr V).round = 0 from hr)]
      rfl
    · rw [if_neg hr, afterDot, if_neg (show ¬ (St (K.after H blind g h f e) 3 0 pl pr V).round = 0 from hr)]
      by_cases h2 : K.F.cfg.method ≥ 2 ∧ ¬ K.n ≤ K.F.cfg.off2
      · rw [if_pos h2, if_neg (show ¬ ((St (K.after H blind g h f e) 3 0 pl pr V).fix.cfg.method ≥ 2 ∧
          (St (K.after H blind g h f e) 3 0 pl pr V).nprime ≤ (St (K.after H blind g h f e) 3 0 pl pr V).fix.cfg.off2) from fun h => h2.2 h.2),
          if_pos (show (St (K.after H blind g h f e) 3 0 pl pr V).fix.cfg.method ≥ 2 from h2.1)]
        rfl
      · rw [if_neg h2]
        by_cases h3 : K.F.cfg.method ≥ 2
        · rw [if_pos (show (St (K.after H blind g h f e) 3 0 pl pr V).fix.cfg.method ≥ 2 ∧
            (St (K.after H blind g h f e) 3 0 pl pr V).nprime ≤ (St (K.after H blind g h f e) 3 0 pl pr V).fix.cfg.off2 from
              ⟨h3, by show K.n ≤ K.F.cfg.off2; by_contra h; exact h2 ⟨h3, h⟩⟩)]
          rfl
        · rw [if_neg (show ¬ ((St (K.after H blind g h f e) 3 0 pl pr V).fix.cfg.method ≥ 2 ∧
            (St (K.after H blind g h f e) 3 0 pl pr V).nprime ≤ (St (K.after H blind g h f e) 3 0 pl pr V).fix.cfg.off2) from fun h => h3 h.1),
            if_neg (show ¬ (St (K.after H blind g h f e) 3 0 pl pr V).fix.cfg.method ≥ 2 from h3)]
          rfl

end

end Verif.Off
