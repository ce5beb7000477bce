import Verif.Lemmas.BpVerify

/-! Batch verification of Bulletproofs. -/

namespace Verif.Bp
open Verif Ed Key Sig Edwards Finset

theorem verifyStep_none (H : Bytes → Bytes) (single : Bool) (p : Pf Fl Sub) (hLR : p.L.length = p.R.length) (s : Scalars) (wy wz : ℤ) (g : Agg)
    (h : ¬ StepOk H p) : verifyStep H single (bytes p) s wy wz g = none := by
  have lV : (bytes p).V.length = p.V.length := by simp [bytes]
  have lL : (bytes p).L.length = p.L.length := by simp [bytes]
  have lR : (bytes p).R.length = p.R.length := by simp [bytes]
  have hzz : hs H (encodeInt (chY H (bytes p))) = chZ H (bytes p) := rfl
  unfold verifyStep
  dsimp only
  rw [lV, lL, chY_mash, hzz, chX_mash, chXip_mash]
  split
  · rfl
  · rename_i h1
    split
    · rfl
    · rename_i h2
      split
      · rfl
      · rename_i h3
        split
        · rfl
        · rename_i h4
          split
          · rfl
          · rename_i h5
            split
            · rfl
            · rename_i h6
              have hrc : roundChallenges H (chXip H (bytes p)) (bytes p).L (bytes p).R = none := by
                rw [roundChallenges_eq H _ _ _ (by rw [lL, lR, hLR]), if_neg]
                exact fun hw => h ⟨not_not.mp h1, by omega, h2, h3, h4, h5, hw⟩
              simp only [hrc, Option.bind_eq_bind, Option.bind_none]
              simp

/-- What the verifier compares with zero: the weighted sum of all equations. -/
noncomputable def total (H : Bytes → Bytes) : List (Pf Fl Sub) → List (ℤ × ℤ) → Sub
  | p :: ps, w :: ws => ((w.1 : Fl) • eq1 (gens H) (2 ^ logM p.V.length) (chs H (bytes p)) p +
      (w.2 : Fl) • eq2 (gens H) (2 ^ logM p.V.length) (chs H (bytes p)) p) + total H ps ws
  | _, _ => 0

theorem verifyLoop_enc (H : Bytes → Bytes) (single : Bool) : ∀ (ps : List (Pf Fl Sub)) (ws : List (ℤ × ℤ)), ps.length = ws.length →
    (∀ p ∈ ps, p.L.length = p.R.length) → ∀ (g : Agg) (n : ℕ) (P : Sub) (f4 f5 : ℕ → Fl), AggOk g n P f4 f5 →
    (∀ p ∈ ps, single = false → 2 ^ logM p.V.length * 64 ≤ n) → (∀ p ∈ ps, StepOk H p) →
    ∃ g' P' f4' f5', verifyLoop H single ((ps.map bytes).zip (ps.map scalarsOf)) ws g = some g' ∧ AggOk g' n P' f4' f5' ∧
      aggVal H g' n P' f4' f5' = aggVal H g n P f4 f5 + total H ps ws
  | [], ws, _, _, g, n, P, f4, f5, hg, _, _ => ⟨g, P, f4, f5, by rw [List.map_nil, List.map_nil, List.zip_nil_left, verifyLoop], hg, by
      rw [total.eq_def]; simp⟩
  | p :: ps, [], h, _, _, _, _, _, _, _, _, _ => by simp at h
  | p :: ps, (wy, wz) :: ws, h, hLR, g, n, P, f4, f5, hg, hn, hok => by
    obtain ⟨g1, P1, a1, b1, e1, o1, v1⟩ := verifyStep_enc H single p (hLR p (by simp)) wy wz hg (hn p (by simp)) (hok p (by simp))
    obtain ⟨g2, P2, a2, b2, e2, o2, v2⟩ := verifyLoop_enc H single ps ws (by simpa using h) (fun q hq => hLR q (by simp [hq])) g1 n P1 a1 b1 o1
      (fun q hq => hn q (by simp [hq])) (fun q hq => hok q (by simp [hq]))
    refine ⟨g2, P2, a2, b2, ?_, o2, ?_⟩
    · rw [List.map_cons, List.map_cons, List.zip_cons_cons, verifyLoop, e1]; exact e2
    · rw [v2, v1, total, add_assoc]

theorem verifyLoop_ok (H : Bytes → Bytes) (single : Bool) : ∀ (ps : List (Pf Fl Sub)) (ws : List (ℤ × ℤ)) (g g' : Agg),
    (∀ p ∈ ps, p.L.length = p.R.length) → verifyLoop H single ((ps.map bytes).zip (ps.map scalarsOf)) ws g = some g' → ∀ p ∈ ps, StepOk H p
  | [], _, _, _, _, _, p, hp => by simp at hp
  | q :: ps, [], g, g', _, h, _, _ => by simp [verifyLoop] at h
  | q :: ps, (wy, wz) :: ws, g, g', hLR, h, p, hp => by
    rw [List.map_cons, List.map_cons, List.zip_cons_cons, verifyLoop] at h
    have hq : StepOk H q := by
      by_contra hn
      rw [verifyStep_none H single q (hLR q (by simp)) _ wy wz g hn] at h
      simp at h
    rcases List.mem_cons.mp hp with rfl | hp
    · exact hq
    · split at h
      · exact verifyLoop_ok H single ps ws _ g' (fun q hq => hLR q (by simp [hq])) h p hp
      · simp at h

/-- What the first loop requires. -/
def PreOk (p : Pf Fl Sub) : Prop := p.V ≠ [] ∧ p.L.length = p.R.length ∧ p.L ≠ []

open Classical in
theorem precheck_enc (p : Pf Fl Sub) : precheck (bytes p) = if PreOk p then some (scalarsOf p) else none := by
  unfold precheck
  simp only [bytes, reduced_num, Option.bind_eq_bind, Option.bind_some, List.length_map]
  by_cases h1 : p.V.length < 1
  · rw [if_pos h1, if_neg]
    intro h; exact h.1 (List.eq_nil_of_length_eq_zero (by omega))
  · rw [if_neg h1]
    by_cases h2 : p.L.length = p.R.length
    · rw [if_neg (not_not.mpr h2)]
      by_cases h3 : p.L.length = 0
      · rw [if_pos h3, if_neg]
        intro h; exact h.2.2 (List.eq_nil_of_length_eq_zero h3)
      · rw [if_neg h3, if_pos]
        · rfl
        · refine ⟨fun h => h1 (by simp [h]), h2, fun h => h3 (by simp [h])⟩
    · rw [if_pos h2, if_neg]
      intro h; exact h2 h.2.1

open Classical in
theorem prechecks_enc : ∀ ps : List (Pf Fl Sub),
    (ps.map bytes).mapM precheck = if ∀ p ∈ ps, PreOk p then some (ps.map scalarsOf) else none
  | [] => by simp
  | p :: ps => by
    rw [List.map_cons, List.mapM_cons, prechecks_enc ps, precheck_enc]
    by_cases h1 : PreOk p
    · rw [if_pos h1]
      by_cases h2 : ∀ p ∈ ps, PreOk p
      · rw [if_pos h2, if_pos (by simpa [h1] using h2)]; rfl
      · rw [if_neg h2, if_neg (by simp only [List.mem_cons, forall_eq_or_imp]; exact fun h => h2 h.2)]; rfl
    · rw [if_neg h1, if_neg (show ¬ ∀ r ∈ p :: ps, PreOk r from fun h => h1 (h p (by simp)))]; rfl

theorem logM_le (n : ℕ) : logM n ≤ 6 := by
  unfold logM
  have : ∀ fuel lg, logMLoop n fuel lg ≤ lg + fuel := by
    intro fuel
    induction fuel with
    | zero => intro lg; simp [logMLoop]
    | succ f ih =>
      intro lg
      rw [logMLoop]
      split
      · exact (ih _).trans (by omega)
      · omega
  simpa using this 6 0

theorem gens_pairs (H : Bytes → Bytes) (z4 z5 : List ℤ) : ((z4.zip z5).zipIdx.map fun v => [(v.1.1, gGen H v.2), (v.1.2, hGen H v.2)]).flatten =
    (((z4.zip z5).zipIdx.map fun v => [(v.1.1, gPt H v.2), (v.1.2, hGPt H v.2)]).flatten).map fun t => (t.1, enc t.2) := by
  rw [List.map_flatten, List.map_map]
  congr 1
  refine List.map_congr_left fun v _ => ?_
  simp [gGen_enc, hGen_enc]

theorem gens_sum (H : Bytes → Bytes) (f4 f5 : ℕ → Fl) : ∀ (n k : ℕ) (z4 z5 : List ℤ), z4.map (fun x : ℤ => (x : Fl)) = (List.range' k n).map f4 →
    z5.map (fun x : ℤ => (x : Fl)) = (List.range' k n).map f5 →
    (((((z4.zip z5).zipIdx k).map fun v => [(v.1.1, gPt H v.2), (v.1.2, hGPt H v.2)]).flatten).map fun t => ((t.1 : ℤ) : Fl) • t.2).sum =
      ((List.range' k n).map fun i => f4 i • gPt H i + f5 i • hGPt H i).sum
  | 0, k, z4, z5, h4, _ => by
    have : z4 = [] := by simpa using h4
    simp [this]
  | n + 1, k, z4, z5, h4, h5 => by
    obtain ⟨x, z4, rfl⟩ := List.exists_cons_of_length_eq_add_one (show z4.length = n + 1 by simpa using congrArg List.length h4)
    obtain ⟨y, z5, rfl⟩ := List.exists_cons_of_length_eq_add_one (show z5.length = n + 1 by simpa using congrArg List.length h5)
    simp only [List.range'_succ, List.map_cons, List.cons.injEq] at h4 h5
    have := gens_sum H f4 f5 n (k + 1) z4 z5 h4.2 h5.2
    simp only [List.zip_cons_cons, List.zipIdx_cons, List.map_cons, List.flatten_cons, List.map_append, List.sum_append, List.range'_succ,
      List.sum_cons, List.map_nil, List.sum_nil, add_zero, h4.1, h5.1] at this ⊢
    rw [this]

theorem genSums_enc (H : Bytes → Bytes) {z4 z5 : List ℤ} {n : ℕ} {f4 f5 : ℕ → Fl} (h4 : SV z4 (List.range n) f4) (h5 : SV z5 (List.range n) f5) :
    ∃ e, genSums H z4 z5 = some e ∧ encodePoint e = enc (∑ i ∈ range n, (f4 i • gPt H i + f5 i • hGPt H i)) := by
  obtain ⟨e, m, v⟩ := muex_enc0 (((z4.zip z5).zipIdx.map fun v => [(v.1.1, gPt H v.2), (v.1.2, hGPt H v.2)]).flatten) (by
    intro t ht
    obtain ⟨a, ha, ht⟩ := List.mem_flatten.mp ht
    obtain ⟨v, hv, rfl⟩ := List.mem_map.mp ha
    have hz := List.of_mem_zip (List.fst_mem_of_mem_zipIdx hv)
    simp only [List.mem_cons, List.not_mem_nil, or_false] at ht
    rcases ht with rfl | rfl
    · exact h4.nn _ hz.1
    · exact h5.nn _ hz.2)
  refine ⟨e, by rw [genSums, gens_pairs]; exact m, ?_⟩
  rw [v, gens_sum H f4 f5 n 0 z4 z5 (by rw [h4.eq, List.range_eq_range']) (by rw [h5.eq, List.range_eq_range']), ← sum_map_range, List.range_eq_range']

theorem closeGens_enc (H : Bytes → Bytes) (single : Bool) {g : Agg} {n : ℕ} {P Q : Sub} {f4 f5 : ℕ → Fl} (hg : AggOk g n P f4 f5)
    (hs : single = true → n = 0) : closeGens H single g (enc Q) = some (enc (Q + ∑ i ∈ range n, (f4 i • gPt H i + f5 i • hGPt H i))) := by
  cases single with
  | true => rw [hs rfl]; simp [closeGens]
  | false =>
    obtain ⟨e, h1, h2⟩ := genSums_enc H hg.z4 hg.z5
    rw [closeGens, if_neg (by simp), h1]
    dsimp only
    rw [h2, addKeys_enc]

theorem le_foldl_max (xs : List ℕ) : ∀ (a : ℕ), a ≤ xs.foldl max a ∧ ∀ x ∈ xs, x ≤ xs.foldl max a := by
  induction xs with
  | nil => intro a; simp
  | cons x xs ih =>
    intro a
    obtain ⟨h1, h2⟩ := ih (max a x)
    refine ⟨le_trans (le_max_left _ _) h1, fun y hy => ?_⟩
    rcases List.mem_cons.mp hy with rfl | hy
    · exact le_trans (le_max_right _ _) h1
    · exact h2 y hy

theorem foldl_max_lt (xs : List ℕ) (b : ℕ) (h : ∀ x ∈ xs, x < b) : ∀ (a : ℕ), a < b → xs.foldl max a < b := by
  induction xs with
  | nil => intro a ha; exact ha
  | cons x xs ih => intro a ha; exact ih (fun y hy => h y (by simp [hy])) _ (max_lt ha (h x (by simp)))

theorem verifyBatch_enc (H : Bytes → Bytes) (ps : List (Pf Fl Sub)) (so : Bool) (ws : List (ℤ × ℤ)) (hw : ps.length = ws.length) :
    verifyBatch H (ps.map bytes) so ws = some () ↔ (∀ p ∈ ps, PreOk p ∧ StepOk H p) ∧ total H ps ws = 0 := by
  classical
  unfold verifyBatch
  rw [prechecks_enc]
  by_cases hpre : ∀ p ∈ ps, PreOk p
  swap
  · rw [if_neg hpre]
    constructor
    · intro h; exact absurd h (by simp)
    · intro h; exact absurd (fun p hp => (h.1 p hp).1) hpre
  rw [if_pos hpre]
  simp only [Option.bind_eq_bind, Option.bind_some]
  have hLR : ∀ p ∈ ps, p.L.length = p.R.length := fun p hp => (hpre p hp).2.1
  set mx := (((ps.map bytes).map fun p => p.L.length).foldl max 0) with hmx
  set single := (decide ((ps.map bytes).length = 1) && so) with hsingle
  set g0 : Agg := ⟨0, 0, if single then [] else List.replicate (2 ^ mx) 0, if single then [] else List.replicate (2 ^ mx) 0, 0, 0, one⟩ with hg0
  by_cases hok : ∀ p ∈ ps, StepOk H p
  swap
  · constructor
    · intro h
      split at h
      · simp at h
      · obtain ⟨g, hg, _⟩ := Option.bind_eq_some_iff.mp h
        exact absurd (verifyLoop_ok H single ps ws g0 g hLR hg) hok
    · intro h; exact absurd (fun p hp => (h.1 p hp).2) hok
  have hmlt : mx < 32 := by
    refine foldl_max_lt _ _ (fun x hx => ?_) 0 (by norm_num)
    rw [List.map_map] at hx
    obtain ⟨p, hp, rfl⟩ := List.mem_map.mp hx
    have h1 := (hok p hp).1
    have h2 := logM_le p.V.length
    simp only [Function.comp_apply, bytes, List.length_map]
    omega
  rw [if_neg (by omega)]
  set n := if single then 0 else 2 ^ mx with hn
  have z0 : SV (if single then [] else List.replicate (2 ^ mx) 0) (List.range n) fun _ => 0 := by
    rw [hn]
    cases single
    · rw [if_neg (by simp), if_neg (by simp)]
      refine ⟨fun x hx => by rw [List.eq_of_mem_replicate hx], ?_⟩
      simp
    · rw [if_pos rfl, if_pos rfl]; exact ⟨by simp, by simp⟩
  have hg0ok : AggOk g0 n 0 (fun _ => 0) fun _ => 0 := ⟨one_enc, z0, z0⟩
  obtain ⟨g, P, f4, f5, e, ok, v⟩ := verifyLoop_enc H single ps ws hw hLR g0 n 0 _ _ hg0ok (by
    intro p hp hs
    rw [hn, if_neg (by simp [hs])]
    have h1 := (hok p hp).1
    have h2 : p.L.length ≤ mx := (le_foldl_max _ 0).2 _ (by
      rw [List.map_map]
      exact List.mem_map.mpr ⟨p, hp, by simp [bytes]⟩)
    calc 2 ^ logM p.V.length * 64 = 2 ^ (6 + logM p.V.length) := by rw [pow_add]; ring
      _ ≤ 2 ^ mx := Nat.pow_le_pow_right (by norm_num) (by omega)) hok
  rw [e, Option.bind_some, ok.acc]
  have hc2 : encodePoint (add (smul hPt (scSub g.z3 g.y1)) (scalarmultB (scSub g.y0 g.z1))) =
      enc (((g.z3 : Fl) - g.y1) • hS + ((g.y0 : Fl) - g.z1) • baseS) := by
    have := encode_rep (p := ((scSub g.z3 g.y1 : ℤ) : Fl) • hS + ((scSub g.y0 g.z1 : ℤ) : Fl) • baseS)
      (rep_add (rep_smulS (p := hS) rep_hBase (scSub_nn g.z3 g.y1)) (rep_BS (scSub g.y0 g.z1)))
    rwa [cast_scSub, cast_scSub] at this
  rw [hc2, addKeys_enc, Option.bind_some, closeGens_enc H single ok (by intro h; rw [hn, if_pos h]), Option.bind_some, one_enc]
  have hv : P + (((g.z3 : Fl) - g.y1) • hS + ((g.y0 : Fl) - g.z1) • baseS) + ∑ i ∈ range n, (f4 i • gPt H i + f5 i • hGPt H i) = total H ps ws := by
    rw [← add_assoc]
    have : aggVal H g n P f4 f5 = total H ps ws := by
      rw [v]; simp [aggVal, hg0]
    exact this
  rw [hv]
  constructor
  · intro h
    refine ⟨fun p hp => ⟨hpre p hp, hok p hp⟩, ?_⟩
    by_contra ht
    rw [if_pos fun h => ht (enc_injective h)] at h
    simp at h
  · intro h
    rw [h.2, if_neg (by simp)]

end Verif.Bp
