import Verif.Lemmas.BpBatch

/-! What the prover computes. -/

namespace Verif.Bp
open Verif Ed Key Sig Edwards Finset

theorem cast_l : ((l : ℤ) : Fl) = 0 := by
  have := cast_mod_l l
  rw [Int.emod_self] at this
  rw [← this, Int.cast_zero]

/-! ## Bits of the amounts -/

/-- The bits of the amounts, in the field. -/
def bt (sv : List ℤ) (i : ℕ) : Fl := (aLAt sv i : ℤ)

theorem aLAt_cases (sv : List ℤ) (i : ℕ) : (aLAt sv i = 0 ∧ aRAt sv i = l - 1) ∨ (aLAt sv i = 1 ∧ aRAt sv i = 0) := by
  unfold aLAt aRAt
  split
  · left; simp
  · split <;> simp_all

theorem aL_nn (sv : List ℤ) (i : ℕ) : 0 ≤ aLAt sv i := by rcases aLAt_cases sv i with h | h <;> rw [h.1]; norm_num
theorem aR_nn (sv : List ℤ) (i : ℕ) : 0 ≤ aRAt sv i := by
  have := l_pos
  rcases aLAt_cases sv i with h | h <;> rw [h.2]; omega

theorem bt_sq (sv : List ℤ) (i : ℕ) : bt sv i * bt sv i = bt sv i := by
  rcases aLAt_cases sv i with h | h <;> simp [bt, h.1]

theorem aR_cast (sv : List ℤ) (i : ℕ) : ((aRAt sv i : ℤ) : Fl) = bt sv i - 1 := by
  rcases aLAt_cases sv i with h | h
  · rw [bt, h.1, h.2, Int.cast_sub, cast_l]; simp
  · rw [bt, h.1, h.2]; simp

theorem bt_sum_in {sv : List ℤ} {j : ℕ} {v : ℤ} (hv : sv[j]? = some v) (h0 : 0 ≤ v) (h1 : v < 2 ^ 64) :
    ∑ i ∈ range 64, bt sv (j * 64 + i) * 2 ^ i = (v : Fl) := by
  have hb := bitSum_encodeInt v 64 (by norm_num)
  rw [Int.emod_eq_of_lt h0 h1] at hb
  rw [← hb, bitSum, sum_map_range]
  push_cast
  refine sum_congr rfl fun i hi => ?_
  have hi := mem_range.mp hi
  have e1 : (j * 64 + i) / 64 = j := by omega
  have e2 : (j * 64 + i) % 64 = i := by omega
  rw [bt, aLAt, e1, e2, hv]
  dsimp only
  have hle : bit (encodeInt v) i ≤ 1 := by unfold bit; omega
  by_cases hz : bit (encodeInt v) i = 0
  · rw [if_neg (not_not.mpr hz), hz]; simp
  · rw [if_pos hz, show bit (encodeInt v) i = 1 by omega]; simp

theorem bt_sum_out {sv : List ℤ} {j : ℕ} (hv : sv.length ≤ j) : ∑ i ∈ range 64, bt sv (j * 64 + i) * 2 ^ i = 0 := by
  refine sum_eq_zero fun i hi => ?_
  have hi := mem_range.mp hi
  have e1 : (j * 64 + i) / 64 = j := by omega
  rw [bt, aLAt, e1, List.getElem?_eq_none hv]
  simp

/-- `Σ z^{k+j} x_j`. -/
def poly (z : Fl) : ℕ → List ℤ → Fl
  | _, [] => 0
  | k, x :: xs => z ^ k * x + poly z (k + 1) xs

theorem poly_eq (z : Fl) (F : ℕ → Fl) : ∀ (xs : List ℤ) (k s m : ℕ), xs.length ≤ m → (∀ (j : ℕ) (v : ℤ), xs[j]? = some v → F (s + j) = v) →
    (∀ j, xs.length ≤ j → F (s + j) = 0) → ∑ j ∈ range m, z ^ (j + k) * F (s + j) = poly z k xs
  | [], k, s, m, _, _, h0 => by rw [poly]; exact sum_eq_zero fun j _ => by rw [h0 j (by simp), mul_zero]
  | x :: xs, k, s, 0, h, _, _ => by simp at h
  | x :: xs, k, s, m + 1, h, h1, h0 => by
    rw [sum_range_succ', poly]
    have e := poly_eq z F xs (k + 1) (s + 1) m (by simpa using h)
      (fun j v hj => by rw [show s + 1 + j = s + (j + 1) by omega]; exact h1 (j + 1) v (by simpa using hj))
      (fun j hj => by rw [show s + 1 + j = s + (j + 1) by omega]; exact h0 (j + 1) (by simpa using hj))
    rw [h1 0 x (by simp), ← e, add_comm, zero_add]
    congr 1
    exact sum_congr rfl fun j _ => by rw [show j + 1 + k = j + (k + 1) by omega, show s + 1 + j = s + (j + 1) by omega]

theorem amounts_poly (z : Fl) {sv : List ℤ} (h : ∀ v ∈ sv, 0 ≤ v ∧ v < 2 ^ 64) {m : ℕ} (hm : sv.length ≤ m) :
    ∑ j ∈ range m, z ^ (j + 2) * (∑ i ∈ range 64, bt sv (j * 64 + i) * 2 ^ i) = poly z 2 sv := by
  have := poly_eq z (fun j => ∑ i ∈ range 64, bt sv (j * 64 + i) * 2 ^ i) sv 2 0 m hm
    (fun j v hj => by
      have := h v (List.mem_of_getElem? hj)
      rw [zero_add]; exact bt_sum_in hj this.1 this.2)
    (fun j hj => by rw [zero_add]; exact bt_sum_out hj)
  simpa only [zero_add] using this

theorem geom64 : ∑ i ∈ range 64, (2 : Fl) ^ i = 2 ^ 64 - 1 := by
  have : ∀ n, ∑ i ∈ range n, (2 : Fl) ^ i = 2 ^ n - 1 := by
    intro n
    induction n with
    | zero => simp
    | succ n ih => rw [sum_range_succ, ih]; ring
  exact this 64

/-! ## Commitments -/

/-- The commitments of the proof: an eighth of `γ G + v H`. -/
noncomputable def vPts (sv gamma : List ℤ) : List Sub := List.zipWith (fun (v g : ℤ) => (inv8 : Fl) • ((g : Fl) • baseS + (v : Fl) • hS)) sv gamma

theorem vPts_cons (v g : ℤ) (sv gamma : List ℤ) :
    vPts (v :: sv) (g :: gamma) = (inv8 : Fl) • ((g : Fl) • baseS + (v : Fl) • hS) :: vPts sv gamma := by
  unfold vPts; rw [List.zipWith_cons_cons]

theorem commit8_enc (g v : ℤ) (h : 0 ≤ v) : commit8 g v = some (enc ((inv8 : Fl) • ((g : Fl) • baseS + (v : Fl) • hS))) := by
  rw [commit8, xmrH_enc, addKeys2_enc _ h, Option.bind_some, scalarmultKey_enc _ inv8_nn]

theorem compV_nil : compV [] [] = some [] := by rw [compV]

theorem compV_cons (v g : ℤ) (sv gamma : List ℤ) {V : Bytes} {Vs : List Bytes} (h : commit8 g v = some V) (hs : compV sv gamma = some Vs) :
    compV (v :: sv) (g :: gamma) = some (V :: Vs) := by
  rw [compV, h, hs]; rfl

theorem compV_enc (sv : List ℤ) : ∀ (gamma : List ℤ), sv.length = gamma.length → (∀ v ∈ sv, 0 ≤ v) → compV sv gamma = some ((vPts sv gamma).map enc) := by
  induction sv with
  | nil =>
    intro gamma h _
    obtain rfl : gamma = [] := by simpa using h.symm
    rw [compV_nil, vPts, List.zipWith_nil_left, List.map_nil]
  | cons v sv ih =>
    intro gamma h hn
    cases gamma with
    | nil => simp at h
    | cons g gamma =>
      rw [compV_cons v g sv gamma (commit8_enc g v (hn v (by simp))) (ih gamma (by simpa using h) fun x hx => hn x (by simp [hx])), vPts_cons,
        List.map_cons]

theorem vPts_sum (z : Fl) : ∀ (sv gamma : List ℤ) (k : ℕ), sv.length = gamma.length →
    (8 : Fl) • (((vPts sv gamma).zipIdx k).map fun v => z ^ (v.2 + 2) • v.1).sum = poly z (k + 2) gamma • baseS + poly z (k + 2) sv • hS
  | [], [], k, _ => by simp [vPts, poly]
  | [], _ :: _, _, h => by simp at h
  | _ :: _, [], _, h => by simp at h
  | v :: sv, g :: gamma, k, h => by
    have ih := vPts_sum z sv gamma (k + 1) (by simpa using h)
    have e : (8 : Fl) • z ^ (k + 2) • ((inv8 : Fl) • ((g : Fl) • baseS + (v : Fl) • hS)) = z ^ (k + 2) • ((g : Fl) • baseS + (v : Fl) • hS) := by
      rw [smul_comm, smul_smul _ (inv8 : Fl), cast_inv8, one_smul]
    simp only [vPts_cons, List.zipIdx_cons, List.map_cons, List.sum_cons, poly]
    rw [smul_add, ih, e, show k + 1 + 2 = k + 2 + 1 by omega]
    module

theorem tauxLoop_enc (z : ℤ) : ∀ (gs : List ℤ) (k : ℕ) (zpow taux : ℤ), (zpow : Fl) = (z : Fl) ^ k →
    ((tauxLoop z gs zpow taux : ℤ) : Fl) = taux + poly (z : Fl) k gs
  | [], k, zpow, taux, _ => by simp [tauxLoop, poly]
  | g :: gs, k, zpow, taux, h => by
    rw [tauxLoop, tauxLoop_enc z gs (k + 1) _ _ (by rw [cast_scMul, h, pow_succ]), cast_scMuladd, h, poly]
    ring

theorem tauxLoop_range (z : ℤ) : ∀ (gs : List ℤ) (zpow taux : ℤ), (0 ≤ taux ∧ taux < l) → 0 ≤ tauxLoop z gs zpow taux ∧ tauxLoop z gs zpow taux < l
  | [], _, _, h => h
  | _ :: gs, _, _, _ => tauxLoop_range z gs _ _ (emod_l_range _)

theorem vecCommit_enc {n : ℕ} {g h : ℕ → Sub} {f k : ℕ → Fl} {A B : List Bytes} {a b : List ℤ} (hA : PV A (List.range n) g)
    (hB : PV B (List.range n) h) (ha : SV a (List.range n) f) (hb : SV b (List.range n) k) (e : ℤ) :
    ∃ P : Sub, vecCommit A B a b e = some (enc P) ∧ (8 : Fl) • P = ∑ i ∈ range n, (f i • g i + k i • h i) + (e : Fl) • baseS := by
  refine ⟨(inv8 : Fl) • (∑ i ∈ range n, (f i • g i + k i • h i) + (e : Fl) • baseS), ?_, ?_⟩
  · rw [vecCommit, vecExp_enc hA hB ha hb]
    simp only [Option.bind_eq_bind, Option.bind_some, scalarmultBase_enc, addKeys_enc]
    rw [scalarmultKey_enc _ inv8_nn]
  · rw [smul_smul, cast_inv8, one_smul]

theorem crossLoop_enc (l0 r0 l1 r1 : ℕ → ℤ) : ∀ (L : List ℕ) (t1 t2 : ℤ),
    (((crossLoop l0 r0 l1 r1 L (t1, t2)).1 : ℤ) : Fl) = t1 + (L.map fun i => (l0 i : Fl) * r1 i + l1 i * r0 i).sum ∧
    (((crossLoop l0 r0 l1 r1 L (t1, t2)).2 : ℤ) : Fl) = t2 + (L.map fun i => (l1 i : Fl) * r1 i).sum
  | [], t1, t2 => by simp [crossLoop]
  | i :: L, t1, t2 => by
    obtain ⟨h1, h2⟩ := crossLoop_enc l0 r0 l1 r1 L (scMuladd (l1 i) (r0 i) (scMuladd (l0 i) (r1 i) t1)) (scMuladd (l1 i) (r1 i) t2)
    simp only [crossLoop]
    rw [h1, h2]
    simp only [cast_scMuladd, List.map_cons, List.sum_cons]
    exact ⟨by ring, by ring⟩

theorem crossLoop_nn (l0 r0 l1 r1 : ℕ → ℤ) : ∀ (L : List ℕ) (t : ℤ × ℤ), 0 ≤ t.1 ∧ 0 ≤ t.2 →
    0 ≤ (crossLoop l0 r0 l1 r1 L t).1 ∧ 0 ≤ (crossLoop l0 r0 l1 r1 L t).2
  | [], _, h => h
  | _ :: L, (_, _), _ => crossLoop_nn l0 r0 l1 r1 L _ ⟨scMuladd_nn _ _ _, scMuladd_nn _ _ _⟩

theorem hPrime_enc (H : Bytes → Bytes) {yi : ℤ} (hy : 0 ≤ yi) : ∀ (n k : ℕ),
    hPrime yi k ((List.range' k n).map (hGen H)) = some ((List.range' k n).map fun i => enc ((yi : Fl) ^ i • hGPt H i))
  | 0, _ => rfl
  | n + 1, k => by
    simp only [List.range'_succ, List.map_cons, hPrime]
    rw [hPrime_enc H hy n (k + 1), hGen_enc, scalarmultKey_enc _ (pw_nn hy k), cast_pw]

theorem logM_ge {n : ℕ} (h : n ≤ 32) : n ≤ 2 ^ logM n := by
  interval_cases n <;> decide

theorem pow_split (lg : ℕ) : 2 ^ lg * 64 = 2 ^ (lg + 6) := by rw [pow_add]; norm_num

/-! ## The equations, abstractly -/

section
variable {F M : Type*} [Field F] [AddCommGroup M] [Module F M]

/-- The vectors of the prover at the challenges. -/
def lAt (bit sL : ℕ → F) (z x : F) (i : ℕ) : F := bit i - z + x * sL i
def rAt (bit sR : ℕ → F) (y z x : F) (i : ℕ) : F := (bit i - 1 + z) * y ^ i + z ^ (2 + i / 64) * 2 ^ (i % 64) + x * (sR i * y ^ i)

theorem t_split (n : ℕ) (bit sL sR : ℕ → F) (y z x : F) :
    ∑ i ∈ range n, lAt bit sL z x i * rAt bit sR y z x i =
      ∑ i ∈ range n, (bit i - z) * ((bit i - 1 + z) * y ^ i + z ^ (2 + i / 64) * 2 ^ (i % 64)) +
      x * ∑ i ∈ range n, ((bit i - z) * (sR i * y ^ i) + sL i * ((bit i - 1 + z) * y ^ i + z ^ (2 + i / 64) * 2 ^ (i % 64))) +
      x ^ 2 * ∑ i ∈ range n, sL i * (sR i * y ^ i) := by
  rw [mul_sum, mul_sum, ← sum_add_distrib, ← sum_add_distrib]
  exact sum_congr rfl fun i _ => by unfold lAt rAt; ring

theorem eq2_algebra (N : ℕ) (bit sL sR cf : ℕ → F) (y z x xip a b al rho t : F) (hy : y ≠ 0) (g h : ℕ → M) (G U A S lr : M)
    (hA : (8 : F) • A = ∑ i ∈ range N, (bit i • g i + (bit i - 1) • h i) + al • G)
    (hS : (8 : F) • S = ∑ i ∈ range N, (sL i • g i + sR i • h i) + rho • G)
    (hl : ∑ i ∈ range N, ((a * cf i) • g i + (b * (cf i)⁻¹) • ((y⁻¹) ^ i • h i)) + (a * b * xip) • U =
      ipa N (lAt bit sL z x) (rAt bit sR y z x) g (fun i => (y⁻¹) ^ i • h i) xip U + lr)
    (ht : t = ∑ i ∈ range N, lAt bit sL z x i * rAt bit sR y z x i) :
    (8 : F) • (A + x • S) + lr - (al + x * rho) • G + ((t - a * b) * xip) • U -
      ∑ i ∈ range N, ((a * cf i + z) • g i + (b * (y⁻¹) ^ i * (cf i)⁻¹ - (z * y ^ i + z ^ (2 + i / 64) * 2 ^ (i % 64)) * (y⁻¹) ^ i) • h i) = 0 := by
  have e : ∑ i ∈ range N, ((a * cf i + z) • g i + (b * (y⁻¹) ^ i * (cf i)⁻¹ - (z * y ^ i + z ^ (2 + i / 64) * 2 ^ (i % 64)) * (y⁻¹) ^ i) • h i) =
      ∑ i ∈ range N, (bit i • g i + (bit i - 1) • h i) + x • ∑ i ∈ range N, (sL i • g i + sR i • h i) +
      (∑ i ∈ range N, ((a * cf i) • g i + (b * (cf i)⁻¹) • ((y⁻¹) ^ i • h i)) -
       ∑ i ∈ range N, (lAt bit sL z x i • g i + rAt bit sR y z x i • ((y⁻¹) ^ i • h i))) := by
    rw [smul_sum, ← sum_sub_distrib, ← sum_add_distrib, ← sum_add_distrib]
    refine sum_congr rfl fun i _ => ?_
    have hyi : y ^ i * (y⁻¹) ^ i = 1 := by rw [← mul_pow, mul_inv_cancel₀ hy, one_pow]
    have hr : rAt bit sR y z x i * (y⁻¹) ^ i = bit i - 1 + z + z ^ (2 + i / 64) * 2 ^ (i % 64) * (y⁻¹) ^ i + x * sR i := by
      unfold rAt; linear_combination (bit i - 1 + z + x * sR i) * hyi
    have hz : (z * y ^ i + z ^ (2 + i / 64) * 2 ^ (i % 64)) * (y⁻¹) ^ i = z + z ^ (2 + i / 64) * 2 ^ (i % 64) * (y⁻¹) ^ i := by
      linear_combination z * hyi
    rw [smul_smul, smul_smul, hr, hz]
    unfold lAt
    module
  have hlr : lr = ∑ i ∈ range N, ((a * cf i) • g i + (b * (cf i)⁻¹) • ((y⁻¹) ^ i • h i)) + (a * b * xip) • U -
      (∑ i ∈ range N, (lAt bit sL z x i • g i + rAt bit sR y z x i • ((y⁻¹) ^ i • h i)) + (t * xip) • U) := by
    rw [hl, ipa, ht]; abel
  rw [e, hlr, smul_add, smul_comm (8 : F) x S, hA, hS]
  module

theorem eq1_algebra (G U T1 T2 W : M) (x vg vv t1 t2 tau1 tau2 t d : F) (hW : (8 : F) • W = vg • G + vv • U)
    (h1 : (8 : F) • T1 = tau1 • G + t1 • U) (h2 : (8 : F) • T2 = tau2 • G + t2 • U) (ht : t = vv + d + x * t1 + x ^ 2 * t2) :
    (8 : F) • (W + x • T1 + x ^ 2 • T2) - (t - d) • U - (tau1 * x + tau2 * x ^ 2 + vg) • G = 0 := by
  rw [smul_add, smul_add, smul_comm (8 : F) x, smul_comm (8 : F) (x ^ 2), hW, h1, h2, ht]
  module
end

/-! ## The prover -/

theorem sumcast (n : ℕ) (f : ℕ → Fl) (z : ℤ) (hz : z = 0) : (z : Fl) + ((List.range n).map f).sum = ∑ i ∈ range n, f i := by
  rw [hz, sum_map_range, Int.cast_zero, zero_add]

theorem r0At_cast (sv : List ℤ) (y z : ℤ) (i : ℕ) :
    ((r0At (aRAt sv i) y z i : ℤ) : Fl) = (bt sv i - 1 + z) * (y : Fl) ^ i + (z : Fl) ^ (2 + i / 64) * 2 ^ (i % 64) := by
  rw [r0At, cast_scMuladd, cast_scMul, cast_scAdd, aR_cast, cast_ztAt, cast_p2At, cast_ypAt]

theorem gPV (H : Bytes → Bytes) (n : ℕ) : PV ((List.range n).map (gGen H)) (List.range n) (gPt H) :=
  List.map_congr_left fun i _ => gGen_enc H i
theorem hPV (H : Bytes → Bytes) (n : ℕ) : PV ((List.range n).map (hGen H)) (List.range n) (hGPt H) :=
  List.map_congr_left fun i _ => hGen_enc H i

theorem hPrimePV (H : Bytes → Bytes) (y : ℤ) (n : ℕ) : ∃ H', hPrime (scInv y) 0 ((List.range n).map (hGen H)) = some H' ∧
    PV H' (List.range n) fun i => ((y : Fl)⁻¹) ^ i • hGPt H i := by
  have := hPrime_enc H (scInv_nn y) n 0
  rw [← List.range_eq_range', cast_scInv] at this
  exact ⟨_, this, rfl⟩

theorem proveBatch_ok (H : Bytes → Bytes) (rnd : Rand) (hL : ∀ i, 0 ≤ rnd.sL i) (hR : ∀ i, 0 ≤ rnd.sR i) (sv gamma : List ℤ)
    (hlen : sv.length = gamma.length) (h32 : sv.length ≤ 32) (hv : ∀ v ∈ sv, 0 ≤ v ∧ v < 2 ^ 64) {π : Proof}
    (h : proveBatch H rnd sv gamma = some π) : ∃ p : Pf Fl Sub, π = bytes p ∧ p.V = vPts sv gamma ∧ PreOk p ∧ p.L.length = 6 + logM sv.length ∧
      p.taux = (rnd.tau1 : Fl) * (chs H π).x + (rnd.tau2 : Fl) * (chs H π).x ^ 2 + poly (chs H π).z 2 gamma ∧
      p.mu = rnd.alpha + (chs H π).x * rnd.rho ∧
      (Nonzero H π → eq1 (gens H) (2 ^ logM sv.length) (chs H π) p = 0 ∧ eq2 (gens H) (2 ^ logM sv.length) (chs H π) p = 0) := by
  have hne : sv.length ≠ 0 := fun h0 => by rw [proveBatch, if_pos (Or.inr h0)] at h; simp at h
  rw [proveBatch, if_neg (by rintro (h | h); exacts [h hlen, hne h])] at h
  obtain ⟨A, hA, hA8⟩ := vecCommit_enc (gPV H (2 ^ logM sv.length * 64)) (hPV H (2 ^ logM sv.length * 64))
    (SV.of_map (L := List.range (2 ^ logM sv.length * 64)) (f := bt sv) (aLAt sv) (aL_nn sv) fun _ => rfl)
    (SV.of_map (L := List.range (2 ^ logM sv.length * 64)) (f := fun i => bt sv i - 1) (aRAt sv) (aR_nn sv) (aR_cast sv)) rnd.alpha
  obtain ⟨S, hS, hS8⟩ := vecCommit_enc (gPV H (2 ^ logM sv.length * 64)) (hPV H (2 ^ logM sv.length * 64))
    (SV.of_map (L := List.range (2 ^ logM sv.length * 64)) (f := fun i => ((rnd.sL i : ℤ) : Fl)) rnd.sL hL fun _ => rfl)
    (SV.of_map (L := List.range (2 ^ logM sv.length * 64)) (f := fun i => ((rnd.sR i : ℤ) : Fl)) rnd.sR hR fun _ => rfl) rnd.rho
  dsimp only at h
  rw [compV_enc sv gamma hlen fun v hm => (hv v hm).1, hA, hS] at h
  simp only [Option.bind_eq_bind, Option.bind_some] at h
  generalize hy : mash H (hashVct H (List.map enc (vPts sv gamma))) [enc A, enc S] = y at h
  by_cases hy0 : y = 0
  · rw [if_pos hy0] at h; simp at h
  rw [if_neg hy0] at h
  generalize hz : Key.hs H (encodeInt y) = z at h
  by_cases hz0 : z = 0
  · rw [if_pos hz0] at h; simp at h
  rw [if_neg hz0] at h
  have hcr := crossLoop_enc (fun i => scSub (aLAt sv i) z) (fun i => r0At (aRAt sv i) y z i) rnd.sL (fun i => scMul (rnd.sR i) (pw y i))
    (List.range (2 ^ logM sv.length * 64)) 0 0
  have hcn := crossLoop_nn (fun i => scSub (aLAt sv i) z) (fun i => r0At (aRAt sv i) y z i) rnd.sL (fun i => scMul (rnd.sR i) (pw y i))
    (List.range (2 ^ logM sv.length * 64)) (0, 0) ⟨le_rfl, le_rfl⟩
  generalize crossLoop (fun i => scSub (aLAt sv i) z) (fun i => r0At (aRAt sv i) y z i) rnd.sL (fun i => scMul (rnd.sR i) (pw y i))
    (List.range (2 ^ logM sv.length * 64)) (0, 0) = tt at h hcr hcn
  rw [commit8_enc _ _ hcn.1, commit8_enc _ _ hcn.2] at h
  simp only [Option.bind_some] at h
  have hT1 : (8 : Fl) • ((inv8 : Fl) • ((rnd.tau1 : Fl) • baseS + (tt.1 : Fl) • Bp.hS)) = (rnd.tau1 : Fl) • baseS + (tt.1 : Fl) • Bp.hS := by
    rw [smul_smul, cast_inv8, one_smul]
  have hT2 : (8 : Fl) • ((inv8 : Fl) • ((rnd.tau2 : Fl) • baseS + (tt.2 : Fl) • Bp.hS)) = (rnd.tau2 : Fl) • baseS + (tt.2 : Fl) • Bp.hS := by
    rw [smul_smul, cast_inv8, one_smul]
  generalize (inv8 : Fl) • ((rnd.tau1 : Fl) • baseS + (tt.1 : Fl) • Bp.hS) = T1 at h hT1
  generalize (inv8 : Fl) • ((rnd.tau2 : Fl) • baseS + (tt.2 : Fl) • Bp.hS) = T2 at h hT2
  generalize hx : mash H z [encodeInt z, enc T1, enc T2] = x at h
  by_cases hx0 : x = 0
  · rw [if_pos hx0] at h; simp at h
  rw [if_neg hx0] at h
  have hl : SV ((List.range (2 ^ logM sv.length * 64)).map fun i => scMuladd x (rnd.sL i) (scSub (aLAt sv i) z)) (List.range (2 ^ logM sv.length * 64))
      (lAt (bt sv) (fun i => ((rnd.sL i : ℤ) : Fl)) z x) :=
    SV.of_map _ (fun _ => scMuladd_nn _ _ _) fun i => by rw [cast_scMuladd, cast_scSub]; rfl
  have hr : SV ((List.range (2 ^ logM sv.length * 64)).map fun i => scMuladd x (scMul (rnd.sR i) (pw y i)) (r0At (aRAt sv i) y z i))
      (List.range (2 ^ logM sv.length * 64)) (rAt (bt sv) (fun i => ((rnd.sR i : ℤ) : Fl)) y z x) :=
    SV.of_map _ (fun _ => scMuladd_nn _ _ _) fun i => by rw [cast_scMuladd, r0At_cast, cast_scMul, cast_pw]; rfl
  have hll : ∀ v ∈ ((List.range (2 ^ logM sv.length * 64)).map fun i => scMuladd x (rnd.sL i) (scSub (aLAt sv i) z)), v < l := by
    intro v hm
    obtain ⟨i, _, rfl⟩ := List.mem_map.mp hm
    exact (emod_l_range _).2
  have hrl : ∀ v ∈ ((List.range (2 ^ logM sv.length * 64)).map fun i => scMuladd x (scMul (rnd.sR i) (pw y i)) (r0At (aRAt sv i) y z i)), v < l := by
    intro v hm
    obtain ⟨i, _, rfl⟩ := List.mem_map.mp hm
    exact (emod_l_range _).2
  generalize ((List.range (2 ^ logM sv.length * 64)).map fun i => scMuladd x (rnd.sL i) (scSub (aLAt sv i) z)) = lv at h hl hll
  generalize ((List.range (2 ^ logM sv.length * 64)).map fun i => scMuladd x (scMul (rnd.sR i) (pw y i)) (r0At (aRAt sv i) y z i)) = rv at h hr hrl
  have ht := foldl_enc _ _ _ lv rv 0 hl hr
  rw [sumcast _ _ _ rfl] at ht
  have htr := foldl_range (lv.zip rv) 0 ⟨le_rfl, l_pos⟩
  generalize List.foldl (fun acc p => scMuladd p.1 p.2 acc) 0 (lv.zip rv) = t at h ht htr
  have htx := tauxLoop_enc z gamma 2 (scMul z z) (scMuladd rnd.tau2 (scMul x x) (scMul rnd.tau1 x)) (by rw [cast_scMul, pow_two])
  have htxr := tauxLoop_range z gamma (scMul z z) (scMuladd rnd.tau2 (scMul x x) (scMul rnd.tau1 x)) (emod_l_range _)
  generalize tauxLoop z gamma (scMul z z) (scMuladd rnd.tau2 (scMul x x) (scMul rnd.tau1 x)) = taux at h htx htxr
  rw [cast_scMuladd, cast_scMul, cast_scMul] at htx
  have hmu : ((scMuladd x rnd.rho rnd.alpha : ℤ) : Fl) = rnd.alpha + x * rnd.rho := by rw [cast_scMuladd]
  have hmur : 0 ≤ scMuladd x rnd.rho rnd.alpha ∧ scMuladd x rnd.rho rnd.alpha < l := emod_l_range _
  generalize scMuladd x rnd.rho rnd.alpha = mu at h hmu hmur
  generalize hxip : mash H x [encodeInt x, encodeInt taux, encodeInt mu, encodeInt t] = xip at h
  obtain ⟨H', hH', hHP⟩ := hPrimePV H y (2 ^ logM sv.length * 64)
  rw [hH', Option.bind_some] at h
  rw [Option.bind_eq_some_iff] at h
  obtain ⟨⟨Ls, Rs, a0, b0⟩, hloop, hπ⟩ := h
  have hGP := gPV H (2 ^ logM sv.length * 64)
  have hm : 0 < 2 ^ logM sv.length := Nat.two_pow_pos _
  rw [pow_split] at *
  obtain ⟨Lp, Rp, rfl, rfl, hLl, hRl, ha, hb, hws⟩ := proveLoop_enc H xip (logM sv.length + 6) _ xip _ H' lv rv _ _ _ _ hGP hHP hl hr hll hrl _ _ _ _ hloop
  have hπ' : π = bytes ⟨vPts sv gamma, A, S, T1, T2, taux, mu, Lp, Rp, a0, b0, t⟩ := by
    rw [← Option.some.inj hπ, bytes]
    dsimp only
    rw [num_cast htxr, num_cast hmur, num_cast ha, num_cast hb, num_cast htr]
  clear hπ hloop
  have cy : chY H π = y := by rw [← chY_mash, hπ']; exact hy
  have cz : chZ H π = z := by rw [chZ, cy]; exact hz
  have cx : chX H π = x := by rw [← chX_mash, cz, hπ']; exact hx
  have cxip : chXip H π = xip := by
    rw [← chXip_mash, cx, hπ', ← hxip, bytes]
    dsimp only
    rw [num_cast htxr, num_cast hmur, num_cast htr]
  have ccx : (chs H π).x = x := by rw [chs, cx]
  have ccz : (chs H π).z = z := by rw [chs, cz]
  have htaux : (taux : Fl) = (rnd.tau1 : Fl) * x + (rnd.tau2 : Fl) * (x : Fl) ^ 2 + poly (z : Fl) 2 gamma := by rw [htx]; ring
  refine ⟨⟨vPts sv gamma, A, S, T1, T2, taux, mu, Lp, Rp, a0, b0, t⟩, hπ', rfl, ⟨?_, ?_, ?_⟩, ?_, ?_, ?_, ?_⟩
  · intro h0
    have := congrArg List.length h0
    rw [vPts, List.length_zipWith, ← hlen, min_self] at this
    exact hne this
  · exact hLl.trans hRl.symm
  · intro h0
    have : Lp.length = 0 := by rw [show Lp = [] from h0]; rfl
    omega
  · show Lp.length = _
    omega
  · rw [ccx, ccz]; exact htaux
  · rw [ccx]; exact hmu
  · intro hnz
    have hyF : (y : Fl) ≠ 0 := by
      have : 0 ≤ y ∧ y < l := by rw [← hy, mash]; exact hs_range H _
      exact (cast_ne_zero this).mpr hy0
    constructor
    · rw [eq1, ccx, ccz, show (chs H π).y = y by rw [chs, cy]]
      dsimp only [gens]
      rw [htaux]
      refine eq1_algebra _ _ _ _ _ _ _ (poly (z : Fl) 2 sv) _ _ _ _ _ _ (vPts_sum (z : Fl) sv gamma 0 hlen) hT1 hT2 ?_
      rw [ht, t_split, ← pow_split, t0_value 64 _ (bt sv) (bt_sq sv), amounts_poly (z : Fl) hv (logM_ge h32), delta, geom64]
      rw [hcr.1, hcr.2, sum_map_range, sum_map_range]
      simp only [cast_scMul, cast_scSub, r0At_cast, cast_pw, Int.cast_zero, zero_add, ← pow_split]
      rfl
    · obtain ⟨_, _, _, _, hw⟩ := hnz
      have hrc := roundChallenges_eq H xip (Lp.map enc) (Rp.map enc) (by rw [List.length_map, List.length_map]; omega)
      have hLR : π.L.zip π.R = (Lp.map enc).zip (Rp.map enc) := by rw [hπ', bytes]
      rw [cxip, hLR] at hw
      rw [if_pos hw] at hrc
      obtain ⟨_, _, hfin⟩ := hws _ hrc
      have e := eq2_algebra (2 ^ (logM sv.length + 6)) (bt sv) (fun i => ((rnd.sL i : ℤ) : Fl)) (fun i => ((rnd.sR i : ℤ) : Fl))
        (coef (chs H π).ws) y z x xip a0 b0 rnd.alpha rnd.rho t hyF (gPt H) (hGPt H) baseS Bp.hS A S (lrSum (chs H π).ws Lp Rp) hA8 hS8
        (by rw [chs, cxip, hLR]; exact hfin) ht
      rw [eq2, ccx, ccz, show (chs H π).y = y by rw [chs, cy], show (chs H π).xip = xip by rw [chs, cxip], pow_split]
      dsimp only [gens]
      rw [hmu]
      exact e

theorem chWs_ne (H : Bytes → Bytes) (h0 : ∀ d, Key.hs H d ≠ 0) : ∀ (c : ℤ) (ps : List (Bytes × Bytes)), ∀ w ∈ chWs H c ps, w ≠ 0
  | _, [], _, h => by simp [chWs] at h
  | c, (L, R) :: ps, w, h => by
    rw [chWs] at h
    rcases List.mem_cons.mp h with rfl | h
    · exact h0 _
    · exact chWs_ne H h0 _ ps w h

theorem nonzero_of (H : Bytes → Bytes) (h0 : ∀ d, Key.hs H d ≠ 0) (π : Proof) : Nonzero H π :=
  ⟨h0 _, h0 _, h0 _, h0 _, chWs_ne H h0 _ _⟩

theorem proveBatch_some (H : Bytes → Bytes) (h0 : ∀ d, Key.hs H d ≠ 0) (rnd : Rand) (hL : ∀ i, 0 ≤ rnd.sL i) (hR : ∀ i, 0 ≤ rnd.sR i)
    (sv gamma : List ℤ) (hlen : sv.length = gamma.length) (hne : sv ≠ []) (hv : ∀ v ∈ sv, 0 ≤ v) : ∃ π, proveBatch H rnd sv gamma = some π := by
  have hm0 : ∀ (c : ℤ) (ds : List Bytes), mash H c ds ≠ 0 := fun c ds => h0 _
  rw [proveBatch, if_neg (by rintro (h | h); exacts [h hlen, hne (List.eq_nil_of_length_eq_zero h)])]
  obtain ⟨A, hA, -⟩ := vecCommit_enc (gPV H (2 ^ logM sv.length * 64)) (hPV H (2 ^ logM sv.length * 64))
    (SV.of_map (L := List.range (2 ^ logM sv.length * 64)) (f := bt sv) (aLAt sv) (aL_nn sv) fun _ => rfl)
    (SV.of_map (L := List.range (2 ^ logM sv.length * 64)) (f := fun i => bt sv i - 1) (aRAt sv) (aR_nn sv) (aR_cast sv)) rnd.alpha
  obtain ⟨S, hS, -⟩ := vecCommit_enc (gPV H (2 ^ logM sv.length * 64)) (hPV H (2 ^ logM sv.length * 64))
    (SV.of_map (L := List.range (2 ^ logM sv.length * 64)) (f := fun i => ((rnd.sL i : ℤ) : Fl)) rnd.sL hL fun _ => rfl)
    (SV.of_map (L := List.range (2 ^ logM sv.length * 64)) (f := fun i => ((rnd.sR i : ℤ) : Fl)) rnd.sR hR fun _ => rfl) rnd.rho
  dsimp only
  rw [compV_enc sv gamma hlen hv, hA, hS]
  simp only [Option.bind_eq_bind, Option.bind_some]
  rw [if_neg (hm0 _ _), if_neg (h0 _)]
  generalize mash H (hashVct H (List.map enc (vPts sv gamma))) [enc A, enc S] = y
  generalize Key.hs H (encodeInt y) = z
  have hcn := crossLoop_nn (fun i => scSub (aLAt sv i) z) (fun i => r0At (aRAt sv i) y z i) rnd.sL (fun i => scMul (rnd.sR i) (pw y i))
    (List.range (2 ^ logM sv.length * 64)) (0, 0) ⟨le_rfl, le_rfl⟩
  rw [commit8_enc _ _ hcn.1, commit8_enc _ _ hcn.2]
  simp only [Option.bind_some]
  rw [if_neg (hm0 _ _)]
  generalize mash H z _ = x
  generalize mash H x _ = xip
  obtain ⟨H', hH', hHP⟩ := hPrimePV H y (2 ^ logM sv.length * 64)
  rw [hH', Option.bind_some]
  have hl : SV ((List.range (2 ^ logM sv.length * 64)).map fun i => scMuladd x (rnd.sL i) (scSub (aLAt sv i) z)) (List.range (2 ^ logM sv.length * 64))
      (lAt (bt sv) (fun i => ((rnd.sL i : ℤ) : Fl)) z x) :=
    SV.of_map _ (fun _ => scMuladd_nn _ _ _) fun i => by rw [cast_scMuladd, cast_scSub]; rfl
  have hr : SV ((List.range (2 ^ logM sv.length * 64)).map fun i => scMuladd x (scMul (rnd.sR i) (pw y i)) (r0At (aRAt sv i) y z i))
      (List.range (2 ^ logM sv.length * 64)) (rAt (bt sv) (fun i => ((rnd.sR i : ℤ) : Fl)) y z x) :=
    SV.of_map _ (fun _ => scMuladd_nn _ _ _) fun i => by rw [cast_scMuladd, r0At_cast, cast_scMul, cast_pw]; rfl
  have hGP := gPV H (2 ^ logM sv.length * 64)
  rw [pow_split] at *
  obtain ⟨r, ws, hr, _⟩ := proveLoop_some H h0 xip (logM sv.length + 6) (logM sv.length + 7) xip _ H' _ _ _ _ _ _ (by omega) hGP hHP hl hr
  rw [hr]
  exact ⟨_, rfl⟩

end Verif.Bp
