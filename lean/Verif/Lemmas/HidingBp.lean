import Verif.Lemmas.BpProve
import Verif.Props.BpSound
import Verif.Spec.HidingBp

/-! A Bulletproof is made from equally many tapes for all amounts. -/

namespace Verif.Bp
open Verif Ed Key Sig Edwards Finset

/-! ## The prover in two parts -/

def lvAt (rnd : Rand) (sv : List ℤ) (z x : ℤ) (i : ℕ) : ℤ := scMuladd x (rnd.sL i) (scSub (aLAt sv i) z)
def rvAt (rnd : Rand) (sv : List ℤ) (y z x : ℤ) (i : ℕ) : ℤ := scMuladd x (scMul (rnd.sR i) (pw y i)) (r0At (aRAt sv i) y z i)
def cross (rnd : Rand) (sv : List ℤ) (y z : ℤ) (N : ℕ) : ℤ × ℤ :=
  crossLoop (fun i => scSub (aLAt sv i) z) (fun i => r0At (aRAt sv i) y z i) rnd.sL (fun i => scMul (rnd.sR i) (pw y i)) (List.range N) (0, 0)
def tauxOf (rnd : Rand) (gamma : List ℤ) (z x : ℤ) : ℤ := tauxLoop z gamma (scMul z z) (scMuladd rnd.tau2 (scMul x x) (scMul rnd.tau1 x))

/-- What follows once the vectors are known. -/
def tail (H : Bytes → Bytes) (lgM : ℕ) (V : List Bytes) (A S T1 T2 : Bytes) (y x : ℤ) (lv rv : List ℤ) (taux mu : ℤ) : Option Proof :=
  let MN := 2 ^ lgM * 64
  let t := (lv.zip rv).foldl (fun acc p => scMuladd p.1 p.2 acc) 0
  let xip := mash H x [encodeInt x, encodeInt taux, encodeInt mu, encodeInt t]
  (hPrime (scInv y) 0 ((List.range MN).map (hGen H))).bind fun H' =>
    (proveLoop H xip (lgM + 7) (MN / 2) xip ((List.range MN).map (gGen H)) H' lv rv).bind fun r =>
      some ⟨V, A, S, T1, T2, encodeInt taux, encodeInt mu, r.1, r.2.1, encodeInt r.2.2.1, encodeInt r.2.2.2, encodeInt t⟩

theorem tail_some {H : Bytes → Bytes} {lgM : ℕ} {V : List Bytes} {A S T1 T2 : Bytes} {y x : ℤ} {lv rv : List ℤ} {taux mu : ℤ} {π : Proof}
    (h : tail H lgM V A S T1 T2 y x lv rv taux mu = some π) : π.V = V ∧ π.A = A ∧ π.S = S ∧ π.T1 = T1 ∧ π.T2 = T2 := by
  unfold tail at h
  dsimp only at h
  rw [Option.bind_eq_some_iff] at h
  obtain ⟨H', -, h⟩ := h
  rw [Option.bind_eq_some_iff] at h
  obtain ⟨r, -, h⟩ := h
  rw [← Option.some.inj h]
  exact ⟨rfl, rfl, rfl, rfl, rfl⟩

theorem proveBatch_tail {H : Bytes → Bytes} {rnd : Rand} {sv gamma : List ℤ} (hlen : sv.length = gamma.length) (hne : sv.length ≠ 0)
    {V : List Bytes} {A S T1 T2 : Bytes} {y z x : ℤ} (hV : compV sv gamma = some V)
    (hA : vecCommit ((List.range (2 ^ logM sv.length * 64)).map (gGen H)) ((List.range (2 ^ logM sv.length * 64)).map (hGen H))
      ((List.range (2 ^ logM sv.length * 64)).map (aLAt sv)) ((List.range (2 ^ logM sv.length * 64)).map (aRAt sv)) rnd.alpha = some A)
    (hS : vecCommit ((List.range (2 ^ logM sv.length * 64)).map (gGen H)) ((List.range (2 ^ logM sv.length * 64)).map (hGen H))
      ((List.range (2 ^ logM sv.length * 64)).map rnd.sL) ((List.range (2 ^ logM sv.length * 64)).map rnd.sR) rnd.rho = some S)
    (hy : mash H (hashVct H V) [A, S] = y) (hy0 : y ≠ 0) (hz : Key.hs H (encodeInt y) = z) (hz0 : z ≠ 0)
    (hT1 : commit8 rnd.tau1 (cross rnd sv y z (2 ^ logM sv.length * 64)).1 = some T1)
    (hT2 : commit8 rnd.tau2 (cross rnd sv y z (2 ^ logM sv.length * 64)).2 = some T2)
    (hx : mash H z [encodeInt z, T1, T2] = x) (hx0 : x ≠ 0) :
    proveBatch H rnd sv gamma = tail H (logM sv.length) V A S T1 T2 y x ((List.range (2 ^ logM sv.length * 64)).map (lvAt rnd sv z x))
      ((List.range (2 ^ logM sv.length * 64)).map (rvAt rnd sv y z x)) (tauxOf rnd gamma z x) (scMuladd x rnd.rho rnd.alpha) := by
  rw [proveBatch, if_neg (by rintro (h | h); exacts [h hlen, hne h])]
  dsimp only
  rw [hV, hA, hS]
  simp only [Option.bind_eq_bind, Option.bind_some]
  rw [hy, if_neg hy0, hz, if_neg hz0]
  unfold cross at hT1 hT2
  rw [hT1, hT2]
  simp only [Option.bind_some]
  rw [hx, if_neg hx0]
  rfl

/-- A successful run, taken apart. -/
theorem proveBatch_inv {H : Bytes → Bytes} {rnd : Rand} (hL : ∀ i, 0 ≤ rnd.sL i) (hR : ∀ i, 0 ≤ rnd.sR i) {sv gamma : List ℤ}
    (hlen : sv.length = gamma.length) (hv : ∀ v ∈ sv, 0 ≤ v) {π : Proof} (h : proveBatch H rnd sv gamma = some π) :
    sv.length ≠ 0 ∧ chY H π ≠ 0 ∧ chZ H π ≠ 0 ∧ chX H π ≠ 0 ∧ π.V = (vPts sv gamma).map enc ∧
    (∃ A : Sub, π.A = enc A ∧
      (8 : Fl) • A = ∑ i ∈ range (2 ^ logM sv.length * 64), (bt sv i • gPt H i + (bt sv i - 1) • hGPt H i) + (rnd.alpha : Fl) • baseS) ∧
    (∃ S : Sub, π.S = enc S ∧
      (8 : Fl) • S = ∑ i ∈ range (2 ^ logM sv.length * 64), ((rnd.sL i : Fl) • gPt H i + (rnd.sR i : Fl) • hGPt H i) + (rnd.rho : Fl) • baseS) ∧
    π.T1 = enc ((inv8 : Fl) • ((rnd.tau1 : Fl) • baseS + ((cross rnd sv (chY H π) (chZ H π) (2 ^ logM sv.length * 64)).1 : Fl) • Bp.hS)) ∧
    π.T2 = enc ((inv8 : Fl) • ((rnd.tau2 : Fl) • baseS + ((cross rnd sv (chY H π) (chZ H π) (2 ^ logM sv.length * 64)).2 : Fl) • Bp.hS)) ∧
    tail H (logM sv.length) π.V π.A π.S π.T1 π.T2 (chY H π) (chX H π)
      ((List.range (2 ^ logM sv.length * 64)).map (lvAt rnd sv (chZ H π) (chX H π)))
      ((List.range (2 ^ logM sv.length * 64)).map (rvAt rnd sv (chY H π) (chZ H π) (chX H π)))
      (tauxOf rnd gamma (chZ H π) (chX H π)) (scMuladd (chX H π) rnd.rho rnd.alpha) = some π := by
  have hne : sv.length ≠ 0 := fun h0 => by rw [proveBatch, if_pos (Or.inr h0)] at h; simp at h
  obtain ⟨A, hA, hA8⟩ := vecCommit_enc (gPV H (2 ^ logM sv.length * 64)) (hPV H (2 ^ logM sv.length * 64))
    (SV.of_map (L := List.range (2 ^ logM sv.length * 64)) (f := bt sv) (aLAt sv) (aL_nn sv) fun _ => rfl)
    (SV.of_map (L := List.range (2 ^ logM sv.length * 64)) (f := fun i => bt sv i - 1) (aRAt sv) (aR_nn sv) (aR_cast sv)) rnd.alpha
  obtain ⟨S, hS, hS8⟩ := vecCommit_enc (gPV H (2 ^ logM sv.length * 64)) (hPV H (2 ^ logM sv.length * 64))
    (SV.of_map (L := List.range (2 ^ logM sv.length * 64)) (f := fun i => ((rnd.sL i : ℤ) : Fl)) rnd.sL hL fun _ => rfl)
    (SV.of_map (L := List.range (2 ^ logM sv.length * 64)) (f := fun i => ((rnd.sR i : ℤ) : Fl)) rnd.sR hR fun _ => rfl) rnd.rho
  have hVe := compV_enc sv gamma hlen hv
  obtain ⟨y, hy⟩ : ∃ y, mash H (hashVct H (List.map enc (vPts sv gamma))) [enc A, enc S] = y := ⟨_, rfl⟩
  obtain ⟨z, hz⟩ : ∃ z, Key.hs H (encodeInt y) = z := ⟨_, rfl⟩
  have hcn := crossLoop_nn (fun i => scSub (aLAt sv i) z) (fun i => r0At (aRAt sv i) y z i) rnd.sL (fun i => scMul (rnd.sR i) (pw y i))
    (List.range (2 ^ logM sv.length * 64)) (0, 0) ⟨le_rfl, le_rfl⟩
  have hT1 := commit8_enc rnd.tau1 (cross rnd sv y z (2 ^ logM sv.length * 64)).1 hcn.1
  have hT2 := commit8_enc rnd.tau2 (cross rnd sv y z (2 ^ logM sv.length * 64)).2 hcn.2
  obtain ⟨T1, hT1e⟩ : ∃ T, enc ((inv8 : Fl) • ((rnd.tau1 : Fl) • baseS + ((cross rnd sv y z (2 ^ logM sv.length * 64)).1 : Fl) • Bp.hS)) = T := ⟨_, rfl⟩
  obtain ⟨T2, hT2e⟩ : ∃ T, enc ((inv8 : Fl) • ((rnd.tau2 : Fl) • baseS + ((cross rnd sv y z (2 ^ logM sv.length * 64)).2 : Fl) • Bp.hS)) = T := ⟨_, rfl⟩
  rw [hT1e] at hT1
  rw [hT2e] at hT2
  obtain ⟨x, hx⟩ : ∃ x, mash H z [encodeInt z, T1, T2] = x := ⟨_, rfl⟩
  have hnz : y ≠ 0 ∧ z ≠ 0 ∧ x ≠ 0 := by
    have h' := h
    rw [proveBatch, if_neg (by rintro (h | h); exacts [h hlen, hne h])] at h'
    dsimp only at h'
    rw [hVe, hA, hS] at h'
    simp only [Option.bind_eq_bind, Option.bind_some] at h'
    rw [hy] at h'
    by_cases hy0 : y = 0
    · rw [if_pos hy0] at h'; simp at h'
    rw [if_neg hy0, hz] at h'
    by_cases hz0 : z = 0
    · rw [if_pos hz0] at h'; simp at h'
    rw [if_neg hz0] at h'
    have e1 := hT1
    have e2 := hT2
    unfold cross at e1 e2
    rw [e1, e2] at h'
    simp only [Option.bind_some] at h'
    rw [hx] at h'
    by_cases hx0 : x = 0
    · rw [if_pos hx0] at h'; simp at h'
    exact ⟨hy0, hz0, hx0⟩
  obtain ⟨hy0, hz0, hx0⟩ := hnz
  rw [proveBatch_tail hlen hne hVe hA hS hy hy0 hz hz0 hT1 hT2 hx hx0] at h
  obtain ⟨p1, p2, p3, p4, p5⟩ := tail_some h
  have cy : chY H π = y := by rw [← chY_mash, p1, p2, p3]; exact hy
  have cz : chZ H π = z := by rw [chZ, cy]; exact hz
  have cx : chX H π = x := by rw [← chX_mash, cz, p4, p5]; exact hx
  rw [cy, cz, cx]
  refine ⟨hne, hy0, hz0, hx0, p1, ⟨A, p2, hA8⟩, ⟨S, p3, hS8⟩, p4.trans hT1e.symm, p5.trans hT2e.symm, ?_⟩
  rw [p1, p2, p3, p4, p5]
  exact h

theorem baseS_ne : baseS ≠ 0 := fun h => absurd (congrArg Subtype.val h) base_ne

theorem base_inj {a b : Fl} (h : a • baseS = b • baseS) : a = b := smul_left_injective Fl baseS_ne h

theorem eight_inj {P Q : Sub} (h : (8 : Fl) • P = (8 : Fl) • Q) : P = Q := by
  have := congrArg (fun R => (inv8 : Fl) • R) h
  rwa [smul_smul, smul_smul, mul_comm, cast_inv8, one_smul, one_smul] at this

theorem lvAt_cast (rnd : Rand) (sv : List ℤ) (z x : ℤ) (i : ℕ) :
    ((lvAt rnd sv z x i : ℤ) : Fl) = lAt (bt sv) (fun i => ((rnd.sL i : ℤ) : Fl)) z x i := by
  rw [lvAt, cast_scMuladd, cast_scSub]; rfl

theorem rvAt_cast (rnd : Rand) (sv : List ℤ) (y z x : ℤ) (i : ℕ) :
    ((rvAt rnd sv y z x i : ℤ) : Fl) = rAt (bt sv) (fun i => ((rnd.sR i : ℤ) : Fl)) y z x i := by
  rw [rvAt, cast_scMuladd, r0At_cast, cast_scMul, cast_pw]; rfl

/-- The value of the inner product polynomial at `x`, by its coefficients. -/
theorem cross_value (rnd : Rand) {sv : List ℤ} (hv : ∀ v ∈ sv, 0 ≤ v ∧ v < 2 ^ 64) {m : ℕ} (hm : sv.length ≤ m) (y z x : ℤ) :
    ∑ i ∈ range (m * 64), lAt (bt sv) (fun i => ((rnd.sL i : ℤ) : Fl)) z x i * rAt (bt sv) (fun i => ((rnd.sR i : ℤ) : Fl)) y z x i =
      poly (z : Fl) 2 sv + delta m (y : Fl) (z : Fl) + (x : Fl) * ((cross rnd sv y z (m * 64)).1 : Fl) +
        (x : Fl) ^ 2 * ((cross rnd sv y z (m * 64)).2 : Fl) := by
  have hcr := crossLoop_enc (fun i => scSub (aLAt sv i) z) (fun i => r0At (aRAt sv i) y z i) rnd.sL (fun i => scMul (rnd.sR i) (pw y i))
    (List.range (m * 64)) 0 0
  rw [t_split, t0_value 64 _ (bt sv) (bt_sq sv), amounts_poly (z : Fl) hv hm, delta, geom64, cross, hcr.1, hcr.2, sum_map_range, sum_map_range]
  simp only [cast_scMul, cast_scSub, r0At_cast, cast_pw, Int.cast_zero, zero_add]
  rfl

/-- Another tape for other amounts leads to the same proof if it keeps the points and the vectors at the challenge. -/
theorem prove_same {H : Bytes → Bytes} {rnd rnd' : Rand} (hL : ∀ i, 0 ≤ rnd.sL i) (hR : ∀ i, 0 ≤ rnd.sR i) (hL' : ∀ i, 0 ≤ rnd'.sL i)
    (hR' : ∀ i, 0 ≤ rnd'.sR i) {sv sv' gamma gamma' : List ℤ} (hlen : sv.length = gamma.length) (hlen' : sv'.length = gamma'.length)
    (hn : sv'.length = sv.length) (h32 : sv.length ≤ 32) (hv : ∀ v ∈ sv, 0 ≤ v ∧ v < 2 ^ 64) (hv' : ∀ v ∈ sv', 0 ≤ v ∧ v < 2 ^ 64) {π : Proof}
    (h : proveBatch H rnd sv gamma = some π) (eV : vPts sv' gamma' = vPts sv gamma)
    (eL : ∀ i < 2 ^ logM sv.length * 64, (chX H π : Fl) * ((rnd'.sL i : ℤ) : Fl) = (chX H π : Fl) * (rnd.sL i : Fl) + (bt sv i - bt sv' i))
    (eR : ∀ i < 2 ^ logM sv.length * 64, (chX H π : Fl) * ((rnd'.sR i : ℤ) : Fl) = (chX H π : Fl) * (rnd.sR i : Fl) + (bt sv i - bt sv' i))
    (eA : ∑ i ∈ range (2 ^ logM sv.length * 64), (bt sv' i • gPt H i + (bt sv' i - 1) • hGPt H i) + (rnd'.alpha : Fl) • baseS =
      ∑ i ∈ range (2 ^ logM sv.length * 64), (bt sv i • gPt H i + (bt sv i - 1) • hGPt H i) + (rnd.alpha : Fl) • baseS)
    (eS : ∑ i ∈ range (2 ^ logM sv.length * 64), ((rnd'.sL i : Fl) • gPt H i + (rnd'.sR i : Fl) • hGPt H i) + (rnd'.rho : Fl) • baseS =
      ∑ i ∈ range (2 ^ logM sv.length * 64), ((rnd.sL i : Fl) • gPt H i + (rnd.sR i : Fl) • hGPt H i) + (rnd.rho : Fl) • baseS)
    (e1 : (rnd'.tau1 : Fl) • baseS + ((cross rnd' sv' (chY H π) (chZ H π) (2 ^ logM sv.length * 64)).1 : Fl) • Bp.hS =
      (rnd.tau1 : Fl) • baseS + ((cross rnd sv (chY H π) (chZ H π) (2 ^ logM sv.length * 64)).1 : Fl) • Bp.hS)
    (e2 : (rnd'.tau2 : Fl) • baseS + ((cross rnd' sv' (chY H π) (chZ H π) (2 ^ logM sv.length * 64)).2 : Fl) • Bp.hS =
      (rnd.tau2 : Fl) • baseS + ((cross rnd sv (chY H π) (chZ H π) (2 ^ logM sv.length * 64)).2 : Fl) • Bp.hS) :
    proveBatch H rnd' sv' gamma' = some π := by
  obtain ⟨hne, hy0, hz0, hx0, pV, ⟨A, pA, hA8⟩, ⟨S, pS, hS8⟩, p1, p2, ht⟩ := proveBatch_inv hL hR hlen (fun v hm => (hv v hm).1) h
  obtain ⟨A', hA', hA8'⟩ := vecCommit_enc (gPV H (2 ^ logM sv'.length * 64)) (hPV H (2 ^ logM sv'.length * 64))
    (SV.of_map (L := List.range (2 ^ logM sv'.length * 64)) (f := bt sv') (aLAt sv') (aL_nn sv') fun _ => rfl)
    (SV.of_map (L := List.range (2 ^ logM sv'.length * 64)) (f := fun i => bt sv' i - 1) (aRAt sv') (aR_nn sv') (aR_cast sv')) rnd'.alpha
  obtain ⟨S', hS', hS8'⟩ := vecCommit_enc (gPV H (2 ^ logM sv'.length * 64)) (hPV H (2 ^ logM sv'.length * 64))
    (SV.of_map (L := List.range (2 ^ logM sv'.length * 64)) (f := fun i => ((rnd'.sL i : ℤ) : Fl)) rnd'.sL hL' fun _ => rfl)
    (SV.of_map (L := List.range (2 ^ logM sv'.length * 64)) (f := fun i => ((rnd'.sR i : ℤ) : Fl)) rnd'.sR hR' fun _ => rfl) rnd'.rho
  have hVe : compV sv' gamma' = some π.V := by rw [compV_enc sv' gamma' hlen' (fun v hm => (hv' v hm).1), eV, pV]
  have hAA : A' = A := eight_inj (by rw [hA8', hA8, hn, eA])
  have hSS : S' = S := eight_inj (by rw [hS8', hS8, hn, eS])
  rw [hAA, ← pA] at hA'
  rw [hSS, ← pS] at hS'
  have hcn := crossLoop_nn (fun i => scSub (aLAt sv' i) (chZ H π)) (fun i => r0At (aRAt sv' i) (chY H π) (chZ H π) i) rnd'.sL
    (fun i => scMul (rnd'.sR i) (pw (chY H π) i)) (List.range (2 ^ logM sv'.length * 64)) (0, 0) ⟨le_rfl, le_rfl⟩
  have hcn : 0 ≤ (cross rnd' sv' (chY H π) (chZ H π) (2 ^ logM sv'.length * 64)).1 ∧ 0 ≤ (cross rnd' sv' (chY H π) (chZ H π) (2 ^ logM sv'.length * 64)).2 := hcn
  have hT1 : commit8 rnd'.tau1 (cross rnd' sv' (chY H π) (chZ H π) (2 ^ logM sv'.length * 64)).1 = some π.T1 := by
    rw [commit8_enc _ _ hcn.1, hn, e1, p1]
  have hT2 : commit8 rnd'.tau2 (cross rnd' sv' (chY H π) (chZ H π) (2 ^ logM sv'.length * 64)).2 = some π.T2 := by
    rw [commit8_enc _ _ hcn.2, hn, e2, p2]
  rw [proveBatch_tail hlen' (by rw [hn]; exact hne) hVe hA' hS' (chY_mash H π) hy0 (show hs H (encodeInt (chY H π)) = chZ H π from rfl) hz0 hT1 hT2 (chX_mash H π) hx0, hn, ← ht]
  generalize chY H π = y at *
  generalize chZ H π = z at *
  generalize chX H π = x at *
  have elA : ∀ i < 2 ^ logM sv.length * 64, lAt (bt sv') (fun i => ((rnd'.sL i : ℤ) : Fl)) z x i = lAt (bt sv) (fun i => ((rnd.sL i : ℤ) : Fl)) z x i := by
    intro i hi
    unfold lAt
    rw [eL i hi]; ring
  have erA : ∀ i < 2 ^ logM sv.length * 64, rAt (bt sv') (fun i => ((rnd'.sR i : ℤ) : Fl)) y z x i = rAt (bt sv) (fun i => ((rnd.sR i : ℤ) : Fl)) y z x i := by
    intro i hi
    unfold rAt
    linear_combination (y : Fl) ^ i * eR i hi
  have elv : (List.range (2 ^ logM sv.length * 64)).map (lvAt rnd' sv' z x) = (List.range (2 ^ logM sv.length * 64)).map (lvAt rnd sv z x) :=
    List.map_congr_left fun i hi => eq_l (emod_l_range _) (emod_l_range _) (by rw [lvAt_cast, lvAt_cast, elA i (List.mem_range.mp hi)])
  have erv : (List.range (2 ^ logM sv.length * 64)).map (rvAt rnd' sv' y z x) = (List.range (2 ^ logM sv.length * 64)).map (rvAt rnd sv y z x) :=
    List.map_congr_left fun i hi => eq_l (emod_l_range _) (emod_l_range _) (by rw [rvAt_cast, rvAt_cast, erA i (List.mem_range.mp hi)])
  have emu : scMuladd x rnd'.rho rnd'.alpha = scMuladd x rnd.rho rnd.alpha := by
    refine eq_l (emod_l_range _) (emod_l_range _) ?_
    rw [cast_scMuladd, cast_scMuladd]
    refine base_inj ?_
    have hs : ∑ i ∈ range (2 ^ logM sv.length * 64), (bt sv' i • gPt H i + (bt sv' i - 1) • hGPt H i) +
        (x : Fl) • ∑ i ∈ range (2 ^ logM sv.length * 64), ((rnd'.sL i : Fl) • gPt H i + (rnd'.sR i : Fl) • hGPt H i) =
        ∑ i ∈ range (2 ^ logM sv.length * 64), (bt sv i • gPt H i + (bt sv i - 1) • hGPt H i) +
        (x : Fl) • ∑ i ∈ range (2 ^ logM sv.length * 64), ((rnd.sL i : Fl) • gPt H i + (rnd.sR i : Fl) • hGPt H i) := by
      rw [smul_sum, smul_sum, ← sum_add_distrib, ← sum_add_distrib]
      refine sum_congr rfl fun i hi => ?_
      have a1 := eL i (mem_range.mp hi)
      have a2 := eR i (mem_range.mp hi)
      rw [smul_add, smul_add, smul_smul, smul_smul, smul_smul, smul_smul, a1, a2]
      module
    have hx' := congrArg (fun P => (x : Fl) • P) eS
    rw [smul_add, smul_add] at hx'
    generalize ∑ i ∈ range (2 ^ logM sv.length * 64), (bt sv' i • gPt H i + (bt sv' i - 1) • hGPt H i) = P1 at *
    generalize ∑ i ∈ range (2 ^ logM sv.length * 64), (bt sv i • gPt H i + (bt sv i - 1) • hGPt H i) = P2 at *
    generalize (x : Fl) • ∑ i ∈ range (2 ^ logM sv.length * 64), ((rnd'.sL i : Fl) • gPt H i + (rnd'.sR i : Fl) • hGPt H i) = P3 at *
    generalize (x : Fl) • ∑ i ∈ range (2 ^ logM sv.length * 64), ((rnd.sL i : Fl) • gPt H i + (rnd.sR i : Fl) • hGPt H i) = P4 at *
    have e : ((rnd'.alpha : Fl) + (x : Fl) * rnd'.rho) • baseS = (P1 + (rnd'.alpha : Fl) • baseS) + (P3 + (x : Fl) • (rnd'.rho : Fl) • baseS) - (P1 + P3) := by
      module
    rw [e, eA, hx', hs]
    module
  have etau : tauxOf rnd' gamma' z x = tauxOf rnd gamma z x := by
    refine eq_l (tauxLoop_range _ _ _ _ (emod_l_range _)) (tauxLoop_range _ _ _ _ (emod_l_range _)) ?_
    rw [tauxOf, tauxOf, tauxLoop_enc z gamma' 2 (scMul z z) _ (by rw [cast_scMul, pow_two]), tauxLoop_enc z gamma 2 (scMul z z) _ (by rw [cast_scMul, pow_two]),
      cast_scMuladd, cast_scMuladd, cast_scMul, cast_scMul, cast_scMul]
    refine base_inj ?_
    have hp : poly (z : Fl) 2 gamma' • baseS + poly (z : Fl) 2 sv' • Bp.hS = poly (z : Fl) 2 gamma • baseS + poly (z : Fl) 2 sv • Bp.hS := by
      have a1 := vPts_sum (z : Fl) sv' gamma' 0 hlen'
      have a2 := vPts_sum (z : Fl) sv gamma 0 hlen
      rw [eV] at a1
      exact a1.symm.trans a2
    have c1 := cross_value rnd hv (logM_ge h32) y z x
    have c2 := cross_value rnd' hv' (show sv'.length ≤ 2 ^ logM sv.length by rw [hn]; exact logM_ge h32) y z x
    have c3 : poly (z : Fl) 2 sv' + delta (2 ^ logM sv.length) (y : Fl) (z : Fl) + (x : Fl) * ((cross rnd' sv' y z (2 ^ logM sv.length * 64)).1 : Fl) +
        (x : Fl) ^ 2 * ((cross rnd' sv' y z (2 ^ logM sv.length * 64)).2 : Fl) =
        poly (z : Fl) 2 sv + delta (2 ^ logM sv.length) (y : Fl) (z : Fl) + (x : Fl) * ((cross rnd sv y z (2 ^ logM sv.length * 64)).1 : Fl) +
        (x : Fl) ^ 2 * ((cross rnd sv y z (2 ^ logM sv.length * 64)).2 : Fl) := by
      rw [← c1, ← c2]
      exact sum_congr rfl fun i hi => by rw [elA i (mem_range.mp hi), erA i (mem_range.mp hi)]
    generalize ((cross rnd' sv' y z (2 ^ logM sv.length * 64)).1 : Fl) = a1 at *
    generalize ((cross rnd' sv' y z (2 ^ logM sv.length * 64)).2 : Fl) = a2 at *
    generalize ((cross rnd sv y z (2 ^ logM sv.length * 64)).1 : Fl) = b1 at *
    generalize ((cross rnd sv y z (2 ^ logM sv.length * 64)).2 : Fl) = b2 at *
    generalize poly (z : Fl) 2 gamma' = g' at *
    generalize poly (z : Fl) 2 gamma = g at *
    generalize poly (z : Fl) 2 sv' = s' at *
    generalize poly (z : Fl) 2 sv = s at *
    have c4 : s' + x * a1 + x ^ 2 * a2 = s + x * b1 + x ^ 2 * b2 := by linear_combination c3
    have l1 : ((rnd'.tau1 : Fl) * x + rnd'.tau2 * ((x : Fl) * x) + g') • baseS =
        (x : Fl) ^ 2 • ((rnd'.tau2 : Fl) • baseS + a2 • Bp.hS) + (x : Fl) • ((rnd'.tau1 : Fl) • baseS + a1 • Bp.hS) + (g' • baseS + s' • Bp.hS) -
          (s' + x * a1 + x ^ 2 * a2) • Bp.hS := by module
    rw [l1, e1, e2, hp, c4]
    module
  rw [elv, erv, emu, etau]

end Verif.Bp
