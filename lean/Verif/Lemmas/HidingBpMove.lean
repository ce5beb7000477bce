import Verif.Lemmas.HidingBp
import Verif.Props.BpSound
import Verif.Spec.HidingBp

/-!
The tape that makes the same Bulletproof for other amounts.
-/

namespace Verif.Bp
open Verif Ed Finset

theorem readAt_nn {N : ℕ} (f : Fin N → Fl) (i : ℕ) : 0 ≤ readAt f i := by
  unfold readAt; split
  · exact Int.natCast_nonneg _
  · exact le_rfl

theorem readAt_cast {N : ℕ} (f : Fin N → Fl) {i : ℕ} (hi : i < N) : ((readAt f i : ℤ) : Fl) = f ⟨i, hi⟩ := by
  rw [readAt, dif_pos hi]; exact cast_num _

/-- A logarithm to the base point. -/
noncomputable def lg (P : Sub) : Fl := (sub_cyclic P).choose

theorem lg_smul (P : Sub) : lg P • baseS = P := (sub_cyclic P).choose_spec

/-- The coefficients of the inner product polynomial for blinding vectors. -/
def crossV {N : ℕ} (sL sR : Fin N → Fl) (sv : List ℤ) (y z : ℤ) : ℤ × ℤ := cross ⟨0, 0, 0, 0, readAt sL, readAt sR⟩ sv y z N

theorem crossV_eq {n : ℕ} (t : BpTape n) (sv : List ℤ) (y z : ℤ) : cross t.rand sv y z (2 ^ logM n * 64) = crossV t.sL t.sR sv y z := rfl

/-- The shift of the blinding vectors. -/
noncomputable def shift (sv sv' : List ℤ) (x : ℤ) (i : ℕ) : Fl := (bt sv i - bt sv' i) / (x : Fl)

noncomputable def moved (H : Bytes → Bytes) {n : ℕ} (sv sv' : List ℤ) (π : Proof) (t : BpTape n) : BpTape n where
  masks j := t.masks j + ((sv.getD j 0 : ℤ) - (sv'.getD j 0 : ℤ)) * lg Bp.hS
  alpha := t.alpha + lg (∑ i ∈ range (2 ^ logM n * 64), (bt sv i • gPt H i + (bt sv i - 1) • hGPt H i) -
    ∑ i ∈ range (2 ^ logM n * 64), (bt sv' i • gPt H i + (bt sv' i - 1) • hGPt H i))
  rho := t.rho - lg (∑ i ∈ range (2 ^ logM n * 64), (shift sv sv' (chX H π) i • gPt H i + shift sv sv' (chX H π) i • hGPt H i))
  tau1 := t.tau1 + (((crossV t.sL t.sR sv (chY H π) (chZ H π)).1 : Fl) -
    ((crossV (fun i => t.sL i + shift sv sv' (chX H π) i) (fun i => t.sR i + shift sv sv' (chX H π) i) sv' (chY H π) (chZ H π)).1 : Fl)) * lg Bp.hS
  tau2 := t.tau2 + (((crossV t.sL t.sR sv (chY H π) (chZ H π)).2 : Fl) -
    ((crossV (fun i => t.sL i + shift sv sv' (chX H π) i) (fun i => t.sR i + shift sv sv' (chX H π) i) sv' (chY H π) (chZ H π)).2 : Fl)) * lg Bp.hS
  sL i := t.sL i + shift sv sv' (chX H π) i
  sR i := t.sR i + shift sv sv' (chX H π) i

theorem moved_injective (H : Bytes → Bytes) {n : ℕ} (sv sv' : List ℤ) (π : Proof) : Function.Injective (moved H (n := n) sv sv' π) := by
  rintro ⟨m, a, r, t1, t2, sL, sR⟩ ⟨m', a', r', t1', t2', sL', sR'⟩ h
  simp only [moved, BpTape.mk.injEq] at h
  obtain ⟨h1, h2, h3, h4, h5, h6, h7⟩ := h
  have e6 : sL = sL' := funext fun i => add_right_cancel (congrFun h6 i)
  have e7 : sR = sR' := funext fun i => add_right_cancel (congrFun h7 i)
  subst e6 e7
  have e1 : m = m' := funext fun i => add_right_cancel (congrFun h1 i)
  rw [e1, add_right_cancel h2, sub_left_injective h3, add_right_cancel h4, add_right_cancel h5]

theorem moved_made {H : Bytes → Bytes} {amounts amounts' : List ℕ} (hn : amounts'.length = amounts.length) (h32 : amounts.length ≤ 32)
    (hv : ∀ a ∈ amounts, a < 2 ^ 64) (hv' : ∀ a ∈ amounts', a < 2 ^ 64) {π : Proof} {t : BpTape amounts.length} (h : made H amounts t = some π) :
    made H amounts' (moved H (amounts.map fun a : ℕ => (a : ℤ)) (amounts'.map fun a : ℕ => (a : ℤ)) π t) = some π := by
  have b : ∀ {L : List ℕ}, (∀ a ∈ L, a < 2 ^ 64) → ¬ L.any (fun a => 2 ^ 64 ≤ a) = true := by
    intro L hL hc
    obtain ⟨a, ha, hb⟩ := List.any_eq_true.mp hc
    have := hL a ha
    have := of_decide_eq_true hb
    omega
  have hl : amounts.length = (amounts.map fun a : ℕ => (a : ℤ)).length := (List.length_map _).symm
  have hl' : amounts.length = (amounts'.map fun a : ℕ => (a : ℤ)).length := by rw [List.length_map, hn]
  unfold made proveRangeBp at h ⊢
  rw [if_neg (b hv)] at h
  rw [if_neg (b hv')]
  have hb := amounts_bound (b hv)
  have hb' := amounts_bound (b hv')
  have hg : ∀ s : BpTape amounts.length, s.gamma.length = amounts.length := fun s => by rw [BpTape.gamma, List.length_ofFn]
  generalize (amounts.map fun a : ℕ => (a : ℤ)) = sv at *
  generalize (amounts'.map fun a : ℕ => (a : ℤ)) = sv' at *
  clear hv hv' hn b
  generalize amounts.length = n at *
  subst hl
  have hx0 := (proveBatch_inv (fun i => readAt_nn _ i) (fun i => readAt_nn _ i) (hg t).symm (fun v hm => (hb v hm).1) h).2.2.2.1
  have hx : (chX H π : Fl) ≠ 0 := (cast_ne_zero (Key.hs_range H _)).mpr hx0
  refine prove_same (fun i => readAt_nn _ i) (fun i => readAt_nn _ i) (fun i => readAt_nn _ i) (fun i => readAt_nn _ i) (hg t).symm (hl'.symm.trans (hg _).symm)
    hl'.symm h32 hb hb' h ?_ ?_ ?_ ?_ ?_ ?_ ?_
  · unfold vPts
    refine List.ext_getElem ?_ fun i h1 h2 => ?_
    · rw [List.length_zipWith, List.length_zipWith, hg, hg, hl']
    · rw [List.length_zipWith, hg] at h2
      rw [List.getElem_zipWith, List.getElem_zipWith]
      have i1 : i < sv.length := by omega
      have i2 : i < sv'.length := by omega
      unfold BpTape.gamma
      rw [List.getElem_ofFn, List.getElem_ofFn]
      congr 1
      show ((num (t.masks ⟨i, i1⟩ + ((sv.getD i 0 : ℤ) - (sv'.getD i 0 : ℤ)) * lg Bp.hS) : ℤ) : Fl) • baseS + _ = ((num (t.masks ⟨i, i1⟩) : ℤ) : Fl) • baseS + _
      rw [cast_num, cast_num, List.getD_eq_getElem?_getD, List.getD_eq_getElem?_getD, List.getElem?_eq_getElem i1, List.getElem?_eq_getElem i2,
        Option.getD_some, Option.getD_some, add_smul, mul_smul, lg_smul]
      module
  · intro i hi
    show _ * ((readAt _ i : ℤ) : Fl) = _ * ((readAt _ i : ℤ) : Fl) + _
    rw [readAt_cast _ hi, readAt_cast _ hi]
    show _ * (t.sL ⟨i, hi⟩ + shift sv sv' (chX H π) i) = _
    rw [shift]; field_simp
  · intro i hi
    show _ * ((readAt _ i : ℤ) : Fl) = _ * ((readAt _ i : ℤ) : Fl) + _
    rw [readAt_cast _ hi, readAt_cast _ hi]
    show _ * (t.sR ⟨i, hi⟩ + shift sv sv' (chX H π) i) = _
    rw [shift]; field_simp
  · show _ + ((num (t.alpha + lg (_ - _)) : ℤ) : Fl) • baseS = _ + ((num t.alpha : ℤ) : Fl) • baseS
    rw [cast_num, cast_num, add_smul, lg_smul]
    abel
  · show _ + ((num (t.rho - lg _) : ℤ) : Fl) • baseS = _ + ((num t.rho : ℤ) : Fl) • baseS
    rw [cast_num, cast_num, sub_smul, lg_smul]
    have e : ∑ i ∈ range (2 ^ logM sv.length * 64), ((readAt (moved H sv sv' π t).sL i : Fl) • gPt H i + (readAt (moved H sv sv' π t).sR i : Fl) • hGPt H i) =
        ∑ i ∈ range (2 ^ logM sv.length * 64), ((readAt t.sL i : Fl) • gPt H i + (readAt t.sR i : Fl) • hGPt H i) +
        ∑ i ∈ range (2 ^ logM sv.length * 64), (shift sv sv' (chX H π) i • gPt H i + shift sv sv' (chX H π) i • hGPt H i) := by
      rw [← sum_add_distrib]
      refine sum_congr rfl fun i hi => ?_
      have hi := mem_range.mp hi
      rw [readAt_cast _ hi, readAt_cast _ hi, readAt_cast _ hi, readAt_cast _ hi]
      show (t.sL ⟨i, hi⟩ + shift sv sv' (chX H π) i) • _ + (t.sR ⟨i, hi⟩ + shift sv sv' (chX H π) i) • _ = _
      module
    refine Eq.trans (congrArg (· + _) e) ?_
    show _ = ∑ i ∈ range (2 ^ logM sv.length * 64), ((readAt t.sL i : Fl) • gPt H i + (readAt t.sR i : Fl) • hGPt H i) + _
    abel
  · rw [crossV_eq, crossV_eq]
    show ((num (t.tau1 + (_ - _) * lg Bp.hS) : ℤ) : Fl) • baseS + _ = ((num t.tau1 : ℤ) : Fl) • baseS + _
    rw [cast_num, cast_num, add_smul, mul_smul, lg_smul, sub_smul]
    show _ + ((crossV (fun i => t.sL i + shift sv sv' (chX H π) i) (fun i => t.sR i + shift sv sv' (chX H π) i) sv' (chY H π) (chZ H π)).1 : Fl) • Bp.hS = _
    abel
  · rw [crossV_eq, crossV_eq]
    show ((num (t.tau2 + (_ - _) * lg Bp.hS) : ℤ) : Fl) • baseS + _ = ((num t.tau2 : ℤ) : Fl) • baseS + _
    rw [cast_num, cast_num, add_smul, mul_smul, lg_smul, sub_smul]
    show _ + ((crossV (fun i => t.sL i + shift sv sv' (chX H π) i) (fun i => t.sR i + shift sv sv' (chX H π) i) sv' (chY H π) (chZ H π)).2 : Fl) • Bp.hS = _
    abel

end Verif.Bp
