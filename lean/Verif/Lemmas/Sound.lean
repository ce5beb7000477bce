import Verif.Spec.Sound
import Mathlib.RingTheory.Coprime.Lemmas
import Mathlib.RingTheory.Int.Basic

namespace Verif.Sig
open Verif Ed Key Edwards

theorem mod_mul {p : Point} (hp : lN • p = 0) {a b : ℤ} (h : a % l = b % l) : a • p = b • p := by
  rw [← mod_smul hp a, h, mod_smul hp b]

theorem eight_order (p : Point) : lN • ((8 : ℤ) • p) = 0 := by
  have := l_eight p
  rwa [← natCast_zsmul p 8] at this

theorem coprime_of_ne {c c' : ℤ} (h : c % l ≠ c' % l) : IsCoprime (c - c') l := by
  have hpr : Nat.Prime lN := Fact.out
  rw [isCoprime_comm, l_eq]
  apply (Nat.prime_iff_prime_int.mp hpr).irreducible.coprime_iff_not_dvd.mpr
  intro hd
  apply h
  rw [l_eq]
  have : c' ≡ c [ZMOD (lN : ℤ)] := Int.modEq_iff_dvd.mpr hd
  exact this.symm

theorem secretOf_reduced (c r c' r' : ℤ) : Reduced (secretOf c r c' r') := emod_l_range _

/-- Two answers to different challenges, up to order eight. -/
theorem extract8 {c c' r r' : ℤ} (h : c % l ≠ c' % l) (P G : Point) (e : (8 : ℤ) • (c • P + r • G) = (8 : ℤ) • (c' • P + r' • G)) :
    Known G P (secretOf c r c' r') := by
  have huv := Int.gcd_eq_gcd_ab (c - c') l
  rw [Int.isCoprime_iff_gcd_eq_one.mp (coprime_of_ne h)] at huv
  unfold secretOf
  generalize Int.gcdA (c - c') l = u at *
  generalize Int.gcdB (c - c') l = v at *
  have hP := eight_order P
  have hG := eight_order G
  rw [zsmul_add, zsmul_add, smul_comm (8 : ℤ) c, smul_comm (8 : ℤ) r, smul_comm (8 : ℤ) c', smul_comm (8 : ℤ) r'] at e
  unfold Known
  rw [smul_comm (8 : ℤ) (u * (r' - r) % l), mod_smul hG]
  generalize (8 : ℤ) • P = W at *
  generalize (8 : ℤ) • G = V at *
  have e1 : (c - c') • W = (r' - r) • V := by
    rw [sub_zsmul, sub_zsmul]
    have : c • W = c' • W + r' • V - r • V := by rw [← e]; abel
    rw [this]; abel
  have huv' : u * (c - c') + v * l = 1 := by
    rw [mul_comm u, mul_comm v, ← huv]; rfl
  have e2 : W = u • ((c - c') • W) + v • (l • W) := by rw [← mul_zsmul, ← mul_zsmul, ← add_zsmul, huv', one_zsmul]
  have e3 : l • W = 0 := by rw [l_eq, natCast_zsmul, hP]
  rw [e3, zsmul_zero, add_zero, e1, ← mul_zsmul] at e2
  exact e2

theorem extract {c c' r r' : ℤ} (h : c % l ≠ c' % l) (P G : Point) (e : c • P + r • G = c' • P + r' • G) : Known G P (secretOf c r c' r') :=
  extract8 h P G (by rw [e])

theorem known_unique {P : Point} {x x' : ℤ} (h : Known base P x) (h' : Known base P x') : x % l = x' % l := by
  unfold Known at h h'
  rw [h, ← mul_zsmul, ← mul_zsmul] at h'
  have h2 : ((8 * x - 8 * x' : ℤ)) • base = 0 := by rw [sub_zsmul, h', add_neg_cancel]
  have h3 := (addOrderOf_dvd_iff_zsmul_eq_zero).mpr h2
  rw [order_base, ← l_eq, ← mul_sub] at h3
  have h8 : IsCoprime l 8 := by
    rw [Int.isCoprime_iff_gcd_eq_one]; decide +kernel
  have h4 : l ∣ x - x' := h8.dvd_of_dvd_mul_left h3
  exact Int.emod_eq_emod_iff_emod_sub_eq_zero.mpr (Int.emod_eq_zero_of_dvd h4)

theorem reduced_mod {c : ℤ} (h : Proper c) : c % l = c := Int.emod_eq_of_lt h.1.le h.2

theorem ringData_cons (H : Bytes → Bytes) (I P : Point) (ps : List Point) (c r : ℤ) (sig : List (ℤ × ℤ)) :
    ringData H I (P :: ps) ((c, r) :: sig) = encPt (c • P + r • base) ++ encPt (r • hpt H (encPt P) + c • I) ++ ringData H I ps sig := by
  rw [ringData]

/-- Equal hashed bytes: equal points. -/
theorem enc_append_inj {p p' : Point} {a b : Bytes} (h : encPt p ++ a = encPt p' ++ b) : p = p' ∧ a = b := by
  obtain ⟨h1, h2⟩ := List.append_inj h (by rw [encPt_length, encPt_length])
  exact ⟨encPt_injective h1, h2⟩

theorem hp_fork {H H' : Bytes → Bytes} (hf : Fork H H') (P : Point) : hpt H' (encPt P) = hpt H (encPt P) := by
  have h1 := hpt_rep H (encPt P)
  have h2 := hpt_rep H' (encPt P)
  have : hp H' (encPt P) = hp H (encPt P) := by rw [hp, hp, hf _ (encPt_length P)]
  rw [this] at h2
  exact rep_unique h2 h1

/-- Member by member. -/
def Member (H : Bytes → Bytes) (I P : Point) (v v' : ℤ × ℤ) : Prop :=
  v.1 • P + v.2 • base = v'.1 • P + v'.2 • base ∧ v.2 • hpt H (encPt P) + v.1 • I = v'.2 • hpt H (encPt P) + v'.1 • I

theorem ringData_inj {H H' : Bytes → Bytes} (hf : Fork H H') (I : Point) : ∀ (ps : List Point) (sig sig' : List (ℤ × ℤ)),
    sig.length = ps.length → sig'.length = ps.length → ringData H I ps sig = ringData H' I ps sig' →
    ∀ (i : ℕ) (P : Point) (v v' : ℤ × ℤ), ps[i]? = some P → sig[i]? = some v → sig'[i]? = some v' → Member H I P v v'
  | [], _, _, _, _, _, i, P, _, _, hP, _, _ => by simp at hP
  | P :: ps, [], _, h, _, _, _, _, _, _, _, _, _ => by simp at h
  | P :: ps, _ :: _, [], _, h, _, _, _, _, _, _, _, _ => by simp at h
  | P :: ps, (c, r) :: sig, (c', r') :: sig', h1, h2, hd, i, Q, v, v', hQ, hv, hv' => by
    rw [ringData_cons, ringData_cons, List.append_assoc, List.append_assoc] at hd
    obtain ⟨e1, hd⟩ := enc_append_inj hd
    obtain ⟨e2, hd⟩ := enc_append_inj hd
    cases i with
    | zero =>
      simp only [List.getElem?_cons_zero, Option.some.injEq] at hQ hv hv'
      subst hQ hv hv'
      rw [hp_fork hf] at e2
      exact ⟨e1, e2⟩
    | succ i =>
      simp only [List.getElem?_cons_succ] at hQ hv hv'
      exact ringData_inj hf I ps sig sig' (by simpa using h1) (by simpa using h2) hd i Q v v' hQ hv hv'

theorem sum_differs : ∀ sig sig' : List (ℤ × ℤ), sig.length = sig'.length → (sig.map (·.1)).sum % l ≠ (sig'.map (·.1)).sum % l →
    ∃ (i : ℕ) (v v' : ℤ × ℤ), sig[i]? = some v ∧ sig'[i]? = some v' ∧ v.1 % l ≠ v'.1 % l
  | [], [], _, h => absurd rfl h
  | [], _ :: _, h, _ => by simp at h
  | _ :: _, [], h, _ => by simp at h
  | v :: sig, v' :: sig', hl, h => by
    by_cases hv : v.1 % l = v'.1 % l
    · have : (sig.map (·.1)).sum % l ≠ (sig'.map (·.1)).sum % l := by
        intro e
        apply h
        simp only [List.map_cons, List.sum_cons]
        rw [Int.add_emod, hv, e, ← Int.add_emod]
      obtain ⟨i, w, w', h1, h2, h3⟩ := sum_differs sig sig' (by simpa using hl) this
      exact ⟨i + 1, w, w', by simpa using h1, by simpa using h2, h3⟩
    · exact ⟨0, v, v', rfl, rfl, hv⟩

theorem ringData_torsion (H : Bytes → Bytes) (I T : Point) (hT : (8 : ℤ) • T = 0) : ∀ (ps : List Point) (sig : List (ℤ × ℤ)),
    (∀ v ∈ sig, v.1 % 8 = 0) → ringData H (I + T) ps sig = ringData H I ps sig
  | [], _, _ => by simp [ringData]
  | _ :: _, [], _ => by simp [ringData]
  | P :: ps, (c, r) :: sig, h => by
    rw [ringData_cons, ringData_cons, ringData_torsion H I T hT ps sig (fun v hv => h v (List.mem_cons_of_mem _ hv))]
    have hc : c % 8 = 0 := h (c, r) (List.mem_cons_self ..)
    have : c • T = 0 := by
      rw [show c = c / 8 * 8 by omega, mul_zsmul, hT, zsmul_zero]
    rw [zsmul_add, this, add_zero]

/-! ## Columns of MLSAG -/

theorem colDs_inj {H H' : Bytes → Bytes} (hf : Fork H H') (c c' : ℤ) (tail tail' : Bytes) : ∀ (ps : List Point) (ss ss' : List ℤ) (is : List Point),
    ss.length = ps.length → ss'.length = ps.length → is.length = ps.length → colDs H c ps ss is ++ tail = colDs H' c' ps ss' is ++ tail' →
    tail = tail' ∧ ∀ (j : ℕ) (P I : Point) (s s' : ℤ), ps[j]? = some P → is[j]? = some I → ss[j]? = some s → ss'[j]? = some s' →
      c • P + s • base = c' • P + s' • base ∧ c • I + s • hpt H (encPt P) = c' • I + s' • hpt H (encPt P)
  | [], [], [], [], _, _, _, h => by
    simp only [colDs, List.nil_append] at h
    exact ⟨h, fun j P _ _ _ hP => by simp at hP⟩
  | [], _ :: _, _, _, h, _, _, _ => by simp at h
  | [], [], _ :: _, _, _, h, _, _ => by simp at h
  | [], [], [], _ :: _, _, _, h, _ => by simp at h
  | _ :: _, [], _, _, h, _, _, _ => by simp at h
  | _ :: _, _ :: _, [], _, _, h, _, _ => by simp at h
  | _ :: _, _ :: _, _ :: _, [], _, _, h, _ => by simp at h
  | P :: ps, s :: ss, s' :: ss', I :: is, h1, h2, h3, h => by
    rw [colDs, colDs] at h
    simp only [List.append_assoc] at h
    obtain ⟨-, h⟩ := enc_append_inj h
    obtain ⟨e1, h⟩ := enc_append_inj h
    obtain ⟨e2, h⟩ := enc_append_inj h
    obtain ⟨ht, ih⟩ := colDs_inj hf c c' tail tail' ps ss ss' is (by simpa using h1) (by simpa using h2) (by simpa using h3) h
    refine ⟨ht, fun j Q J t t' hQ hJ ht ht' => ?_⟩
    cases j with
    | zero =>
      simp only [List.getElem?_cons_zero, Option.some.injEq] at hQ hJ ht ht'
      subst hQ hJ ht ht'
      rw [hp_fork hf] at e2
      exact ⟨by rw [add_comm, e1, add_comm], by rw [add_comm, e2, add_comm]⟩
    | succ j =>
      simp only [List.getElem?_cons_succ] at hQ hJ ht ht'
      exact ih j Q J t t' hQ hJ ht ht'

theorem colPlain_inj (c c' : ℤ) : ∀ (ps : List Point) (ss ss' : List ℤ), ss.length = ps.length → ss'.length = ps.length →
    colPlain c ps ss = colPlain c' ps ss' →
    ∀ (j : ℕ) (P : Point) (s s' : ℤ), ps[j]? = some P → ss[j]? = some s → ss'[j]? = some s' → c • P + s • base = c' • P + s' • base
  | [], _, _, _, _, _, j, P, _, _, hP, _, _ => by simp at hP
  | _ :: _, [], _, h, _, _, _, _, _, _, _, _, _ => by simp at h
  | _ :: _, _ :: _, [], _, h, _, _, _, _, _, _, _, _ => by simp at h
  | P :: ps, s :: ss, s' :: ss', h1, h2, h, j, Q, t, t', hQ, ht, ht' => by
    rw [colPlain, colPlain] at h
    simp only [List.append_assoc] at h
    obtain ⟨-, h⟩ := enc_append_inj h
    obtain ⟨e1, h⟩ := enc_append_inj h
    cases j with
    | zero =>
      simp only [List.getElem?_cons_zero, Option.some.injEq] at hQ ht ht'
      subst hQ ht ht'
      rw [add_comm, e1, add_comm]
    | succ j =>
      simp only [List.getElem?_cons_succ] at hQ ht ht'
      exact colPlain_inj c c' ps ss ss' (by simpa using h1) (by simpa using h2) h j Q t t' hQ ht ht'

/-! ## Borromean signatures -/

end Verif.Sig
