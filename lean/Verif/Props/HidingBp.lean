import Verif.Lemmas.HidingBpMove

/-!
C111: a Bulletproof says nothing about the amounts when the scalars behind it are drawn at random.  (That the code draws the blinding scalars from
constant seeds is C45.)
-/

namespace Verif.Bp
open Verif Ed

instance (n : ℕ) : Finite (BpTape n) := by
  refine Finite.of_injective (β := (Fin n → Fl) × Fl × Fl × Fl × Fl × (Fin (2 ^ logM n * 64) → Fl) × (Fin (2 ^ logM n * 64) → Fl))
    (fun t => (t.masks, t.alpha, t.rho, t.tau1, t.tau2, t.sL, t.sR)) ?_
  rintro ⟨m, a, r, t1, t2, sL, sR⟩ ⟨m', a', r', t1', t2', sL', sR'⟩ h
  simp only [Prod.mk.injEq] at h
  obtain ⟨h1, h2, h3, h4, h5, h6, h7⟩ := h
  rw [h1, h2, h3, h4, h5, h6, h7]

theorem card_le (H : Bytes → Bytes) {n : ℕ} (h32 : n ≤ 32) {amounts amounts' : List ℕ} (hl : amounts.length = n) (hl' : amounts'.length = n)
    (hv : ∀ a ∈ amounts, a < 2 ^ 64) (hv' : ∀ a ∈ amounts', a < 2 ^ 64) (π : Proof) :
    Nat.card {t : BpTape n // made H amounts t = some π} ≤ Nat.card {t : BpTape n // made H amounts' t = some π} := by
  subst hl
  refine Nat.card_le_card_of_injective
    (fun t => ⟨moved H (amounts.map fun a : ℕ => (a : ℤ)) (amounts'.map fun a : ℕ => (a : ℤ)) π t.1, moved_made hl' h32 hv hv' t.2⟩) ?_
  intro t t' h
  exact Subtype.ext (moved_injective H _ _ π (congrArg Subtype.val h))

/-- C111: for any two lists of the same number of amounts (at most 32, each below `2 ^ 64`) and any proof whatsoever, commitments included, exactly as
many of the (finitely many) random choices lead the prover to this proof for the first list as for the second.  So when the choices are drawn uniformly
the proof is as likely for the one list as for the other. -/
theorem C111_hidden (H : Bytes → Bytes) {n : ℕ} (h32 : n ≤ 32) {amounts amounts' : List ℕ} (hl : amounts.length = n) (hl' : amounts'.length = n)
    (hv : ∀ a ∈ amounts, a < 2 ^ 64) (hv' : ∀ a ∈ amounts', a < 2 ^ 64) (π : Proof) :
    Finite (BpTape n) ∧
    Nat.card {t : BpTape n // made H amounts t = some π} = Nat.card {t : BpTape n // made H amounts' t = some π} :=
  ⟨inferInstance, le_antisymm (card_le H h32 hl hl' hv hv' π) (card_le H h32 hl' hl hv' hv π)⟩

/-- C111: the same for anything that is computed from the proof, and for a failure of the prover (a challenge that is zero): every outcome of a test on
what the prover returns has the same number of choices behind it, whatever the amounts. -/
theorem C111_tests (H : Bytes → Bytes) {n : ℕ} (h32 : n ≤ 32) {amounts amounts' : List ℕ} (hl : amounts.length = n) (hl' : amounts'.length = n)
    (hv : ∀ a ∈ amounts, a < 2 ^ 64) (hv' : ∀ a ∈ amounts', a < 2 ^ 64) (test : Option Proof → Prop) :
    Nat.card {t : BpTape n // test (made H amounts t)} = Nat.card {t : BpTape n // test (made H amounts' t)} := by
  classical
  haveI := Fintype.ofFinite (BpTape n)
  have count : ∀ (L : List ℕ) (o : Option Proof), Nat.card {t : BpTape n // made H L t = o} = (Finset.univ.filter fun t : BpTape n => made H L t = o).card := by
    intro L o
    rw [Nat.card_eq_fintype_card, Fintype.card_subtype]
  have some' : ∀ π : Proof, (Finset.univ.filter fun t : BpTape n => made H amounts t = some π).card =
      (Finset.univ.filter fun t : BpTape n => made H amounts' t = some π).card := fun π => by
    rw [← count, ← count]; exact (C111_hidden H h32 hl hl' hv hv' π).2
  -- the proofs that occur
  let S : Finset (Option Proof) := (Finset.univ.image fun t : BpTape n => made H amounts t) ∪ Finset.univ.image fun t : BpTape n => made H amounts' t
  have total : ∀ L : List ℕ, (∀ t : BpTape n, made H L t ∈ S) → ∀ p : Option Proof → Prop,
      (Finset.univ.filter fun t : BpTape n => p (made H L t)).card = ∑ o ∈ S.filter p, (Finset.univ.filter fun t : BpTape n => made H L t = o).card := by
    intro L hL p
    rw [Finset.card_eq_sum_card_fiberwise (f := fun t => made H L t) (t := S.filter p)
      (fun t ht => by
        have := (Finset.mem_filter.mp (Finset.mem_coe.mp ht)).2
        exact Finset.mem_coe.mpr (Finset.mem_filter.mpr ⟨hL t, this⟩))]
    refine Finset.sum_congr rfl fun o ho => ?_
    congr 1
    ext t
    simp only [Finset.mem_filter, Finset.mem_univ, true_and]
    constructor
    · exact fun h => h.2
    · exact fun h => ⟨h ▸ (Finset.mem_filter.mp ho).2, h⟩
  have m1 : ∀ t : BpTape n, made H amounts t ∈ S := fun t => Finset.mem_union_left _ (Finset.mem_image_of_mem _ (Finset.mem_univ t))
  have m2 : ∀ t : BpTape n, made H amounts' t ∈ S := fun t => Finset.mem_union_right _ (Finset.mem_image_of_mem _ (Finset.mem_univ t))
  obtain ⟨isProof, hP⟩ : ∃ p : Option Proof → Prop, ∀ o, p o ↔ o ≠ none := ⟨_, fun o => Iff.rfl⟩
  have good : (Finset.univ.filter fun t : BpTape n => isProof (made H amounts t)).card =
      (Finset.univ.filter fun t : BpTape n => isProof (made H amounts' t)).card := by
    rw [total amounts m1 isProof, total amounts' m2 isProof]
    refine Finset.sum_congr rfl fun o ho => ?_
    obtain ⟨π, rfl⟩ := Option.ne_none_iff_exists'.mp ((hP o).mp (Finset.mem_filter.mp ho).2)
    exact some' π
  have compl : ∀ L : List ℕ, (Finset.univ.filter fun t : BpTape n => made H L t = none).card +
      (Finset.univ.filter fun t : BpTape n => isProof (made H L t)).card = Fintype.card (BpTape n) := by
    intro L
    rw [← Finset.card_univ, ← Finset.card_filter_add_card_filter_not (s := Finset.univ) (p := fun t : BpTape n => made H L t = none)]
    congr 2
    ext t
    simp [hP]
  have none' : (Finset.univ.filter fun t : BpTape n => made H amounts t = none).card = (Finset.univ.filter fun t : BpTape n => made H amounts' t = none).card := by
    have a := compl amounts
    have b := compl amounts'
    omega
  rw [Nat.card_eq_fintype_card, Nat.card_eq_fintype_card, Fintype.card_subtype, Fintype.card_subtype, total amounts m1 test, total amounts' m2 test]
  refine Finset.sum_congr rfl fun o _ => ?_
  cases o with
  | none => exact none'
  | some π => exact some' π

/-- The counts are not all zero: a proof for 7 and 2⁶⁴ - 1, which is as likely for 0 and 1. -/
example : ∃ π, (∃ t : BpTape 2, made oneH [7, 2 ^ 64 - 1] t = some π) ∧ Nat.card {t : BpTape 2 // made oneH [7, 2 ^ 64 - 1] t = some π} ≠ 0 ∧
    Nat.card {t : BpTape 2 // made oneH [7, 2 ^ 64 - 1] t = some π} = Nat.card {t : BpTape 2 // made oneH [0, 1] t = some π} := by
  let t : BpTape 2 := ⟨fun i => i.val, 3, 4, 5, 6, fun i => i.val, fun i => 2 * i.val⟩
  obtain ⟨π, h, -⟩ := C44_produces oneH oneH_ne t.rand (fun i => readAt_nn _ i) (fun i => readAt_nn _ i) [7, 2 ^ 64 - 1] t.gamma (by simp) (by simp)
    (by rw [BpTape.gamma, List.length_ofFn]; rfl) (by simp)
  refine ⟨π, ⟨t, h⟩, ?_, (C111_hidden oneH (n := 2) (amounts := [7, 2 ^ 64 - 1]) (amounts' := [0, 1]) (by omega) rfl rfl (by simp) (by simp) π).2⟩
  haveI : Nonempty {t : BpTape 2 // made oneH [7, 2 ^ 64 - 1] t = some π} := ⟨⟨t, h⟩⟩
  exact Nat.card_pos.ne'

end Verif.Bp
