import Verif.Spec.Asnl
import Verif.Lemmas.Borromean

/-! Helper lemmas for C102. -/

namespace Verif.Sig
open Verif Ed Key Edwards

theorem rep_L2 {P2 L1 : Ext} {p2 l1 : Point} (H : Bytes → Bytes) (s2 : ℤ) (h2 : Rep P2 p2) (h3 : Rep L1 l1) :
    hs H (encodePoint (add (scalarmultB s2) (smul P2 (hs H (encodePoint L1))))) = challenge1 H p2 l1 s2 := by
  unfold challenge1 challenge2
  rw [encodePoint_rep h3, encodePoint_rep (rep_add (rep_B s2) (rep_smul h2 (hs_range H (encPt l1)).1))]

theorem loop_rep (H : Bytes → Bytes) {p1s p2s l1s : List Ext} {t : List ℤ} {rows : List Row} (h : RepRows p1s p2s l1s t rows) :
    ∀ {A B : Ext} {a b : Point}, Rep A a → Rep B b → ∃ A' B', asnlLoop H p1s p2s l1s t (A, B) = some (A', B') ∧
      Rep A' (a + (rows.map fun r => r.2.2.1).sum) ∧ Rep B' (b + (rows.map fun r => challenge1 H r.2.1 r.2.2.1 r.2.2.2 • r.1).sum) := by
  induction h with
  | nil => intro A B a b hA hB; exact ⟨A, B, by rw [asnlLoop], by simpa using hA, by simpa using hB⟩
  | @cons P1 P2 L1 p1 p2 l1 _ _ _ _ rows s2 h1 h2 h3 h ih =>
    intro A B a b hA hB
    obtain ⟨A', B', e, r1, r2⟩ := ih (rep_add hA h3) (rep_add hB (rep_smul h1 (hs_range H _).1))
    refine ⟨A', B', ?_, ?_, ?_⟩
    · rw [asnlLoop]; exact e
    · rw [List.map_cons, List.sum_cons, ← add_assoc]; exact r1
    · rw [rep_L2 H s2 h2 h3] at r2
      rw [List.map_cons, List.sum_cons, ← add_assoc]; exact r2

theorem debt_rep (H : Bytes → Bytes) {p1s p2s l1s : List Ext} {t : List ℤ} {rows : List Row} (h : RepRows p1s p2s l1s t rows) :
    ∀ {A : Ext} {a : Point}, Rep A a → Rep (debt H p1s p2s l1s t A)
      (a + ((rows.map fun r => challenge1 H r.2.1 r.2.2.1 r.2.2.2 • r.1).sum - (rows.map fun r => r.2.2.1).sum)) := by
  induction h with
  | nil => intro A a hA; simpa [debt] using hA
  | @cons P1 P2 L1 p1 p2 l1 _ _ _ _ rows s2 h1 h2 h3 h ih =>
    intro A a hA
    have := ih (rep_sub (rep_add hA (rep_smul h1 (hs_range H (encodePoint (add (scalarmultB s2) (smul P2 (hs H (encodePoint L1)))))).1)) h3)
    rw [debt, List.map_cons, List.sum_cons, List.map_cons, List.sum_cons]
    refine (congrArg (Rep _) ?_).mp this
    rw [rep_L2 H s2 h2 h3]
    abel

theorem verAsnl_iff (H : Bytes → Bytes) {p1s p2s : List Ext} {sig : AsnlSig} {rows : List Row} (h : RepRows p1s p2s sig.L1 sig.s2 rows) :
    verAsnl H p1s p2s sig = some true ↔ SumCloses H rows sig.s := by
  obtain ⟨A, B, e, r1, r2⟩ := loop_rep H h (rep_B 0) (rep_B sig.s)
  unfold verAsnl
  rw [e]
  have hA : isOnCurve A = true := (isOnCurve_iff A).mpr ⟨_, r1⟩
  rw [zero_smul, zero_add] at r1
  simp only [pointEq, hA, if_true, Option.some.injEq]
  exact pointEqual_iff r1 r2

end Verif.Sig
