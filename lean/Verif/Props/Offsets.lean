import Verif.Model.Offsets
import Mathlib.Data.List.Induction

/-! C32: ring offsets. -/

namespace Verif.Offsets

/-- What the network does with relative offsets: running sums. -/
def runningSums : Int → List Int → List Int
  | _, [] => []
  | acc, x :: xs => (acc + x) :: runningSums (acc + x) xs

theorem runningSums_diffs (prev : Int) (l : List Int) : runningSums prev (diffs prev l) = l := by
  induction l generalizing prev with
  | nil => rfl
  | cons x xs ih =>
    have h : prev + (x - prev) = x := by omega
    simp only [diffs, runningSums, h, ih x]

/-- C32. Summing the relative offsets up gives the offsets in ascending order: the same ring members, nothing lost. -/
theorem C32_roundtrip (off : List Int) : (runningSums 0 (toRelative off)).Pairwise (· ≤ ·) ∧
    (runningSums 0 (toRelative off)).Perm off := by
  have h : runningSums 0 (toRelative off) = off.mergeSort (fun a b => decide (a ≤ b)) := by
    unfold toRelative
    cases off.mergeSort (fun a b => decide (a ≤ b)) with
    | nil => rfl
    | cons x xs => simp only [runningSums]; rw [Int.zero_add, runningSums_diffs]
  rw [h]
  refine ⟨?_, List.mergeSort_perm _ _⟩
  have := List.pairwise_mergeSort (le := fun (a b : Int) => decide (a ≤ b))
    (by intro a b c; simp only [decide_eq_true_eq]; omega) (by intro a b; simp only [Bool.or_eq_true, decide_eq_true_eq]; omega) off
  exact this.imp (fun h => by simpa using h)

/-- C32. Sorted offsets come back unchanged. -/
theorem C32_roundtrip_sorted (off : List Int) (h : off.Pairwise (· ≤ ·)) : runningSums 0 (toRelative off) = off := by
  obtain ⟨h1, h2⟩ := C32_roundtrip off
  exact h2.eq_of_pairwise (fun a b _ _ => le_antisymm) h1 h

theorem diffs_nonneg {prev : Int} {l : List Int} (h : (prev :: l).Pairwise (· ≤ ·)) : ∀ d ∈ diffs prev l, 0 ≤ d := by
  induction l generalizing prev with
  | nil => simp [diffs]
  | cons x xs ih =>
    intro d hd
    rw [List.pairwise_cons] at h
    rcases List.mem_cons.1 hd with rfl | hd
    · have := h.1 x (List.mem_cons_self ..); omega
    · exact ih h.2 d hd

theorem diffs_pos {prev : Int} {l : List Int} (h : (prev :: l).Pairwise (· < ·)) : ∀ d ∈ diffs prev l, 0 < d := by
  induction l generalizing prev with
  | nil => simp [diffs]
  | cons x xs ih =>
    intro d hd
    rw [List.pairwise_cons] at h
    rcases List.mem_cons.1 hd with rfl | hd
    · have := h.1 x (List.mem_cons_self ..); omega
    · exact ih h.2 d hd

/-- C32. No relative offset is negative (so all of them can be written as unsigned integers), and there are as many as ring members. -/
theorem C32_nonneg (off : List Int) (h : ∀ o ∈ off, 0 ≤ o) :
    (∀ d ∈ toRelative off, 0 ≤ d) ∧ (toRelative off).length = off.length := by
  have hperm := List.mergeSort_perm off (fun a b => decide (a ≤ b))
  have hs := List.pairwise_mergeSort (le := fun (a b : Int) => decide (a ≤ b))
    (by intro a b c; simp only [decide_eq_true_eq]; omega) (by intro a b; simp only [Bool.or_eq_true, decide_eq_true_eq]; omega) off
  have hs' := hs.imp (S := (· ≤ ·)) (fun h => by simpa using h)
  have hdl : ∀ (p : Int) (l : List Int), (diffs p l).length = l.length := by
    intro p l
    induction l generalizing p with
    | nil => rfl
    | cons x xs ih => simp [diffs, ih]
  unfold toRelative
  revert hperm hs'
  cases off.mergeSort (fun a b => decide (a ≤ b)) with
  | nil => intro hp _; exact ⟨by simp, hp.length_eq⟩
  | cons x xs =>
    intro hp hs'
    refine ⟨?_, by rw [← hp.length_eq]; simp [hdl]⟩
    intro d hd
    rcases List.mem_cons.1 hd with rfl | hd
    · exact h d (hp.subset (List.mem_cons_self ..))
    · exact diffs_nonneg hs' d hd

/-- C32. Different ring members give positive differences: no member is repeated on the wire. -/
theorem C32_distinct (off : List Int) (h : off.Nodup) : ∀ d ∈ (toRelative off).tail, 0 < d := by
  have hperm := List.mergeSort_perm off (fun a b => decide (a ≤ b))
  have hs := List.pairwise_mergeSort (le := fun (a b : Int) => decide (a ≤ b))
    (by intro a b c; simp only [decide_eq_true_eq]; omega) (by intro a b; simp only [Bool.or_eq_true, decide_eq_true_eq]; omega) off
  have hs' := hs.imp (S := (· ≤ ·)) (fun h => by simpa using h)
  have hnd : (off.mergeSort (fun a b => decide (a ≤ b))).Nodup := hperm.symm.nodup h
  have hlt := hs'.and hnd
  have hlt' := hlt.imp (S := (· < ·)) (fun h => lt_of_le_of_ne h.1 h.2)
  unfold toRelative
  revert hlt'
  cases off.mergeSort (fun a b => decide (a ≤ b)) with
  | nil => intro _ d hd; simp at hd
  | cons x xs => intro hl d hd; exact diffs_pos hl d hd

/-- The loop as written: from the end towards the front, `res[i] -= res[i-1]`. -/
def inPlace : Nat → List Int → List Int
  | 0, res => res
  | i + 1, res => inPlace i (res.set (i + 1) (res.getD (i + 1) 0 - res.getD i 0))

theorem inPlace_append (i : Nat) (a b : List Int) (h : i < a.length) : inPlace i (a ++ b) = inPlace i a ++ b := by
  induction i generalizing a with
  | zero => rfl
  | succ i ih =>
    unfold inPlace
    have e1 : (a ++ b).getD (i + 1) 0 = a.getD (i + 1) 0 := by
      simp [List.getD_eq_getElem?_getD, List.getElem?_append_left h]
    have e2 : (a ++ b).getD i 0 = a.getD i 0 := by
      simp [List.getD_eq_getElem?_getD, List.getElem?_append_left (show i < a.length by omega)]
    rw [e1, e2, List.set_append_left _ _ h, ih _ (by simp; omega)]

theorem diffs_concat (p : Int) (l : List Int) (y : Int) : diffs p (l ++ [y]) = diffs p l ++ [y - (p :: l).getLast (by simp)] := by
  induction l generalizing p with
  | nil => simp [diffs]
  | cons x xs ih => simp [diffs, ih x]

/-- The loop as written computes the model's differences. -/
theorem inPlace_eq (x : Int) (xs : List Int) : inPlace xs.length (x :: xs) = x :: diffs x xs := by
  induction xs using List.reverseRecOn with
  | nil => rfl
  | append_singleton xs y ih =>
    rw [List.length_append, List.length_singleton]
    unfold inPlace
    have e1 : (x :: (xs ++ [y])).getD (xs.length + 1) 0 = y := by
      simp [List.getD_eq_getElem?_getD]
    have e2 : (x :: (xs ++ [y])).getD xs.length 0 = (x :: xs).getLast (by simp) := by
      rw [← List.cons_append, List.getD_eq_getElem?_getD, List.getElem?_append_left (by simp), List.getLast_eq_getElem]
      simp
    rw [e1, e2, ← List.cons_append]
    rw [List.set_append_right _ _ (by simp)]
    simp only [List.length_cons, Nat.sub_self, List.set_cons_zero]
    rw [inPlace_append _ _ _ (by simp), ih, diffs_concat]
    simp

example : toRelative [7, 3, 12] = [3, 4, 5] := by
  simp [toRelative, List.mergeSort, List.MergeSort.Internal.splitInTwo, List.splitAt, List.splitAt.go, List.merge, diffs]

end Verif.Offsets
