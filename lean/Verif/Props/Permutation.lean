import Verif.Lemmas.Permutation

/-! C33: permuting the inputs. -/

namespace Verif.Common
open Verif

/-- C33. The checker accepts exactly the rearrangements of `0 … n-1`. -/
theorem C33_checker (p : List Nat) : checkPermutation p = true ↔ p.Perm (List.range p.length) := checkPermutation_iff p

/-- C33. Anything else makes the host's permuting fail before anything is swapped. -/
theorem C33_invalid_rejected (p : List Nat) (h : ¬ p.Perm (List.range p.length)) (fuel : Nat) :
    applyPermutation fuel p = none := by
  unfold applyPermutation
  rw [if_neg]
  rw [checkPermutation_iff]; exact h

/-- C33. For a valid permutation the procedure terminates with a sequence of swaps that depends on the permutation only and moves, in
every list of that length, element `p[j]` to place `j`. So all per-input lists stay aligned. -/
theorem C33_apply {p : List Nat} (hp : p.Perm (List.range p.length)) :
    ∃ calls, (∀ fuel, p.length < fuel → applyPermutation fuel p = some calls) ∧
      ∀ (α : Type) (l : List α), l.length = p.length → (doSwaps calls l).length = l.length ∧
        (∀ j, j < p.length → (doSwaps calls l)[j]? = (p[j]?).bind (l[·]?)) ∧ (doSwaps calls l).Perm l := by
  obtain ⟨calls, hc, _⟩ := applyPermutation_ok hp (l := p) rfl (Nat.lt_succ_self _)
  have hmono : ∀ fuel, p.length < fuel → applyPermutation fuel p = some calls := by
    intro fuel hf
    obtain ⟨c2, h2, _⟩ := applyPermutation_ok hp (l := p) rfl hf
    have hcyc : ∀ (i f k : Nat) (perm : List Nat) (cur : Nat) (cs : List (Nat × Nat)) r, cycle i f perm cur cs = some r →
        cycle i (f + k) perm cur cs = some r := by
      intro i f
      induction f with
      | zero => intro k perm cur cs r h; simp [cycle] at h
      | succ f ih =>
        intro k perm cur cs r h
        rw [Nat.add_right_comm]
        unfold cycle at h ⊢
        split
        · simp_all
        · rename_i nxt hn
          rw [hn] at h
          simp only at h
          split
          · rename_i hne; rw [if_pos hne] at h; exact ih k _ _ _ _ h
          · rename_i hne; rw [if_neg hne] at h; exact h
    have hcycs : ∀ (f k : Nat) (is perm : List Nat) (cs : List (Nat × Nat)) r, cycles f is perm cs = some r →
        cycles (f + k) is perm cs = some r := by
      intro f k is
      induction is with
      | nil => intro perm cs r h; exact h
      | cons i is ih =>
        intro perm cs r h
        unfold cycles at h ⊢
        cases hx : cycle i f perm i cs with
        | none => rw [hx] at h; simp at h
        | some x => rw [hx] at h; rw [hcyc _ _ k _ _ _ _ hx]; exact ih _ _ _ h
    have happ : ∀ (f k : Nat) c, applyPermutation f p = some c → applyPermutation (f + k) p = some c := by
      intro f k c h
      unfold applyPermutation at h ⊢
      split at h
      · rename_i hck
        rw [if_pos hck]
        cases hx : cycles f (List.range p.length) p [] with
        | none => rw [hx] at h; simp at h
        | some x => rw [hx] at h; rw [hcycs _ k _ _ _ _ hx]; exact h
      · simp at h
    have a := happ _ fuel _ hc
    have b := happ _ (p.length + 1) _ h2
    rw [Nat.add_comm, a] at b
    simp at b
    rw [h2, b]
  refine ⟨calls, hmono, ?_⟩
  intro α l hl
  obtain ⟨c2, h2, h3⟩ := applyPermutation_ok hp hl (Nat.lt_succ_self _)
  rw [hmono _ (Nat.lt_succ_self _)] at h2
  simp at h2; subst h2
  refine ⟨length_doSwaps _ _, h3, ?_⟩
  -- the swaps rearrange
  have : ∀ (cs : List (Nat × Nat)) (l : List α), (doSwaps cs l).Perm l := by
    intro cs
    induction cs with
    | nil => intro l; exact List.Perm.refl _
    | cons c cs ih =>
      intro l
      refine (ih (swapAt l c.1 c.2)).trans ?_
      unfold swapAt
      split
      · rename_i a b ha hb
        obtain ⟨hx, rfl⟩ := List.getElem?_eq_some_iff.1 ha
        obtain ⟨hy, rfl⟩ := List.getElem?_eq_some_iff.1 hb
        exact List.set_set_perm hx hy
      · exact List.Perm.refl _
  exact this _ _

/-- C33. Sorting by key image: the permutation the host computes is valid; applied to the key images it gives them in
descending order, with equal ones in their original order. -/
theorem C33_sorted (kis : List Bytes) :
    (sortPermutation kis).Perm (List.range (sortPermutation kis).length) ∧
      ∃ calls, (∀ fuel, kis.length < fuel → applyPermutation fuel (sortPermutation kis) = some calls) ∧
        (doSwaps calls kis).Pairwise (fun a b => b ≤ a) ∧ (doSwaps calls kis).Perm kis ∧
        ∀ (α : Type) (l : List α), l.length = kis.length → ∀ j, j < kis.length →
          ∃ o, o < kis.length ∧ (doSwaps calls kis)[j]? = kis[o]? ∧ (doSwaps calls l)[j]? = l[o]? := by
  have hlen : (sortPermutation kis).length = kis.length := by simp [sortPermutation]
  have hp : (sortPermutation kis).Perm (List.range (sortPermutation kis).length) := by
    rw [hlen]; exact List.mergeSort_perm _ _
  refine ⟨hp, ?_⟩
  obtain ⟨calls, h1, h2⟩ := C33_apply hp
  obtain ⟨q1, q2, q3⟩ := h2 _ kis hlen.symm
  refine ⟨calls, fun f hf => h1 f (by omega), ?_, q3, ?_⟩
  · have hs : (sortPermutation kis).Pairwise (fun a b => decide (kis.getD b [] ≤ kis.getD a []) = true) := by
      apply List.pairwise_mergeSort
      · intro a b c h h'
        simp only [decide_eq_true_eq] at h h' ⊢
        exact List.le_trans h' h
      · intro a b
        simp only [Bool.or_eq_true, decide_eq_true_eq]
        exact List.le_total _ _
    have heq : doSwaps calls kis = (sortPermutation kis).map (fun o => kis.getD o []) := by
      apply List.ext_getElem?
      intro j
      by_cases hj : j < (sortPermutation kis).length
      · rw [q2 j hj, List.getElem?_map, List.getElem?_eq_getElem hj]
        have hlt : (sortPermutation kis)[j] < kis.length := by
          have := hp.subset (List.getElem_mem hj)
          rw [hlen] at this; simpa using this
        simp [List.getElem?_eq_getElem hlt]
      · rw [List.getElem?_eq_none (by omega), List.getElem?_eq_none (by simp; omega)]
    rw [heq, List.pairwise_map]
    exact hs.imp (fun h => by simpa using h)
  · intro α l hl j hj
    obtain ⟨_, r2, _⟩ := h2 α l (by omega)
    have hj' : j < (sortPermutation kis).length := by omega
    refine ⟨(sortPermutation kis)[j], ?_, ?_, ?_⟩
    · have := hp.subset (List.getElem_mem hj')
      rw [hlen] at this; simpa using this
    · rw [q2 j hj', List.getElem?_eq_getElem hj']; rfl
    · rw [r2 j hj', List.getElem?_eq_getElem hj']; rfl

example : applyPermutation 5 [2, 0, 3, 1] = some [(0, 2), (2, 3), (3, 1)] ∧
    doSwaps [(0, 2), (2, 3), (3, 1)] ["a", "b", "c", "d"] = ["c", "a", "d", "b"] := by decide
example : checkPermutation [2, 0, 2] = false ∧ applyPermutation 9 [2, 0, 2] = none := by decide
example : sortPermutation [[3], [9, 1]] = [1, 0] := by
  have h : ¬ (([9, 1] : Bytes) ≤ [3]) := by decide
  simp [sortPermutation, List.range, List.range.loop, List.mergeSort, List.MergeSort.Internal.splitInTwo, List.splitAt,
    List.splitAt.go, List.merge, h]

end Verif.Common
