import Verif.Model.Common
import Mathlib.Data.List.Perm.Basic
import Mathlib.Data.Finset.Card
import Mathlib.Data.Finset.Range
import Mathlib.Data.Fintype.Card
import Mathlib.Data.List.NodupEquivFin
import Mathlib.Data.List.Range

/-! Cycle walking of `apply_permutation`. -/

namespace Verif.Common

/-- Transposition on numbers. -/
def sw (x y v : Nat) : Nat := if v = x then y else if v = y then x else v

theorem sw_sw (x y v : Nat) : sw x y (sw x y v) = v := by unfold sw; split_ifs <;> simp_all

theorem sw_inj {x y v w : Nat} (h : sw x y v = sw x y w) : v = w := by
  rw [← sw_sw x y v, h, sw_sw]

theorem sw_lt {n x y v : Nat} (hx : x < n) (hy : y < n) (hv : v < n) : sw x y v < n := by
  unfold sw; split_ifs <;> omega

theorem getElem?_swapAt {α : Type} {l : List α} {x y : Nat} (hx : x < l.length) (hy : y < l.length) (j : Nat) :
    (swapAt l x y)[j]? = l[sw x y j]? := by
  unfold swapAt
  rw [List.getElem?_eq_getElem hx, List.getElem?_eq_getElem hy]
  simp only [List.getElem?_set, List.length_set]
  unfold sw
  by_cases h1 : j = x
  · subst h1
    by_cases h2 : y = j
    · subst h2; simp [hy]
    · rw [if_neg h2, if_pos rfl, if_pos rfl, if_pos hx, List.getElem?_eq_getElem hy]
  · by_cases h2 : j = y
    · subst h2
      rw [if_pos rfl, if_neg h1, if_pos rfl, if_pos (by simpa using hy), List.getElem?_eq_getElem hx]
    · rw [if_neg (Ne.symm h2), if_neg (Ne.symm h1), if_neg h1, if_neg h2]

theorem length_swapAt {α : Type} (l : List α) (x y : Nat) : (swapAt l x y).length = l.length := by
  unfold swapAt; split <;> simp

theorem length_doSwaps {α : Type} (calls : List (Nat × Nat)) (l : List α) : (doSwaps calls l).length = l.length := by
  induction calls generalizing l with
  | nil => rfl
  | cons c calls ih => exact (ih _).trans (length_swapAt ..)

theorem doSwaps_append {α : Type} (a b : List (Nat × Nat)) (l : List α) : doSwaps (a ++ b) l = doSwaps b (doSwaps a l) := by
  simp [doSwaps]

/-- Numbers moved by `σ`. -/
def moved (n : Nat) (σ : Nat → Nat) : Finset Nat := (Finset.range n).filter fun j => σ j ≠ j

/-- State between two calls: `σ` is the permutation still to be done. -/
structure CInv {α : Type} (n : Nat) (l : List α) (p0 : List Nat) (i cur : Nat) (perm : List Nat) (calls : List (Nat × Nat))
    (σ : Nat → Nat) : Prop where
  len : perm.length = n
  cur_lt : cur < n
  i_lt : i < n
  maps : ∀ j, j < n → σ j < n
  inj : ∀ j k, j < n → k < n → σ j = σ k → j = k
  perm_eq : ∀ j, j < n → perm[j]? = some (if σ j = cur then i else σ j)
  fix : cur = i ∨ σ i = i
  data : ∀ j, j < n → (doSwaps calls l)[σ j]? = (p0[j]?).bind (l[·]?)
  done : ∀ j, j < i → σ j = j

theorem cycle_ok {α : Type} {n : Nat} {l : List α} (hl : l.length = n) {p0 : List Nat} {i : Nat} :
    ∀ (fuel cur : Nat) (perm : List Nat) (calls : List (Nat × Nat)) (σ : Nat → Nat),
    CInv n l p0 i cur perm calls σ → (moved n σ).card < fuel →
    ∃ (perm' : List Nat) (calls' : List (Nat × Nat)) (σ' : Nat → Nat), cycle i fuel perm cur calls = some (perm', calls') ∧ perm'.length = n ∧
      (∀ j, j < n → σ' j < n) ∧ (∀ j k, j < n → k < n → σ' j = σ' k → j = k) ∧
      (∀ j, j < n → perm'[j]? = some (σ' j)) ∧
      (∀ j, j < n → (doSwaps calls' l)[σ' j]? = (p0[j]?).bind (l[·]?)) ∧ (∀ j, j < i + 1 → σ' j = j) := by
  intro fuel
  induction fuel with
  | zero => intro cur perm calls σ _ h; omega
  | succ fuel ih =>
    intro cur perm calls σ hI hf
    unfold cycle
    have hpc := hI.perm_eq cur hI.cur_lt
    rw [hpc]
    simp only
    by_cases hfix : σ cur = cur
    · -- the cycle is closed
      rw [if_pos hfix, if_neg (by simp)]
      refine ⟨_, _, σ, rfl, by simp [hI.len], hI.maps, hI.inj, ?_, hI.data, ?_⟩
      · intro j hj
        rw [List.getElem?_set]
        by_cases hjc : cur = j
        · subst hjc; simp [hI.len, hI.cur_lt, hfix]
        · rw [if_neg hjc, hI.perm_eq j hj, if_neg]
          intro h
          exact hjc (hI.inj _ _ hI.cur_lt hj (hfix.trans h.symm))
      · intro j hj
        by_cases hji : j < i
        · exact hI.done j hji
        · have : j = i := by omega
          subst this
          rcases hI.fix with h | h
          · rw [← h]; exact hfix
          · exact h
    · -- one more swap
      rw [if_neg hfix]
      have hni : i ≠ σ cur := by
        intro h
        rcases hI.fix with h2 | h2
        · exact hfix (by rw [← h, h2])
        · have := hI.inj _ _ hI.cur_lt hI.i_lt (h.symm.trans h2.symm)
          exact hfix (by rw [← h, this])
      rw [if_pos hni]
      have hnlt := hI.maps cur hI.cur_lt
      apply ih (σ cur) _ _ (fun j => sw cur (σ cur) (σ j))
      · constructor
        · simp [hI.len]
        · exact hnlt
        · exact hI.i_lt
        · intro j hj; exact sw_lt hI.cur_lt hnlt (hI.maps j hj)
        · intro j k hj hk h; exact hI.inj j k hj hk (sw_inj h)
        · intro j hj
          rw [List.getElem?_set]
          by_cases hjc : cur = j
          · subst hjc
            have hne : cur ≠ σ cur := fun h => hfix h.symm
            simp [hI.len, hI.cur_lt, sw, hfix, hne]
          · rw [if_neg hjc, hI.perm_eq j hj]
            have h1 : σ j ≠ σ cur := fun h => hjc (hI.inj _ _ hI.cur_lt hj h.symm)
            by_cases h2 : σ j = cur
            · simp [sw, h2]
            · simp [sw, h1, h2]
        · right
          rcases hI.fix with h | h
          · have hne : i ≠ σ i := by rw [h] at hni; exact hni
            rw [h]; simp [sw, Ne.symm hne]
          · simp only [h]
            have : i ≠ cur := by intro hc; rw [← hc] at hfix; exact hfix h
            simp [sw, this, hni]
        · intro j hj
          rw [doSwaps_append]
          change (swapAt (doSwaps calls l) cur (σ cur))[sw cur (σ cur) (σ j)]? = _
          rw [getElem?_swapAt (by rw [length_doSwaps, hl]; exact hI.cur_lt) (by rw [length_doSwaps, hl]; exact hnlt), sw_sw]
          exact hI.data j hj
        · intro j hj
          have hj' := hI.done j hj
          have h1 : j ≠ cur := by rintro rfl; exact hfix hj'
          have h2 : j ≠ σ cur := by
            intro h
            have := hI.inj j cur (by have := hI.i_lt; omega) hI.cur_lt (by rw [hj', h])
            exact h1 this
          simp only [hj']; simp [sw, h1, h2]
      · refine lt_of_lt_of_le (Finset.card_lt_card ?_) (Nat.lt_succ_iff.1 hf)
        rw [Finset.ssubset_iff_of_subset]
        · refine ⟨cur, ?_, ?_⟩
          · simp [moved, hI.cur_lt, hfix]
          · simp only [moved, Finset.mem_filter, not_and, not_not]
            intro _; simp [sw, hfix]
        · intro j hj
          simp only [moved, Finset.mem_filter, Finset.mem_range] at hj ⊢
          refine ⟨hj.1, fun h => hj.2 ?_⟩
          have h1 : j ≠ cur := by rintro rfl; exact hfix h
          have h2 : j ≠ σ cur := by
            intro h'
            exact h1 (hI.inj j cur hj.1 hI.cur_lt (by rw [h, h']))
          rw [h]; simp [sw, h1, h2]

theorem cycles_ok {α : Type} {n : Nat} {l : List α} (hl : l.length = n) {p0 : List Nat} {fuel : Nat} (hf : n < fuel) :
    ∀ (k i : Nat) (perm : List Nat) (calls : List (Nat × Nat)) (σ : Nat → Nat), i + k = n →
    perm.length = n → (∀ j, j < n → σ j < n) → (∀ j k, j < n → k < n → σ j = σ k → j = k) →
    (∀ j, j < n → perm[j]? = some (σ j)) → (∀ j, j < n → (doSwaps calls l)[σ j]? = (p0[j]?).bind (l[·]?)) →
    (∀ j, j < i → σ j = j) →
    ∃ perm' calls', cycles fuel (List.range' i k) perm calls = some (perm', calls') ∧
      ∀ j, j < n → (doSwaps calls' l)[j]? = (p0[j]?).bind (l[·]?) := by
  intro k
  induction k with
  | zero =>
    intro i perm calls σ hik _ _ _ _ hd hdone
    refine ⟨perm, calls, by simp [cycles], ?_⟩
    intro j hj
    have := hd j hj
    rwa [hdone j (by omega)] at this
  | succ k ih =>
    intro i perm calls σ hik h1 h2 h3 h4 h5 h6
    have hI : CInv n l p0 i i perm calls σ := by
      refine ⟨h1, by omega, by omega, h2, h3, ?_, Or.inl rfl, h5, h6⟩
      intro j hj
      rw [h4 j hj]
      split
      · rename_i h; rw [h]
      · rfl
    have hcard : (moved n σ).card < fuel := by
      refine lt_of_le_of_lt (Finset.card_le_card (Finset.filter_subset _ _)) ?_
      simpa using hf
    obtain ⟨perm', calls', σ', e1, e2, e3, e4, e5, e6, e7⟩ := cycle_ok hl fuel i perm calls σ hI hcard
    rw [List.range'_succ]
    unfold cycles
    rw [e1]
    exact ih (i + 1) perm' calls' σ' (by omega) e2 e3 e4 e5 e6 e7

/-- The checker accepts exactly the permutations of `0 … n-1`. -/
theorem checkPermutation_iff (p : List Nat) : checkPermutation p = true ↔ p.Perm (List.range p.length) := by
  unfold checkPermutation
  rw [List.all_eq_true]
  constructor
  · intro h
    have hsub : List.range p.length ⊆ p := fun x hx => by simpa using h x hx
    have := List.subperm_of_subset List.nodup_range hsub
    exact (this.perm_of_length_le (by simp)).symm
  · intro h x hx
    simpa using h.symm.subset hx

theorem applyPermutation_ok {α : Type} {p : List Nat} (hp : p.Perm (List.range p.length)) {l : List α}
    (hl : l.length = p.length) {fuel : Nat} (hf : p.length < fuel) :
    ∃ calls, applyPermutation fuel p = some calls ∧ ∀ j, j < p.length → (doSwaps calls l)[j]? = (p[j]?).bind (l[·]?) := by
  have hnd : p.Nodup := hp.symm.nodup List.nodup_range
  obtain ⟨perm', calls', e1, e2⟩ := cycles_ok (p0 := p) hl hf p.length 0 p [] (fun j => p[j]?.getD 0) (by omega) rfl
    (by
      intro j hj
      rw [List.getElem?_eq_getElem hj]
      have := hp.subset (List.getElem_mem hj)
      simpa using this)
    (by
      intro j k hj hk h
      rw [List.getElem?_eq_getElem hj, List.getElem?_eq_getElem hk] at h
      exact (List.Nodup.getElem_inj_iff hnd).1 (by simpa using h))
    (by intro j hj; rw [List.getElem?_eq_getElem hj]; rfl)
    (by intro j hj; rw [List.getElem?_eq_getElem hj]; rfl)
    (by intro j hj; omega)
  refine ⟨calls', ?_, e2⟩
  unfold applyPermutation
  rw [if_pos ((checkPermutation_iff p).2 hp), List.range_eq_range', e1]
  rfl

end Verif.Common
