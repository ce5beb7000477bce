import Verif.Model.Common
import Mathlib.Tactic.Ring

/-! C34: chunking. -/

namespace Verif.Common

theorem chunkLoop_eq {α : Type} (arr : List α) {size : Nat} (hs : 0 < size) : ∀ (fuel : Nat) (res : List (List α)) (idx : Nat),
    arr.length < idx + fuel * size → idx ≤ arr.length →
    ∃ cs last, chunkLoop arr size fuel res idx = some (res ++ cs ++ [last]) ∧ cs.flatten ++ last = arr.drop idx ∧
      (∀ c ∈ cs, c.length = size) ∧ last.length < size := by
  intro fuel
  induction fuel with
  | zero => intro res idx h h'; omega
  | succ fuel ih =>
    intro res idx h h'
    unfold chunkLoop
    by_cases hc : ((arr.drop idx).take size).length ≠ size
    · refine ⟨[], (arr.drop idx).take size, ?_, ?_, by simp, ?_⟩
      · simp only [if_pos hc]; simp
      · simp only [List.flatten_nil, List.nil_append]
        rw [List.take_of_length_le]
        simp at hc ⊢; omega
      · simp at hc ⊢; omega
    · simp only [if_neg hc]
      rw [not_not] at hc
      have hlen : idx + size ≤ arr.length := by simp at hc; omega
      obtain ⟨cs, last, h1, h2, h3, h4⟩ := ih (res ++ [(arr.drop idx).take size]) (idx + size)
        (by rw [Nat.add_mul] at h; omega) hlen
      refine ⟨(arr.drop idx).take size :: cs, last, ?_, ?_, ?_, h4⟩
      · rw [h1]; simp
      · rw [List.flatten_cons, List.append_assoc, h2, ← List.drop_drop, List.take_append_drop]
      · intro c hc'
        rcases List.mem_cons.1 hc' with rfl | hc'
        · exact hc
        · exact h3 c hc'

theorem chunkLoop_mono {α : Type} (arr : List α) (size : Nat) : ∀ (fuel k : Nat) (res : List (List α)) (idx : Nat)
    (r : List (List α)), chunkLoop arr size fuel res idx = some r → chunkLoop arr size (fuel + k) res idx = some r := by
  intro fuel
  induction fuel with
  | zero => intro k res idx r h; simp [chunkLoop] at h
  | succ fuel ih =>
    intro k res idx r h
    rw [Nat.add_right_comm]
    unfold chunkLoop at h ⊢
    simp only at h ⊢
    split
    · rename_i hc; rw [if_pos hc] at h; exact h
    · rename_i hc; rw [if_neg hc] at h; exact ih k _ _ _ h

theorem chunkRuns_unique {α : Type} {arr : List α} {size : Nat} {r r' : List (List α)}
    (h : chunkRuns arr size r) (h' : chunkRuns arr size r') : r = r' := by
  obtain ⟨f, h⟩ := h
  obtain ⟨f', h'⟩ := h'
  have h1 := chunkLoop_mono arr size f f' _ _ _ h
  have h2 := chunkLoop_mono arr size f' f _ _ _ h'
  rw [Nat.add_comm, h1] at h2
  simpa using h2

/-- Shape of the result: full chunks and a last one that is shorter than `size` (possibly empty). -/
theorem chunkRuns_shape {α : Type} {arr : List α} {size : Nat} (hs : 0 < size) {res : List (List α)}
    (h : chunkRuns arr size res) : ∃ cs last, res = cs ++ [last] ∧ cs.flatten ++ last = arr ∧
      (∀ c ∈ cs, c.length = size) ∧ last.length < size := by
  obtain ⟨cs, last, h1, h2, h3, h4⟩ := chunkLoop_eq arr hs (arr.length + 1) [] 0
    (by rw [Nat.add_mul]; have := Nat.le_mul_of_pos_right arr.length hs; omega) (Nat.zero_le _)
  have := chunkRuns_unique h ⟨_, h1⟩
  exact ⟨cs, last, by simpa using this, by simpa using h2, h3, h4⟩

/-- C34: for a positive size, chunking terminates, the chunks concatenate to the list and none is longer than
the size. -/
theorem C34_chunk {α : Type} (arr : List α) {size : Nat} (hs : 0 < size) : ∃ res, chunkRuns arr size res ∧
    res.flatten = arr ∧ (∀ c ∈ res, c.length ≤ size) ∧ res.length = arr.length / size + 1 := by
  obtain ⟨cs, last, h1, h2, h3, h4⟩ := chunkLoop_eq arr hs (arr.length + 1) [] 0
    (by rw [Nat.add_mul]; have := Nat.le_mul_of_pos_right arr.length hs; omega) (Nat.zero_le _)
  refine ⟨cs ++ [last], ⟨_, by simpa using h1⟩, by simpa using h2, ?_, ?_⟩
  · intro c hc
    rcases List.mem_append.1 hc with hc | hc
    · exact (h3 c hc).le
    · simp at hc; subst hc; exact h4.le
  · have hl : arr.length = cs.length * size + last.length := by
      rw [List.drop_zero] at h2
      rw [← h2, List.length_append, List.length_flatten]
      congr 1
      clear h1 h2
      induction cs with
      | nil => simp
      | cons c cs ih =>
        simp only [List.map_cons, List.sum_cons, List.length_cons]
        rw [ih (fun c hc => h3 c (List.mem_cons_of_mem _ hc)), h3 c (List.mem_cons_self ..)]
        ring
    rw [hl, Nat.mul_comm, Nat.mul_add_div hs, Nat.div_eq_of_lt h4]
    simp

/-- The trailing chunk is empty exactly when the size divides the length (in particular for the empty list). -/
theorem C34_trailing_empty {α : Type} {arr : List α} {size : Nat} (hs : 0 < size) {res : List (List α)}
    (h : chunkRuns arr size res) : [] ∈ res ↔ size ∣ arr.length := by
  obtain ⟨cs, last, rfl, h2, h3, h4⟩ := chunkRuns_shape hs h
  have hl : arr.length = cs.length * size + last.length := by
    rw [← h2, List.length_append, List.length_flatten]
    congr 1
    clear h h2
    induction cs with
    | nil => simp
    | cons c cs ih =>
      simp only [List.map_cons, List.sum_cons, List.length_cons]
      rw [ih (fun c hc => h3 c (List.mem_cons_of_mem _ hc)), h3 c (List.mem_cons_self ..)]
      ring
  constructor
  · intro hm
    rcases List.mem_append.1 hm with hm | hm
    · have := h3 _ hm; simp at this; omega
    · simp at hm
      rw [hl, hm]
      simp
  · intro hd
    rw [hl, Nat.dvd_add_right (Nat.dvd_mul_left _ _)] at hd
    have : last.length = 0 := Nat.eq_zero_of_dvd_of_lt hd h4
    rw [List.length_eq_zero_iff] at this
    simp [this]

/-- Chunking with size 0 never terminates. -/
theorem C34_size_zero_diverges {α : Type} (arr : List α) (res : List (List α)) : ¬ chunkRuns arr 0 res := by
  rintro ⟨fuel, h⟩
  have : ∀ fuel acc idx, chunkLoop arr 0 fuel acc idx = none := by
    intro fuel
    induction fuel with
    | zero => intros; rfl
    | succ fuel ih => intro acc idx; simp [chunkLoop, ih]
  rw [this] at h; simp at h

example : chunkRuns [1, 2, 3, 4, 5] 2 [[1, 2], [3, 4], [5]] := ⟨3, by decide⟩
example : chunkRuns [1, 2, 3, 4] 2 [[1, 2], [3, 4], []] := ⟨3, by decide⟩

end Verif.Common
