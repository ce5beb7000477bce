import Verif.Model.Batches
import Mathlib.Tactic.IntervalCases
import Mathlib.Tactic.Ring

/-! C17, C18: range-proof batches. -/

namespace Verif.Batches
open Verif

theorem dvd16 {b : Nat} (h : b ∣ 16) : b = 2 ^ 0 ∨ b = 2 ^ 1 ∨ b = 2 ^ 2 ∨ b = 2 ^ 3 ∨ b = 2 ^ 4 := by
  have := Nat.le_of_dvd (by norm_num) h
  interval_cases b <;> revert h <;> decide

theorem dvd16_pow {b : Nat} (h : b ∣ 16) : ∃ e, b = 2 ^ e := by
  rcases dvd16 h with h | h | h | h | h <;> exact ⟨_, h⟩

theorem le_sum {l : List Nat} {c : Nat} (h : c ∈ l) : c ≤ l.sum := by
  induction l with
  | nil => simp at h
  | cons a l ih =>
    rcases List.mem_cons.1 h with rfl | h
    · simp
    · have := ih h; simp; omega

theorem grow_spec (num batched : Nat) (bs : { n : Nat // 0 < n }) (hd : bs.1 ∣ 16)
    (hl : bs.1 + batched ≤ num) :
    (grow num batched bs).1 ∣ 16 ∧ (grow num batched bs).1 + batched ≤ num ∧
      ((grow num batched bs).1 = 16 ∨ num < (grow num batched bs).1 * 2 + batched) := by
  fun_induction grow num batched bs with
  | case1 bs h ih =>
    apply ih
    · have h8 : bs.1 ≤ 8 := by omega
      rcases dvd16 hd with e | e | e | e | e <;> simp only [e] at h8 ⊢ <;> first | decide | omega
    · simp only; omega
  | case2 bs h =>
    refine ⟨hd, hl, ?_⟩
    by_cases h2 : bs.1 * 2 ≤ 16
    · right; omega
    · left
      rcases dvd16 hd with e | e | e | e | e <;> omega

/-- The multi-output loop appends powers of two, in non-increasing order, none above 16. -/
theorem genLoop_two (num : Nat) : ∀ (k batched : Nat) (batches : List Nat), num - batched = k → batched ≤ num →
    ∃ new, genLoop 2 num batched batches = some (batches ++ new) ∧ new.sum = num - batched ∧
      (∀ b ∈ new, 0 < b ∧ b ∣ 16) ∧ new.Pairwise (fun a b => b ≤ a) ∧
      (∀ b, new.head? = some b → b = 16 ∨ num - batched < b * 2) := by
  intro k
  induction k using Nat.strong_induction_on with
  | _ k ih =>
    intro batched batches hk hle
    unfold genLoop
    by_cases h : batched < num
    · obtain ⟨g1, g2, g3⟩ := grow_spec num batched ⟨1, Nat.one_pos⟩ (by decide) (by simp only; omega)
      have hpos := (grow num batched ⟨1, Nat.one_pos⟩).2
      have hmin : min (grow num batched ⟨1, Nat.one_pos⟩).1 (num - batched) = (grow num batched ⟨1, Nat.one_pos⟩).1 := by
        apply min_eq_left; omega
      rw [dif_pos h]
      simp only [hmin]
      generalize hb : (grow num batched ⟨1, Nat.one_pos⟩).1 = b at *
      obtain ⟨new, e1, e2, e3, e4, e5⟩ := ih (num - (batched + b)) (by omega) (batched + b) (batches ++ [b]) rfl (by omega)
      refine ⟨b :: new, ?_, ?_, ?_, ?_, ?_⟩
      · simp only [show ¬ ((2:Nat) = 0 ∨ (2:Nat) = 1) by decide, show ¬ ((2:Nat) = 3) by decide, if_false, if_true]
        rw [e1]; simp
      · simp [e2]; omega
      · intro c hc
        rcases List.mem_cons.1 hc with rfl | hc
        · exact ⟨hpos, g1⟩
        · exact e3 c hc
      · rw [List.pairwise_cons]
        refine ⟨?_, e4⟩
        intro c hc
        obtain ⟨c1, c2⟩ := e3 c hc
        rcases g3 with g3 | g3
        · rw [g3]; exact Nat.le_of_dvd (by norm_num) c2
        · have : c ≤ new.sum := le_sum hc
          omega
      · intro c hc
        simp at hc; subst hc
        rcases g3 with g3 | g3
        · exact Or.inl g3
        · right; omega
    · rw [dif_neg h]
      exact ⟨[], by simp, by simp; omega, by simp, by simp, by simp⟩

theorem genLoop_ones (ty num : Nat) (hty : ty = 0 ∨ ty = 1) : ∀ (k batched : Nat) (batches : List Nat),
    num - batched = k → batched ≤ num → genLoop ty num batched batches = some (batches ++ List.replicate k 1) := by
  intro k
  induction k with
  | zero => intro batched batches h h'; unfold genLoop; rw [dif_neg (by omega)]; simp
  | succ k ih =>
    intro batched batches h h'
    unfold genLoop
    rw [dif_pos (by omega), if_pos hty, ih _ _ (by omega) (by omega)]
    simp [List.replicate_succ]

theorem batchSizes_padded {num : Nat} (h0 : 0 < num) (h : num ≤ 16) : batchSizes 3 num = some [num] := by
  unfold batchSizes
  unfold genLoop
  rw [dif_pos h0, if_neg (by decide), if_pos rfl, if_neg (by omega)]
  unfold genLoop
  rw [dif_neg (by omega)]
  simp

/-- C17: for every positive number of outputs the host chooses batches that are positive, at most 16, add up to
the number of outputs, and are powers of two with the exception of the last one. -/
theorem C17_batches (useBp : Bool) (num : Nat) (hn : 0 < num) :
    ∃ batches, batchSizes (rsigType useBp num) num = some batches ∧ batches.sum = num ∧
      (∀ b ∈ batches, 0 < b ∧ b ≤ 16) ∧ (∀ b ∈ batches.dropLast, ∃ e, b = 2 ^ e) := by
  unfold rsigType
  cases useBp with
  | false =>
    refine ⟨List.replicate num 1, ?_, by simp, ?_, ?_⟩
    · simpa [batchSizes] using genLoop_ones 0 num (Or.inl rfl) num 0 [] rfl (Nat.zero_le _)
    · intro b hb; rw [List.eq_of_mem_replicate hb]; omega
    · intro b hb; rw [List.eq_of_mem_replicate (List.dropLast_subset _ hb)]; exact ⟨0, rfl⟩
  | true =>
    simp only [Bool.not_true, Bool.false_eq_true, if_false]
    split
    · obtain ⟨new, e1, e2, e3, e4, e5⟩ := genLoop_two num num 0 [] rfl (Nat.zero_le _)
      refine ⟨new, by simpa [batchSizes] using e1, by simpa using e2, ?_, ?_⟩
      · intro b hb; exact ⟨(e3 b hb).1, Nat.le_of_dvd (by norm_num) (e3 b hb).2⟩
      · intro b hb; exact dvd16_pow (e3 b (List.dropLast_subset _ hb)).2
    · refine ⟨[num], batchSizes_padded hn (by omega), by simp, ?_, by simp⟩
      intro b hb; simp at hb; omega

/-- C17: above 16 outputs every batch is a power of two (so nothing is padded), in non-increasing order; every batch
but those of the remainder below 16 is full. -/
theorem C17_multi_output (num : Nat) (hn : 16 < num) :
    ∃ batches, batchSizes (rsigType true num) num = some batches ∧ batches.sum = num ∧
      (∀ b ∈ batches, ∃ e, b = 2 ^ e) ∧ batches.Pairwise (fun a b => b ≤ a) ∧ batches.head? = some 16 := by
  have hty : rsigType true num = 2 := by simp [rsigType]; omega
  obtain ⟨new, e1, e2, e3, e4, e5⟩ := genLoop_two num num 0 [] rfl (Nat.zero_le _)
  refine ⟨new, by simpa [batchSizes, hty] using e1, by simpa using e2, ?_, e4, ?_⟩
  · intro b hb
    exact dvd16_pow (e3 b hb).2
  · cases new with
    | nil => simp at e2; omega
    | cons b new =>
      rcases e5 b rfl with rfl | h
      · rfl
      · rcases dvd16 (e3 b (List.mem_cons_self ..)).2 with e | e | e | e | e <;> first | (subst e; rfl) | omega

/-- The padded type refuses more than 16 outputs, unknown types are refused. -/
theorem C17_refused (ty num : Nat) (hn : 0 < num) :
    batchSizes ty num = none ↔ (ty = 3 ∧ 16 < num) ∨ 3 < ty := by
  constructor
  · intro h
    by_contra hc
    rw [not_or] at hc
    have : ty = 0 ∨ ty = 1 ∨ ty = 2 ∨ ty = 3 := by omega
    rcases this with rfl | rfl | rfl | rfl
    · rw [batchSizes, genLoop_ones 0 num (Or.inl rfl) num 0 [] rfl (Nat.zero_le _)] at h; simp at h
    · rw [batchSizes, genLoop_ones 1 num (Or.inr rfl) num 0 [] rfl (Nat.zero_le _)] at h; simp at h
    · obtain ⟨new, e1, _⟩ := genLoop_two num num 0 [] rfl (Nat.zero_le _)
      rw [batchSizes, e1] at h; simp at h
    · rw [batchSizes_padded hn (by omega)] at h; simp at h
  · intro h
    unfold batchSizes
    unfold genLoop
    rw [dif_pos hn]
    rcases h with ⟨rfl, h⟩ | h
    · rw [if_neg (by decide), if_pos rfl, if_pos h]
    · rw [if_neg (by omega), if_neg (by omega), if_neg (by omega)]

example : batchSizes (rsigType true 23) 23 = some [16, 4, 2, 1] := by decide +kernel

/-! ### C18 -/

/-- First output of batch `k` of a layout. -/
def start (grp : List Nat) (k : Nat) : Nat := (grp.take k).sum

theorem start_succ {grp : List Nat} {k : Nat} (hk : k < grp.length) : start grp (k + 1) = start grp k + grp[k] := by
  unfold start
  rw [List.take_succ_eq_append_getElem hk, List.sum_append]
  simp

theorem rsigBatchAux_pos : ∀ (gs : List Nat) (c r k idx : Nat), (hk : k < gs.length) → c ≤ idx →
    c + (gs.take k).sum ≤ idx → idx < c + (gs.take (k + 1)).sum →
    Signer.rsigBatchAux (idx + 1) gs c r = some ((r : Int) + k) := by
  intro gs
  induction gs with
  | nil => intro c r k idx hk; simp at hk
  | cons g gs ih =>
    intro c r k idx hk h0 h1 h2
    unfold Signer.rsigBatchAux
    rw [if_pos (by omega)]
    cases k with
    | zero =>
      simp at h2
      have : ¬ (((c : Int) + g) < (idx : Int) + 1) := by omega
      cases gs with
      | nil => simp [Signer.rsigBatchAux, this]
      | cons g' gs => unfold Signer.rsigBatchAux; rw [if_neg this]; simp
    | succ k =>
      simp at h1 h2 hk
      have := ih (c + g) (r + 1) k idx hk (by omega) (by omega) (by omega)
      push_cast at this ⊢
      rw [this]; congr 1; ring

/-- C18, device: for output `idx` of batch `k` the device finds batch `k`, and treats the output as last exactly if it is the last
output of that batch. -/
theorem C18_device {grp : List Nat} {k idx : Nat} (hk : k < grp.length) (h1 : start grp k ≤ idx)
    (h2 : idx < start grp (k + 1)) :
    Signer.rsigBatch grp idx = some (k : Int) ∧
      Signer.lastInBatch grp idx = some (decide (idx + 1 = start grp (k + 1))) := by
  have hb : Signer.rsigBatch grp idx = some (k : Int) := by
    have := rsigBatchAux_pos grp 0 0 k idx hk (Nat.zero_le _) (by simpa [start] using h1) (by simpa [start] using h2)
    simpa [Signer.rsigBatch] using this
  refine ⟨hb, ?_⟩
  unfold Signer.lastInBatch
  rw [hb]
  simp only [Option.bind_some]
  unfold Signer.isLastInBatch
  rw [if_pos (by omega)]
  rw [show ((k : Int)).toNat = k from rfl, List.getElem?_eq_getElem hk, start_succ hk]
  show some _ = some _
  congr 1
  rw [Bool.eq_iff_iff]
  rw [beq_iff_eq, decide_eq_true_eq]
  unfold start
  omega

/-- Every output of a layout lies in exactly one batch. -/
theorem exists_batch : ∀ {grp : List Nat} {idx : Nat}, idx < grp.sum →
    ∃ k, k < grp.length ∧ start grp k ≤ idx ∧ idx < start grp (k + 1) := by
  intro grp
  induction grp with
  | nil => intro idx h; simp at h
  | cons g grp ih =>
    intro idx h
    by_cases hg : idx < g
    · exact ⟨0, by simp, by simp [start], by simpa [start] using hg⟩
    · simp at h
      obtain ⟨k, h1, h2, h3⟩ := ih (idx := idx - g) (by omega)
      exact ⟨k + 1, by simpa using h1, by simp [start] at h2 ⊢; omega, by simp [start] at h3 ⊢; omega⟩

theorem host_counters {grp : List Nat} (hpos : ∀ g ∈ grp, 0 < g) {mode : Mode} (hm : mode ≠ .host0) :
    ∀ n, n ≤ grp.sum → ∃ acts h, hostRun mode grp n = some (acts, h) ∧ acts.length = n ∧
      h.batch ≤ grp.length ∧ start grp h.batch + h.inBatch = n ∧
      (∀ hb : h.batch < grp.length, h.inBatch < grp[h.batch]) ∧
      ∀ (i k : Nat), i < n → (hk : k < grp.length) → start grp k ≤ i → i < start grp (k + 1) →
        acts[i]? = some (if i + 1 = start grp (k + 1) then some ((start grp k : Int), grp[k]) else none) := by
  intro n
  induction n with
  | zero =>
    intro _
    exact ⟨[], {}, rfl, rfl, Nat.zero_le _, by simp [start], fun hb => hpos _ (List.getElem_mem hb), by omega⟩
  | succ n ih =>
    intro hn
    obtain ⟨acts, h, e1, e2, e3, e4, e5, e6⟩ := ih (by omega)
    have hb : h.batch < grp.length := by
      by_contra hc
      have : h.batch = grp.length := by omega
      simp only [this, start, List.take_length] at e4
      omega
    have hlt := e5 hb
    have hs := start_succ hb
    obtain ⟨_, dl⟩ := C18_device (idx := n) hb (by omega) (by omega)
    have huniq : ∀ k, (hk : k < grp.length) → start grp k ≤ n → n < start grp (k + 1) → k = h.batch := by
      intro k hk a b
      have := (C18_device hk a b).1
      rw [(C18_device (idx := n) hb (by omega) (by omega)).1] at this
      simp at this; omega
    have hstep : hostStep mode grp h n (decide (n + 1 = start grp (h.batch + 1))) =
        some (if n + 1 = start grp (h.batch + 1) then (some ((start grp h.batch : Int), grp[h.batch]), { batch := h.batch + 1, inBatch := 0 })
          else (none, { h with inBatch := h.inBatch + 1 })) := by
      cases mode with
      | host0 => exact absurd rfl hm
      | device =>
        unfold hostStep
        by_cases hl : n + 1 = start grp (h.batch + 1)
        · simp only [hl, decide_true, if_true]
          rw [List.getElem?_eq_getElem hb]
          simp; omega
        · simp [hl]
      | host1 =>
        unfold hostStep
        simp only
        rw [List.getElem?_eq_getElem hb]
        by_cases hl : n + 1 = start grp (h.batch + 1)
        · have : ¬ (grp[h.batch] > h.inBatch + 1) := by omega
          simp [hl, this]; omega
        · have : grp[h.batch] > h.inBatch + 1 := by omega
          simp [hl, this]
    have hact : ∀ (i k : Nat) (a : Option (Int × Nat)), i < n + 1 → (hk : k < grp.length) → start grp k ≤ i → i < start grp (k + 1) →
        a = (if n + 1 = start grp (h.batch + 1) then some ((start grp h.batch : Int), grp[h.batch]) else none) →
        (acts ++ [a])[i]? = some (if i + 1 = start grp (k + 1) then some ((start grp k : Int), grp[k]) else none) := by
      intro i k a hi hk a1 a2 ha
      by_cases hin : i < n
      · rw [List.getElem?_append_left (by omega)]
        exact e6 i k hin hk a1 a2
      · have : i = n := by omega
        subst this
        obtain rfl := huniq k hk a1 a2
        rw [List.getElem?_append_right (by omega), e2]
        simp [ha]
    by_cases hl : n + 1 = start grp (h.batch + 1)
    · refine ⟨acts ++ [some ((start grp h.batch : Int), grp[h.batch])], { batch := h.batch + 1, inBatch := 0 }, ?_, by simp [e2],
        by simp only; omega, by simp only; omega, fun hb' => hpos _ (List.getElem_mem hb'), ?_⟩
      · simp only [hostRun, e1, dl, Option.bind_eq_bind, Option.bind_some]
        rw [hstep]; simp [hl]
      · intro i k hi hk a1 a2
        exact hact i k _ hi hk a1 a2 (by simp [hl])
    · refine ⟨acts ++ [none], { h with inBatch := h.inBatch + 1 }, ?_, by simp [e2], e3, by simp only; omega,
        fun hb' => by simp only; omega, ?_⟩
      · simp only [hostRun, e1, dl, Option.bind_eq_bind, Option.bind_some]
        rw [hstep]; simp [hl]
      · intro i k hi hk a1 a2
        exact hact i k _ hi hk a1 a2 (by simp [hl])

/-- C18, partial: for every layout of positive batch sizes, when the device makes the proofs or the host makes them with
client version 1: at output `i` of batch `k`, host and device agree whether the batch is complete, and when it is, the host's proof is about
exactly the outputs `start k … start k + size k - 1 = i` of that batch, of the size the device uses. Missing: client version 0
(`C18_false_client0`). -/
theorem C18_agree_partial {grp : List Nat} (hpos : ∀ g ∈ grp, 0 < g) {mode : Mode} (hm : mode ≠ .host0) :
    ∃ acts h, hostRun mode grp grp.sum = some (acts, h) ∧ acts.length = grp.sum ∧
      ∀ i, i < grp.sum → ∃ (k : Nat) (hk : k < grp.length) (last : Bool), start grp k ≤ i ∧ i < start grp (k + 1) ∧
        Signer.rsigBatch grp i = some (k : Int) ∧ Signer.lastInBatch grp i = some last ∧
        (last = true ↔ i + 1 = start grp k + grp[k]) ∧
        acts[i]? = some (if last then some ((start grp k : Int), grp[k]) else none) := by
  obtain ⟨acts, h, e1, e2, _, _, _, e6⟩ := host_counters hpos hm grp.sum le_rfl
  refine ⟨acts, h, e1, e2, ?_⟩
  intro i hi
  obtain ⟨k, hk, a1, a2⟩ := exists_batch hi
  obtain ⟨d1, d2⟩ := C18_device hk a1 a2
  refine ⟨k, hk, _, a1, a2, d1, d2, ?_, ?_⟩
  · rw [← start_succ hk]; simp
  · rw [e6 i k hi hk a1 a2]; simp

/-- The layouts the host sends are of that kind. -/
theorem C18_layout_of_host (useBp : Bool) (num : Nat) (hn : 0 < num) (batches : List Nat)
    (h : batchSizes (rsigType useBp num) num = some batches) : (∀ g ∈ batches, 0 < g) ∧ batches.sum = num := by
  obtain ⟨b, e1, e2, e3, _⟩ := C17_batches useBp num hn
  rw [h] at e1; simp at e1; subst e1
  exact ⟨fun g hg => (e3 g hg).1, e2⟩

/-- C18 is false for client version 0: with 17 outputs (layout 16, 1) the host's proof for the last output is about the
16 outputs 1 … 16, while the device's last batch is the single output 16. The host never moves on to the second batch. -/
theorem C18_false_client0 : ∃ acts h, hostRun .host0 [16, 1] 17 = some (acts, h) ∧
    acts[16]? = some (some (1, 16)) ∧ Signer.rsigBatch [16, 1] 16 = some 1 ∧ Signer.lastInBatch [16, 1] 16 = some true :=
  ⟨_, _, rfl, by decide +kernel, by decide +kernel, by decide +kernel⟩

/-- Client version 0 agrees while there is one batch, i.e. up to 16 outputs. -/
theorem C18_single_batch {size : Nat} (hs : 0 < size) : ∀ n, n ≤ size →
    hostRun .host0 [size] n = some ((List.range n).map fun i => if i + 1 = size then some (0, size) else none,
      ⟨0, n⟩) := by
  intro n
  induction n with
  | zero => intro _; rfl
  | succ n ih =>
    intro hn
    obtain ⟨_, dl⟩ := C18_device (grp := [size]) (k := 0) (idx := n) (by simp) (by simp [start]) (by simp [start]; omega)
    simp only [hostRun, ih (by omega), dl, Option.bind_eq_bind, Option.bind_some]
    simp only [hostStep, List.getElem?_cons_zero, Option.map_some]
    by_cases hl : n + 1 = size
    · subst hl
      simp [List.range_succ]
      omega
    · have h1 : size > n + 1 := by omega
      simp [List.range_succ, h1, hl]

example : hostRun .host1 [4, 2, 1] 7 = some ([none, none, none, some (0, 4), none, some (4, 2), some (6, 1)], ⟨3, 0⟩) := by
  decide +kernel

end Verif.Batches
