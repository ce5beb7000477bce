import Verif.Lemmas.HostAux

/-! C117: what the host announces about integrated addresses, and stripped sources. -/

namespace Verif.HostAux
open Verif

/-- C117. An output is announced once for every integrated destination with the same keys and the same amount. -/
theorem C117_count_partial (outs : List Out) (ds : List Dest) (i : ℕ) :
    (integratedIdx outs (some ds)).count i = ((outs[i]?).map fun o => ds.countP fun d => decide (Pays d o)).getD 0 := by
  rw [integratedIdx, count_scan, if_pos (Nat.zero_le _)]
  rfl

/-- C117. So exactly the outputs that pay an integrated destination are announced. -/
theorem C117_announced (outs : List Out) (ds : List Dest) (i : ℕ) :
    i ∈ integratedIdx outs (some ds) ↔ ∃ o, outs[i]? = some o ∧ ∃ d ∈ ds, Pays d o := by
  rw [← List.count_pos_iff, C117_count_partial]
  cases h : outs[i]? with
  | none => simp
  | some o =>
    simp only [Option.map_some, Option.getD_some, List.countP_pos_iff, decide_eq_true_eq, Option.some.injEq]
    exact ⟨fun ⟨d, hd, hp⟩ => ⟨o, rfl, d, hd, hp⟩, fun ⟨o', ho, d, hd, hp⟩ => ⟨d, hd, ho ▸ hp⟩⟩

/-- C117. Each of them once, in ascending order, when no two integrated destinations have the same keys and amount. -/
theorem C117_once_partial (outs : List Out) (ds : List Dest)
    (hd : ds.Pairwise fun a b => ¬ (a.integrated = true ∧ b.integrated = true ∧ a.spend = b.spend ∧ a.view = b.view ∧ a.amount = b.amount)) :
    (integratedIdx outs (some ds)).Pairwise (· < ·) := by
  have hle : ∀ (o : Out), (ds.countP fun d => decide (Pays d o)) ≤ 1 := by
    intro o
    induction ds with
    | nil => simp
    | cons d ds ih =>
      rw [List.pairwise_cons] at hd
      rw [List.countP_cons]
      by_cases hp : Pays d o
      · have h0 : (ds.countP fun d => decide (Pays d o)) = 0 := by
          rw [List.countP_eq_zero]
          intro e he hpe
          rw [decide_eq_true_eq] at hpe
          have hk := hp.2.1.symm.trans hpe.2.1
          exact hd.1 e he ⟨hp.1, hpe.1, (Prod.mk.inj hk).1, (Prod.mk.inj hk).2, hp.2.2.symm.trans hpe.2.2⟩
        rw [h0]; split <;> omega
      · rw [if_neg (by simpa using hp)]
        exact ih hd.2
  have key : ∀ (outs : List Out) (k : ℕ), (scan (pairs ds) k outs).Pairwise (· < ·) ∧ ∀ i ∈ scan (pairs ds) k outs, k ≤ i := by
    intro outs
    induction outs with
    | nil => intro k; simp [scan]
    | cons o os ih =>
      intro k
      obtain ⟨h1, h2⟩ := ih (k + 1)
      rw [scan, hits_pairs]
      have hc := hle o
      refine ⟨List.pairwise_append.mpr ⟨?_, h1, ?_⟩, ?_⟩
      · generalize (ds.countP fun d => decide (Pays d o)) = c at hc
        rcases Nat.le_one_iff_eq_zero_or_eq_one.mp hc with rfl | rfl <;> simp
      · intro a ha b hb
        have := List.eq_of_mem_replicate ha
        have := h2 b hb
        omega
      · intro i hi
        rcases List.mem_append.mp hi with h | h
        · exact Nat.le_of_eq (List.eq_of_mem_replicate h).symm
        · exact Nat.le_trans (Nat.le_succ k) (h2 i h)
  exact (key outs 0).1

/-- Without auxiliary data nothing is announced. -/
theorem C117_none (outs : List Out) : integratedIdx outs none = [] := rfl

/-- C117 is false of repeated payments: two payments of the same amount to the same integrated address are announced twice each. -/
theorem C117_false_repeated : ∃ (outs : List Out) (ds : List Dest), outs.length = ds.length ∧
    (∀ i (h : i < outs.length) (h' : i < ds.length), Pays ds[i] outs[i]) ∧ integratedIdx outs (some ds) = [0, 0, 1, 1] :=
  ⟨[⟨([1], [2]), 5⟩, ⟨([1], [2]), 5⟩], [⟨[1], [2], true, 5⟩, ⟨[1], [2], true, 5⟩], rfl, by decide, by decide⟩

/-- C117 is false of mixed payments: an output that pays the standard address of the same wallet is announced when another one pays the same
amount to an integrated address of it. -/
theorem C117_false_standard : ∃ (outs : List Out) (ds : List Dest) (j : ℕ) (h : j < ds.length), outs.length = ds.length ∧
    (∀ i (h : i < outs.length) (h' : i < ds.length), outs[i].addr = (ds[i].spend, ds[i].view) ∧ outs[i].amount = ds[i].amount) ∧
    ds[j].integrated = false ∧ j ∈ integratedIdx outs (some ds) :=
  ⟨[⟨([1], [2]), 5⟩, ⟨([1], [2]), 5⟩], [⟨[1], [2], true, 5⟩, ⟨[1], [2], false, 5⟩], 1, by decide, rfl, by decide, rfl, by decide⟩

/-- C117. Stripping a source leaves the real member as it was, every position and the number of members; the other members keep at most their
global index. -/
theorem C117_strip (real : ℕ) (keep : Bool) (ms : List Member) (i : ℕ) :
    (strip real keep 0 ms)[i]? = (ms[i]?).map fun m => if i = real then m else ⟨if keep then m.idx else none, none⟩ := by
  have key : ∀ (ms : List Member) (k i : ℕ), (strip real keep k ms)[i]? =
      (ms[i]?).map fun m => if k + i = real then m else ⟨if keep then m.idx else none, none⟩ := by
    intro ms
    induction ms with
    | nil => intro k i; simp [strip]
    | cons m ms ih =>
      intro k i
      rw [strip]
      cases i with
      | zero => cases keep <;> simp
      | succ i => rw [List.getElem?_cons_succ, List.getElem?_cons_succ, ih, show k + 1 + i = k + (i + 1) by omega]
  simpa using key ms 0 i

example : integratedIdx [⟨([1], [2]), 5⟩, ⟨([3], [4]), 7⟩, ⟨([1], [2]), 6⟩] (some [⟨[1], [2], true, 6⟩, ⟨[3], [4], true, 7⟩, ⟨[1], [2], false, 5⟩]) =
    [1, 2] := by decide

example : (strip 1 true 0 [⟨some 4, some ([1], [2])⟩, ⟨some 9, some ([3], [4])⟩, ⟨some 12, some ([5], [6])⟩]).map (fun m => (m.idx, m.key)) =
    [(some 4, none), (some 9, some ([3], [4])), (some 12, none)] := by decide

end Verif.HostAux
