import Verif.Spec.HostAux
import Mathlib.Data.List.Nodup
import Mathlib.Data.List.Count

/-! The scan for integrated destinations as a count. -/

namespace Verif.HostAux
open Verif

theorem addrEq_iff (a b : Addr) : addrEq a b = true ↔ a = b := by
  simp [addrEq, Prod.ext_iff]

theorem hits_pairs (idx : ℕ) (o : Out) (ds : List Dest) :
    hits idx o (pairs ds) = List.replicate (ds.countP fun d => decide (Pays d o)) idx := by
  induction ds with
  | nil => rfl
  | cons d ds ih =>
    rw [pairs, List.countP_cons]
    by_cases hi : d.integrated = true
    · rw [if_pos hi, hits, ih]
      by_cases hm : o.addr = (d.spend, d.view) ∧ o.amount = d.amount
      · rw [if_pos (by simp [addrEq_iff, hm.1, hm.2]), if_pos (by simp [Pays, hi, hm.1, hm.2]), List.replicate_succ]
      · rw [if_neg, if_neg]
        · rfl
        · intro h; exact hm (of_decide_eq_true h).2
        · simp only [Bool.and_eq_true, addrEq_iff, beq_iff_eq]; exact fun h => hm ⟨h.1.symm, h.2⟩
    · rw [if_neg hi, ih, if_neg (by simp [Pays, hi])]
      rfl

theorem scan_pairs (ds : List Dest) (k : ℕ) (outs : List Out) :
    scan (pairs ds) k outs = (outs.zipIdx k).flatMap fun t => List.replicate (ds.countP fun d => decide (Pays d t.1)) t.2 := by
  induction outs generalizing k with
  | nil => rfl
  | cons o os ih => rw [scan, hits_pairs, ih, List.zipIdx_cons, List.flatMap_cons]

theorem count_scan (ds : List Dest) (k i : ℕ) (outs : List Out) :
    (scan (pairs ds) k outs).count i = if k ≤ i then ((outs[i - k]?).map fun o => ds.countP fun d => decide (Pays d o)).getD 0 else 0 := by
  induction outs generalizing k with
  | nil => simp [scan]
  | cons o os ih =>
    rw [scan, hits_pairs, List.count_append, ih, List.count_replicate]
    by_cases h : k = i
    · subst h; simp; omega
    · by_cases h' : k + 1 ≤ i
      · rw [if_neg (by simpa using h), if_pos h', if_pos (by omega), show i - k = (i - (k + 1)) + 1 by omega, List.getElem?_cons_succ, Nat.zero_add]
      · rw [if_neg (by simpa using h), if_neg h', if_neg (by omega)]

end Verif.HostAux
