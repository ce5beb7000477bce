import Verif.Spec.MultiExp
import Verif.Lemmas.EdCodec
import Verif.Lemmas.Key

/-! Lemmas about sums of multiples. -/

namespace Verif.MultiExp
open Verif Ed Key Edwards

theorem accPair_rep {acc : Ext} {p : Point} (h : Rep acc p) {x : Bytes × Bytes} {t : ℕ × Point} (hx : Denotes x t) :
    ∃ a, accPair acc x = some a ∧ Rep a (p + t.1 • t.2) := by
  obtain ⟨h1, P, h2, h3⟩ := hx
  refine ⟨add acc (scalarmult P t.1), ?_, rep_add h (Ed.rep_smul h3 t.1)⟩
  rw [accPair, h1, h2]

theorem fold_rep : ∀ (xs : List (Bytes × Bytes)) (ts : List (ℕ × Point)), List.Forall₂ Denotes xs ts → ∀ (acc : Ext) (p : Point), Rep acc p →
    ∃ a, xs.foldlM accPair acc = some a ∧ Rep a (p + total ts)
  | [], [], _, acc, p, h => ⟨acc, rfl, by simpa [total] using h⟩
  | x :: xs, t :: ts, hf, acc, p, h => by
    cases hf with
    | cons hx hr =>
      obtain ⟨a, h1, h2⟩ := accPair_rep h hx
      obtain ⟨b, h3, h4⟩ := fold_rep xs ts hr a _ h2
      refine ⟨b, ?_, ?_⟩
      · rw [List.foldlM_cons, h1]; exact h3
      · rw [total, List.map_cons, List.sum_cons, ← add_assoc]; exact h4
  | [], _ :: _, hf, _, _, _ => by cases hf
  | _ :: _, [], hf, _, _, _ => by cases hf

theorem fold_range (f : Nat → Option (Bytes × Bytes)) : ∀ (xs : List (Bytes × Bytes)) (k : Nat) (acc : Ext), (∀ i, (h : i < xs.length) → f (k + i) = some xs[i]) →
    (List.range' k xs.length).foldlM (fun acc i => (f i).bind (accPair acc)) acc = xs.foldlM accPair acc
  | [], k, acc, _ => rfl
  | x :: xs, k, acc, h => by
    have h0 := h 0 (by simp)
    simp only [Nat.add_zero, List.getElem_cons_zero] at h0
    rw [List.length_cons, List.range'_succ, List.foldlM_cons, List.foldlM_cons, h0, Option.bind_some]
    cases ha : accPair acc x with
    | none => rfl
    | some a =>
      exact fold_range f xs (k + 1) a fun i hi => by
        have := h (i + 1) (by simpa using hi)
        rw [Nat.add_right_comm, Nat.add_assoc]
        simpa using this

theorem evalData_spec {xs : List (Bytes × Bytes)} {ts : List (ℕ × Point)} (hd : List.Forall₂ Denotes xs ts) (f : Nat → Option (Bytes × Bytes))
    (hf : ∀ i, (h : i < xs.length) → f i = some xs[i]) : evalData xs.length f = some (encPt (total ts)) := by
  obtain ⟨a, h1, h2⟩ := fold_rep xs ts hd ident 0 rep_ident
  rw [evalData, List.range_eq_range', fold_range f xs 0 ident (by simpa using hf), h1, Option.map_some]
  rw [zero_add] at h2
  rw [encodePoint_rep h2]

theorem pick_list (l : List Bytes) (fn : Option (Nat → Option Bytes)) (i : Nat) (h : i < l.length) : pick l fn i = some l[i] := by
  rw [pick, if_neg (by omega), pyIndex, if_pos (by omega), Int.toNat_natCast, List.getElem?_eq_getElem h]

theorem pick_fn (l : List Bytes) (f : Nat → Option Bytes) (i : Nat) (h : l.length ≤ i) : pick l (some f) i = f i := by
  rw [pick, if_pos (by omega), Option.bind_some, Int.toNat_natCast]

theorem bounds_at : ∀ (pre : List MExp) (e : MExp) (post : List MExp) (n : Nat),
    (bounds (pre ++ e :: post) n)[pre.length]? = some (n + (pre.map MExp.size).sum)
  | [], e, post, n => by simp [bounds]
  | p :: pre, e, post, n => by
    rw [List.cons_append, bounds, List.length_cons, List.getElem?_cons_succ, bounds_at pre e post, List.map_cons, List.sum_cons, Nat.add_assoc]

theorem chunk_at (e : MExp) (post : List MExp) (idx k : Nat) : ∀ (pre : List MExp) (n x : Nat), n + (pre.map MExp.size).sum < idx →
    idx < n + (pre.map MExp.size).sum + e.size → x + pre.length < k → chunkLoop idx (bounds (pre ++ e :: post) n) k x = x + pre.length + 1
  | [], n, x, h1, h2, h3 => by
    simp only [List.map_nil, List.sum_nil, Nat.add_zero, List.length_nil] at h1 h2 h3 ⊢
    rw [List.nil_append, bounds, chunkLoop, if_pos ⟨h1, h3⟩]
    cases post with
    | nil => rw [bounds, chunkLoop, if_neg (by omega)]
    | cons p post => rw [bounds, chunkLoop, if_neg (by omega)]
  | p :: pre, n, x, h1, h2, h3 => by
    simp only [List.map_cons, List.sum_cons, List.length_cons] at h1 h2 h3 ⊢
    rw [List.cons_append, bounds, chunkLoop, if_pos ⟨by omega, by omega⟩, chunk_at e post idx k pre (n + p.size) (x + 1) (by omega) (by omega) (by omega)]
    omega

end Verif.MultiExp
