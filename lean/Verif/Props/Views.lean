import Verif.Model.Views
import Verif.Props.VecTables

/-!
C129: views of vectors show the part they were made for.
-/

namespace Verif.Bp
open Verif Ed Key Sig

/-- The view was made inside the vector below it. -/
def View.Inside : View → Prop
  | .base _ => True
  | .slice v start stop => start ≤ stop ∧ stop ≤ v.size ∧ v.Inside

/-- The first element of the view in the vector at the bottom, and the length of that vector. -/
def View.origin : View → ℕ
  | .base _ => 0
  | .slice v start _ => v.origin + start

def View.bottom : View → ℕ
  | .base n => n
  | .slice v _ _ => v.bottom

theorem View.fits : ∀ v : View, v.Inside → v.origin + v.size ≤ v.bottom
  | .base n, _ => by simp [origin, size, bottom]
  | .slice v start stop, ⟨h1, h2, h3⟩ => by
    have := View.fits v h3
    simp only [origin, size, bottom]
    omega

theorem idx_in {n i : ℕ} (h : i < n) : KeyV.idxize n i = some (i : ℤ) := by
  simp only [KeyV.idxize]
  rw [if_neg (show ¬ (i : ℤ) < 0 by omega), if_neg (by omega)]

theorem idx_neg {n i : ℕ} (h0 : 0 < i) (h : i ≤ n) : KeyV.idxize n (-(i : ℤ)) = some ((n - i : ℕ) : ℤ) := by
  simp only [KeyV.idxize]
  rw [if_pos (show -(i : ℤ) < 0 by omega), if_neg (by omega)]
  congr 1
  omega

theorem idx_out {n : ℕ} {i : ℤ} (h : i ≥ n) : KeyV.idxize n i = none := by
  simp only [KeyV.idxize]
  rw [if_neg (show ¬ i < 0 by omega), if_pos h]

theorem resolve_nonneg : ∀ (v : View), v.Inside → ∀ i : ℕ, i < v.size → v.resolve i = some ((v.origin + i : ℕ) : ℤ)
  | .base n, _, i, h => by
    rw [View.resolve, idx_in (show i < n from h), View.origin, Nat.zero_add]
  | .slice v start stop, ⟨h1, h2, h3⟩, i, h => by
    simp only [View.size] at h
    rw [View.resolve, idx_in h, Option.bind_some, show ((start : ℤ) + (i : ℤ)) = ((start + i : ℕ) : ℤ) by push_cast; rfl,
      resolve_nonneg v h3 (start + i) (by omega), View.origin, Nat.add_assoc]

theorem resolve_neg (v : View) (hv : v.Inside) (i : ℕ) (h0 : 0 < i) (h : i ≤ v.size) : v.resolve (-(i : ℤ)) = some ((v.origin + (v.size - i) : ℕ) : ℤ) := by
  have e := resolve_nonneg v hv (v.size - i) (by omega)
  rw [← e]
  cases v with
  | base n => rw [View.resolve, View.resolve, idx_neg h0 (show i ≤ n from h), idx_in (show (View.base n).size - i < n by simp only [View.size] at h ⊢; omega)]; rfl
  | slice v start stop =>
    rw [View.resolve, View.resolve, idx_neg h0 (show i ≤ stop - start from h), idx_in (show (View.slice v start stop).size - i < stop - start by simp only [View.size] at h ⊢; omega)]; rfl

/-- C129: a view, however deeply nested, shows at every index from zero on the element of its part of the vector, and negative indices count from its end. -/
theorem C129_get {α : Type} (v : View) (hv : v.Inside) (d : List α) (hd : d.length = v.bottom) (i : ℕ) (hi : i < v.size) :
    v.get d i = ((d.drop v.origin).take v.size)[i]? ∧ v.get d ((i : ℤ) - v.size) = v.get d i ∧ (v.get d i).isSome := by
  have hf := View.fits v hv
  have e : v.get d i = d[v.origin + i]? := by
    rw [View.get, resolve_nonneg v hv i hi, Option.bind_some, if_neg (by omega), Int.toNat_natCast]
  refine ⟨?_, ?_, ?_⟩
  · rw [e, List.getElem?_take_of_lt hi, List.getElem?_drop]
  · rw [e, View.get, show ((i : ℤ) - v.size) = -((v.size - i : ℕ) : ℤ) by omega, resolve_neg v hv (v.size - i) (by omega) (by omega), Option.bind_some,
      if_neg (by omega), Int.toNat_natCast]
    congr 1
    omega
  · rw [e, List.getElem?_eq_getElem (by omega)]; rfl

/-- C129: an index past the end raises. -/
theorem C129_end {α : Type} (v : View) (d : List α) (x : α) (i : ℤ) (hi : i ≥ v.size) : v.get d i = none ∧ v.put d i x = none := by
  have e : v.resolve i = none := by
    cases v with
    | base n => rw [View.resolve, idx_out (show i ≥ (n : ℤ) from hi)]
    | slice v start stop => rw [View.resolve, idx_out (show i ≥ ((stop - start : ℕ) : ℤ) from hi)]; rfl
  exact ⟨by rw [View.get, e]; rfl, by rw [View.put, e]; rfl⟩

/-- C129: a write through one view is seen through every other view that shows the element, and nowhere else. -/
theorem C129_write {α : Type} (v w : View) (hv : v.Inside) (hw : w.Inside) (d : List α) (hdv : d.length = v.bottom) (hdw : d.length = w.bottom) (x : α)
    (i j : ℕ) (hi : i < v.size) (hj : j < w.size) :
    ∃ d', v.put d i x = some d' ∧ d'.length = d.length ∧ w.get d' j = if v.origin + i = w.origin + j then some x else w.get d j := by
  have hf := View.fits v hv
  have hg := View.fits w hw
  have e : ∀ d : List α, w.get d j = d[w.origin + j]? := fun d => by
    rw [View.get, resolve_nonneg w hw j hj, Option.bind_some, if_neg (by omega), Int.toNat_natCast]
  refine ⟨d.set (v.origin + i) x, ?_, by simp, ?_⟩
  · rw [View.put, resolve_nonneg v hv i hi, Option.bind_some, if_neg (by omega), Int.toNat_natCast, if_pos (by omega)]
  · rw [e, e, List.getElem?_set]
    split
    · rename_i h; rw [if_pos (by omega)]
    · rfl

/-- C129: after any sequence of writes through any views, a view shows at an index the last value written to that element of the vector. -/
theorem C129_history {α : Type} (d : List α) (ws : List (View × ℕ × α)) (hws : ∀ u ∈ ws, u.1.Inside ∧ u.1.bottom = d.length ∧ u.2.1 < u.1.size)
    (v : View) (hv : v.Inside) (hd : v.bottom = d.length) (i : ℕ) (hi : i < v.size) :
    v.get (View.writes d (ws.map fun u => (u.1, (u.2.1 : ℤ), u.2.2))) i =
      ((ws.reverse.find? fun u => decide (u.1.origin + u.2.1 = v.origin + i)).map fun u => u.2.2).or (v.get d i) := by
  induction ws generalizing d with
  | nil => rfl
  | cons u ws ih =>
    obtain ⟨h1, h2, h3⟩ := hws u (by simp)
    obtain ⟨d', e1, e2, e3⟩ := C129_write u.1 v h1 hv d h2.symm hd.symm u.2.2 u.2.1 i h3 hi
    have := ih d' (fun y hy => by have := hws y (by simp [hy]); rw [e2]; exact this) (by rw [e2]; exact hd)
    rw [List.map_cons, View.writes, List.foldl_cons]
    dsimp only
    rw [e1, Option.getD_some]
    rw [View.writes] at this
    rw [this, e3, List.reverse_cons, List.find?_append]
    cases ws.reverse.find? fun u => decide (u.1.origin + u.2.1 = v.origin + i) with
    | some y => rfl
    | none =>
      by_cases hc : u.1.origin + u.2.1 = v.origin + i
      · simp [hc]
      · simp [hc]

/-- One index before the first negative one a view shows an element outside of its part. -/
theorem C129_false_before : (View.slice (.base 4) 2 4).get [10, 11, 12, 13] (-3) = some 11 := by decide

/-- Writes through a wrapped vector that is stored in chunks are lost, whatever is written. -/
theorem C129_false_wrapped {α : Type} (size : ℕ) (t : Tbl α) (hc : t.chunked = true) (i : ℕ) (hi : i < size) (ht : i < t.items.length) (x : α) :
    wrappedRead size t i x = some t := by
  rw [wrappedRead, idx_in hi, Option.bind_some, if_neg (by omega), Int.toNat_natCast, Tbl.through, if_pos ht, hc, if_pos rfl]

/-- C129: writes through a wrapped vector that is not chunked reach it. -/
theorem C129_wrapped_partial {α : Type} (size : ℕ) (t : Tbl α) (hc : t.chunked = false) (i : ℕ) (hi : i < size) (ht : i < t.items.length) (x : α) :
    (wrappedRead size t i x).map Tbl.items = some (t.items.set i x) := by
  rw [wrappedRead, idx_in hi, Option.bind_some, if_neg (by omega), Int.toNat_natCast, Tbl.through, if_pos ht, hc, if_neg (by decide)]
  rfl

/-- C129: the extended table of powers of two: right below 64 and at odd indices below 126, everywhere else it raises. -/
theorem C129_two_partial (i : ℕ) : powTwo i = if i < 64 ∨ (i % 2 = 1 ∧ i < 126) then some (2 ^ i % l) else none := by
  have small : ∀ i, i < 64 → powTwo i = some (2 ^ i % l) := by
    intro i hi
    have hl : (2 : ℤ) ^ i < l := by
      calc (2 : ℤ) ^ i ≤ 2 ^ 64 := pow_le_pow_right₀ (by norm_num) (by omega)
        _ < l := by decide +kernel
    rw [powTwo, dif_pos hi, Int.emod_eq_of_lt (by positivity) hl]
  induction i using Nat.strong_induction_on with
  | _ i ih =>
    by_cases hi : i < 64
    · rw [if_pos (Or.inl hi), small i hi]
    · rw [powTwo, dif_neg hi]
      by_cases he : i / 2 * 2 = i
      · rw [if_neg (by omega)]
        cases powTwo (i / 2) with
        | none => rfl
        | some lw => rw [Option.bind_some, if_pos he]
      · by_cases hb : i < 126
        · rw [if_pos (by omega), small (i / 2) (by omega), Option.bind_some, if_neg he, small (i / 2 + 1) (by omega), Option.map_some, scMul, Int.mul_emod,
            Int.emod_emod, Int.emod_emod, ← Int.mul_emod, ← pow_add]
          congr 3
          omega
        · rw [if_neg (by omega)]
          by_cases hh : i / 2 % 2 = 0
          · rw [ih (i / 2) (by omega), if_neg (by omega)]; rfl
          · cases powTwo (i / 2) with
            | none => rfl
            | some lw => rw [Option.bind_some, if_neg he, ih (i / 2 + 1) (by omega), if_neg (by omega)]; rfl

example : (View.slice (.slice (.base 8) 2 8) 1 4).Inside ∧ (View.slice (.slice (.base 8) 2 8) 1 4).get [0, 1, 2, 3, 4, 5, 6, 7] 2 = some 5 ∧
    (View.slice (.slice (.base 8) 2 8) 1 4).get [0, 1, 2, 3, 4, 5, 6, 7] (-1) = some 5 := by
  refine ⟨⟨by decide, by decide, by decide, by decide, trivial⟩, by decide, by decide⟩

end Verif.Bp
