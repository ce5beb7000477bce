import Verif.Model.KeyV
import Mathlib.Data.Nat.Bitwise
import Mathlib.Tactic.Linarith

/-!
C47: vectors stored in chunks behave like arrays. The specification is a list of 32-byte elements with Python indexing; `elems v` is the list a vector
stands for.
-/

namespace Verif.KeyV
open Verif

/-- The bytes of a vector in order. -/
def bytesOf (v : Vec) : Bytes :=
  match v.d with
  | .flat b => b
  | .chunks cs => cs.flatten

/-- The elements of a vector. -/
def elems (v : Vec) : List Bytes := (List.range v.size).map fun k => ((bytesOf v).drop (32 * k)).take 32

/-- What the constructors and operations of the class maintain. -/
def WF (v : Vec) : Prop :=
  match v.d with
  | .flat b => 32 * v.size ≤ b.length
  | .chunks cs => 32 < v.size ∧ 32 * cs.length = v.size ∧ ∀ c ∈ cs, c.length = 1024

/-! ## Bytes -/

/-- Byte `p` of a vector. -/
def byteAt (v : Vec) (p : ℕ) : Option UInt8 :=
  match v.d with
  | .flat b => b[p]?
  | .chunks cs => (cs[p / 1024]?).bind fun c => c[p % 1024]?

theorem flatten_get (cs : List Bytes) : (∀ c ∈ cs, c.length = 1024) → ∀ p, cs.flatten[p]? = (cs[p / 1024]?).bind fun c => c[p % 1024]? := by
  induction cs with
  | nil => intro _ p; simp
  | cons c cs ih =>
    intro h p
    have hc := h c (by simp)
    rw [List.flatten_cons]
    by_cases hp : p < 1024
    · rw [List.getElem?_append_left (by omega), Nat.div_eq_of_lt hp, Nat.mod_eq_of_lt hp]
      rfl
    · rw [List.getElem?_append_right (by omega), hc, ih fun c hc => h c (by simp [hc])]
      rw [show p / 1024 = (p - 1024) / 1024 + 1 by omega, show p % 1024 = (p - 1024) % 1024 by omega, List.getElem?_cons_succ]

theorem byteAt_eq {v : Vec} (h : WF v) (p : ℕ) : (bytesOf v)[p]? = byteAt v p := by
  unfold bytesOf byteAt
  unfold WF at h
  cases hd : v.d with
  | flat b => rfl
  | chunks cs => rw [hd] at h; exact flatten_get cs h.2.2 p

theorem byteAt_some {v : Vec} (h : WF v) {p : ℕ} (hp : p < 32 * v.size) : ∃ x, byteAt v p = some x := by
  unfold byteAt
  unfold WF at h
  cases hd : v.d with
  | flat b =>
    rw [hd] at h
    exact ⟨b[p]'(by dsimp only at h; omega), List.getElem?_eq_getElem _⟩
  | chunks cs =>
    rw [hd] at h
    dsimp only at h ⊢
    have h1 : p / 1024 < cs.length := by omega
    have h2 := h.2.2 _ (List.getElem_mem h1)
    rw [List.getElem?_eq_getElem h1]
    exact ⟨(cs[p / 1024])[p % 1024]'(by omega), List.getElem?_eq_getElem _⟩

theorem elem_get {v : Vec} (h : WF v) (k j : ℕ) : (((bytesOf v).drop (32 * k)).take 32)[j]? = if j < 32 then byteAt v (32 * k + j) else none := by
  rw [List.getElem?_take]
  split
  · rw [List.getElem?_drop, byteAt_eq h]
  · rfl

theorem elems_get (v : Vec) {k : ℕ} (hk : k < v.size) : (elems v)[k]? = some (((bytesOf v).drop (32 * k)).take 32) := by
  unfold elems
  rw [List.getElem?_map, List.getElem?_range hk]
  rfl

theorem elems_length (v : Vec) : (elems v).length = v.size := by simp [elems]

theorem pyIdx_nat {n i : ℕ} (h : i < n) : pyIdx n (i : ℤ) = some i := by
  unfold pyIdx
  rw [if_pos (by omega), if_pos (by exact_mod_cast h), Int.toNat_natCast]

theorem memcpy_ok (src : Bytes) (n : ℕ) : ∀ (dst : Bytes) (d s : ℕ), d + n ≤ dst.length → s + n ≤ src.length →
    (memcpy dst d src s n).2 = true ∧ (memcpy dst d src s n).1.length = dst.length ∧
    ∀ k, (memcpy dst d src s n).1[k]? = if d ≤ k ∧ k < d + n then src[s + (k - d)]? else dst[k]? := by
  induction n with
  | zero => intro dst d s _ _; exact ⟨rfl, rfl, fun k => by rw [if_neg (by omega)]; rfl⟩
  | succ n ih =>
    intro dst d s hd hs
    rw [memcpy, pyIdx_nat (by omega)]
    dsimp only
    rw [pyIdx_nat (by omega)]
    dsimp only
    obtain ⟨h1, h2, h3⟩ := ih (dst.set d (src.getD s 0)) (d + 1) (s + 1) (by rw [List.length_set]; omega) (by omega)
    have e1 : ((d : ℤ) + 1) = ((d + 1 : ℕ) : ℤ) := by push_cast; rfl
    have e2 : ((s : ℤ) + 1) = ((s + 1 : ℕ) : ℤ) := by push_cast; rfl
    rw [e1, e2]
    refine ⟨h1, h2.trans List.length_set, fun k => ?_⟩
    rw [h3 k]
    by_cases hk : k = d
    · subst hk
      rw [if_neg (by omega), if_pos (by omega), List.getElem?_set_self (by omega), Nat.sub_self, add_zero, List.getD_eq_getElem?_getD,
        List.getElem?_eq_getElem (by omega)]
      rfl
    · rw [List.getElem?_set_ne (by omega)]
      by_cases hr : d + 1 ≤ k ∧ k < d + 1 + n
      · rw [if_pos hr, if_pos (by omega), show s + 1 + (k - (d + 1)) = s + (k - d) by omega]
      · rw [if_neg hr, if_neg (by omega)]

/-- An index in range, both ways. -/
theorem idxize_eq {size : ℕ} {i : ℤ} (h : -(size : ℤ) ≤ i) : idxize size i = (pyIdx size i).map fun k : ℕ => (k : ℤ) := by
  unfold idxize pyIdx
  dsimp only
  by_cases h0 : i < 0
  · rw [if_pos h0, if_neg (by omega), if_neg (by omega), if_pos (by omega), Option.map_some, Int.toNat_of_nonneg (by omega)]
  · rw [if_neg h0, if_pos (show 0 ≤ i by omega)]
    by_cases h1 : i < size
    · rw [if_neg (show ¬ i ≥ (size : ℤ) by omega), if_pos h1, Option.map_some, Int.toNat_of_nonneg (by omega)]
    · rw [if_pos (show i ≥ (size : ℤ) by omega), if_neg h1]; rfl

theorem pyIdx_lt {n : ℕ} {i : ℤ} {k : ℕ} (h : pyIdx n i = some k) : k < n := by
  unfold pyIdx at h
  split at h
  · split at h
    · have := Option.some.inj h; omega
    · simp at h
  · split at h
    · have := Option.some.inj h; omega
    · simp at h

theorem to_nat {v : Vec} (h : WF v) {k : ℕ} (hk : k < v.size) {i : ℤ} (hi : idxize v.size i = some (k : ℤ)) : v.to i = (elems v)[k]? := by
  rw [elems_get v hk, Vec.to, hi]
  have hb := elem_get h k
  unfold WF at h
  unfold byteAt at hb
  dsimp only
  cases hd : v.d with
  | flat b =>
    rw [hd] at h hb
    dsimp only at h hb ⊢
    obtain ⟨h1, h2, h3⟩ := memcpy_ok b 32 (List.replicate 32 0) 0 (k * 32) (by simp) (by omega)
    rw [Nat.cast_zero, Nat.cast_mul, Nat.cast_ofNat] at h1 h2 h3
    rw [if_pos h1]
    congr 1
    apply List.ext_getElem?
    intro j
    rw [h3 j, hb j]
    by_cases hj : j < 32
    · rw [if_pos (by omega), if_pos hj, show k * 32 + (j - 0) = 32 * k + j by omega]
    · rw [if_neg (by omega), if_neg hj, List.getElem?_eq_none (by simp; omega)]
  | chunks cs =>
    rw [hd] at h hb
    dsimp only at h hb ⊢
    have hc : k / 32 < cs.length := by omega
    have ec : ((k : ℤ) / 32) = ((k / 32 : ℕ) : ℤ) := by push_cast; rfl
    have eo : ((k : ℤ) % 32 * 32) = ((k % 32 * 32 : ℕ) : ℤ) := by push_cast; rfl
    rw [ec, pyIdx_nat hc, eo]
    dsimp only
    have hl : (cs.getD (k / 32) []).length = 1024 := by
      rw [List.getD_eq_getElem?_getD, List.getElem?_eq_getElem hc]; exact h.2.2 _ (List.getElem_mem hc)
    obtain ⟨h1, h2, h3⟩ := memcpy_ok (cs.getD (k / 32) []) 32 (List.replicate 32 0) 0 (k % 32 * 32) (by simp) (by omega)
    rw [Nat.cast_zero] at h1 h2 h3
    rw [if_pos h1]
    congr 1
    apply List.ext_getElem?
    intro j
    rw [h3 j, hb j]
    by_cases hj : j < 32
    · rw [if_pos (by omega), if_pos hj, show (32 * k + j) / 1024 = k / 32 by omega, show (32 * k + j) % 1024 = k % 32 * 32 + (j - 0) by omega,
        List.getD_eq_getElem?_getD, List.getElem?_eq_getElem hc]
      rfl
    · rw [if_neg (by omega), if_neg hj, List.getElem?_eq_none (by simp; omega)]

theorem elems_ext {v w : Vec} (hv : WF v) (hw : WF w) (hs : v.size = w.size) (hb : ∀ p < 32 * v.size, byteAt v p = byteAt w p) : elems v = elems w := by
  unfold elems
  rw [hs]
  apply List.map_congr_left
  intro k hk
  have hk := List.mem_range.mp hk
  apply List.ext_getElem?
  intro j
  rw [elem_get hv, elem_get hw]
  split
  · exact hb _ (by omega)
  · rfl

theorem read_nat {v : Vec} (h : WF v) {k : ℕ} (hk : k < v.size) {i : ℤ} (hi : idxize v.size i = some (k : ℤ)) {b : Bytes} (hb : 32 ≤ b.length) :
    (v.read i b).2 = true ∧ WF (v.read i b).1 ∧ (v.read i b).1.size = v.size ∧ elems (v.read i b).1 = (elems v).set k (b.take 32) := by
  have key : (v.read i b).2 = true ∧ WF (v.read i b).1 ∧ (v.read i b).1.size = v.size ∧
      ∀ p, byteAt (v.read i b).1 p = if 32 * k ≤ p ∧ p < 32 * k + 32 then b[p - 32 * k]? else byteAt v p := by
    rw [Vec.read, hi]
    have h' := h
    unfold WF at h
    dsimp only
    cases hd : v.d with
    | flat d =>
      rw [hd] at h
      dsimp only at h ⊢
      obtain ⟨h1, h2, h3⟩ := memcpy_ok b 32 d (k * 32) 0 (by omega) (by omega)
      rw [Nat.cast_zero, Nat.cast_mul, Nat.cast_ofNat] at h1 h2 h3
      refine ⟨h1, ?_, rfl, fun p => ?_⟩
      · unfold WF
        dsimp only
        rw [h2]; exact h
      · unfold byteAt
        rw [hd]
        dsimp only
        rw [h3 p, Nat.mul_comm k 32, Nat.zero_add]
    | chunks cs =>
      rw [hd] at h
      dsimp only at h ⊢
      have hc : k / 32 < cs.length := by omega
      have ec : ((k : ℤ) / 32) = ((k / 32 : ℕ) : ℤ) := by push_cast; rfl
      have eo : ((k : ℤ) % 32 * 32) = ((k % 32 * 32 : ℕ) : ℤ) := by push_cast; rfl
      rw [ec, pyIdx_nat hc, eo]
      dsimp only
      have eg : cs.getD (k / 32) [] = cs[k / 32] := by rw [List.getD_eq_getElem?_getD, List.getElem?_eq_getElem hc]; rfl
      have hl : (cs[k / 32]).length = 1024 := h.2.2 _ (List.getElem_mem hc)
      rw [eg]
      obtain ⟨h1, h2, h3⟩ := memcpy_ok b 32 cs[k / 32] (k % 32 * 32) 0 (by omega) (by omega)
      rw [Nat.cast_zero] at h1 h2 h3
      refine ⟨h1, ?_, rfl, fun p => ?_⟩
      · unfold WF
        dsimp only
        refine ⟨h.1, by rw [List.length_set]; exact h.2.1, fun c hm => ?_⟩
        rcases List.mem_or_eq_of_mem_set hm with hm | rfl
        · exact h.2.2 c hm
        · rw [h2, hl]
      · unfold byteAt
        rw [hd]
        dsimp only
        by_cases hp : p / 1024 = k / 32
        · rw [hp, List.getElem?_set_self hc, List.getElem?_eq_getElem hc, Option.bind_some, Option.bind_some, h3]
          by_cases hr : 32 * k ≤ p ∧ p < 32 * k + 32
          · rw [if_pos hr, if_pos (by omega), show 0 + (p % 1024 - k % 32 * 32) = p - 32 * k by omega]
          · rw [if_neg hr, if_neg (by omega)]
        · rw [List.getElem?_set_ne (fun e => hp e.symm), if_neg (by omega)]
  obtain ⟨k1, k2, k3, k4⟩ := key
  refine ⟨k1, k2, k3, ?_⟩
  apply List.ext_getElem?
  intro m
  by_cases hm : m < v.size
  · rw [elems_get _ (by rw [k3]; exact hm)]
    by_cases hmk : k = m
    · subst hmk
      rw [List.getElem?_set_self (by rw [elems_length]; exact hm)]
      congr 1
      apply List.ext_getElem?
      intro j
      rw [elem_get k2, List.getElem?_take]
      split
      · rw [k4, if_pos (by omega), Nat.add_sub_cancel_left]
      · rfl
    · rw [List.getElem?_set_ne hmk, elems_get v hm]
      congr 1
      apply List.ext_getElem?
      intro j
      rw [elem_get k2, elem_get h]
      split
      · rw [k4, if_neg (by omega)]
      · rfl
  · rw [List.getElem?_eq_none (by rw [elems_length, k3]; omega), List.getElem?_eq_none (by rw [List.length_set, elems_length]; omega)]

/-! ## Histories of reads and writes -/

/-- One operation of a caller. -/
inductive Op where
  | get (i : ℤ)
  | set (i : ℤ) (b : Bytes)
deriving DecidableEq

/-- The operations on a vector; `none` is an exception. -/
def exec : Vec → List Op → List (Option Bytes)
  | _, [] => []
  | v, .get i :: ops => v.to i :: exec v ops
  | v, .set i b :: ops => (if (v.read i b).2 then some [] else none) :: exec (v.read i b).1 ops

/-- The operations on a Python list of elements. -/
def execList : List Bytes → List Op → List (Option Bytes)
  | _, [] => []
  | xs, .get i :: ops => ((pyIdx xs.length i).bind fun k => xs[k]?) :: execList xs ops
  | xs, .set i b :: ops =>
    match pyIdx xs.length i with
    | none => none :: execList xs ops
    | some k => some [] :: execList (xs.set k (b.take 32)) ops

/-- Indices not below `-size`, values of 32 bytes at least. -/
def Op.ok (size : ℕ) : Op → Prop
  | .get i => -(size : ℤ) ≤ i
  | .set i b => -(size : ℤ) ≤ i ∧ 32 ≤ b.length

/-- C47: any history of reads and writes of a vector, plain or in chunks, returns what the same history of a list of its elements returns. Missing:
indices below `-size` (`C47_false_index`). -/
theorem C47_history_partial (ops : List Op) : ∀ v : Vec, WF v → (∀ o ∈ ops, o.ok v.size) → exec v ops = execList (elems v) ops := by
  induction ops with
  | nil => intro v _ _; rfl
  | cons o ops ih =>
    intro v hv ho
    have h0 := ho o (by simp)
    have hr : ∀ o' ∈ ops, o'.ok v.size := fun o' h => ho o' (by simp [h])
    cases o with
    | get i =>
      rw [exec, execList, elems_length]
      rw [ih v hv hr]
      congr 1
      have e := idxize_eq (show -(v.size : ℤ) ≤ i from h0)
      cases hk : pyIdx v.size i with
      | none => rw [hk] at e; rw [Vec.to, e]; rfl
      | some k => rw [hk] at e; exact to_nat hv (pyIdx_lt hk) e
    | set i b =>
      rw [exec, execList, elems_length]
      have e := idxize_eq (show -(v.size : ℤ) ≤ i from h0.1)
      cases hk : pyIdx v.size i with
      | none =>
        rw [hk] at e
        have er : v.read i b = (v, false) := by rw [Vec.read, e]; rfl
        rw [er]
        dsimp only
        rw [ih v hv hr]
        rfl
      | some k =>
        rw [hk] at e
        obtain ⟨h1, h2, h3, h4⟩ := read_nat hv (pyIdx_lt hk) e h0.2
        rw [if_pos h1, ih _ h2 (by rw [h3]; exact hr), h4]

theorem wf_new (n : ℕ) : WF (Vec.new n) := by
  unfold Vec.new setD
  split
  · rename_i h
    refine ⟨h.1, ?_, ?_⟩
    · rw [List.length_replicate]; dsimp only; omega
    · intro c hc; rw [List.eq_of_mem_replicate hc, List.length_replicate]
  · unfold WF; simp

example : WF (Vec.new 64) ∧ WF (Vec.new 3) ∧ ∀ o ∈ [Op.get 5, .set (-1) (List.replicate 32 7), .get 63], o.ok (Vec.new 64).size := by
  refine ⟨wf_new _, wf_new _, ?_⟩
  intro o ho
  simp only [List.mem_cons, List.not_mem_nil, or_false] at ho
  rcases ho with rfl | rfl | rfl <;> simp [Op.ok, Vec.new]

theorem byteAt_new (n p : ℕ) (hp : p < 32 * n) : byteAt (Vec.new n) p = some 0 := by
  by_cases h : n > 32 ∧ n % 32 = 0
  · have e : Vec.new n = ⟨n, .chunks (List.replicate (n / 32) (List.replicate (32 * 32) 0))⟩ := by rw [Vec.new, setD, if_pos h]
    rw [e, byteAt]
    dsimp only
    rw [List.getElem?_replicate, if_pos (by omega), Option.bind_some, List.getElem?_replicate, if_pos (by omega)]
  · have e : Vec.new n = ⟨n, .flat (List.replicate (32 * n) 0)⟩ := by rw [Vec.new, setD, if_neg h]
    rw [e, byteAt]
    dsimp only
    rw [List.getElem?_replicate, if_pos hp]

/-- A vector whose bytes are all zero. -/
theorem elems_zero {v : Vec} (h : WF v) (hz : ∀ p < 32 * v.size, byteAt v p = some 0) : elems v = List.replicate v.size (List.replicate 32 0) := by
  apply List.ext_getElem?
  intro m
  rw [List.getElem?_replicate]
  split
  · rename_i hm
    rw [elems_get v hm]
    congr 1
    apply List.ext_getElem?
    intro j
    rw [elem_get h, List.getElem?_replicate]
    split
    · exact hz _ (by omega)
    · rfl
  · rename_i hm
    exact List.getElem?_eq_none (by rw [elems_length]; omega)

/-- C47: a new vector is all zeros, whatever its size. -/
theorem C47_new (n : ℕ) : elems (Vec.new n) = List.replicate n (List.replicate 32 0) := elems_zero (wf_new n) fun p hp => byteAt_new n p hp

/-- C47 is false: an index below `-size` is accepted: index -65 of a vector of 64 elements reads and writes the last one. -/
theorem C47_false_index : (Vec.new 64).to (-65) = some (List.replicate 32 0) ∧
    ((Vec.new 64).read (-65) (List.replicate 32 7)).2 = true ∧ ((Vec.new 64).read (-65) (List.replicate 32 7)).1.to 63 = some (List.replicate 32 7) ∧
    pyIdx 64 (-65) = none := by decide +kernel

/-! ## Resizing -/

theorem byteAt_take {b : Bytes} {n p : ℕ} (hp : p < n) : (b.take n)[p]? = b[p]? := by rw [List.getElem?_take, if_pos hp]

theorem elems_prefix {v w : Vec} (hv : WF v) (hw : WF w) (hs : w.size ≤ v.size) (hb : ∀ p < 32 * w.size, byteAt w p = byteAt v p) :
    elems w = (elems v).take w.size := by
  apply List.ext_getElem?
  intro m
  rw [List.getElem?_take]
  split
  · rename_i hm
    rw [elems_get w hm, elems_get v (by omega)]
    congr 1
    apply List.ext_getElem?
    intro j
    rw [elem_get hw, elem_get hv]
    split
    · exact hb _ (by omega)
    · rfl
  · exact List.getElem?_eq_none (by rw [elems_length]; omega)

/-- C47: shrinking a vector keeps the elements that remain, or is refused. -/
theorem C47_shrink (v w : Vec) (n : ℕ) (chop realloc : Bool) (hv : WF v) (hn : n < v.size) (hc : chop = false ∨ realloc = true)
    (h : v.resize n chop realloc = some w) : w.size = n ∧ WF w ∧ elems w = (elems v).take n := by
  have key : w.size = n ∧ WF w ∧ ∀ p < 32 * n, byteAt w p = byteAt v p := by
    rw [Vec.resize, if_neg (by omega)] at h
    have hv' := hv
    unfold WF at hv'
    cases hd : v.d with
    | flat b =>
      rw [hd] at h hv'
      dsimp only at h hv'
      have e : some ⟨n, .flat (b.take (32 * n))⟩ = some w := by
        rw [← h]
        rcases hc with rfl | rfl
        · by_cases hr : realloc = true
          · rw [if_pos ⟨hn, hr⟩]
          · rw [if_neg (fun x => hr x.2), if_pos ⟨hn, rfl⟩]
        · rw [if_pos ⟨hn, rfl⟩]
      rw [← Option.some.inj e]
      refine ⟨rfl, ?_, fun p hp => ?_⟩
      · unfold WF; dsimp only; rw [List.length_take]; omega
      · unfold byteAt; rw [hd]; exact byteAt_take hp
    | chunks cs =>
      rw [hd] at h hv'
      dsimp only at h hv'
      by_cases h32 : n ≤ 32
      · rw [if_pos h32] at h
        have hpos : 0 < cs.length := by omega
        have eg : cs.getD 0 [] = cs[0] := by rw [List.getD_eq_getElem?_getD, List.getElem?_eq_getElem hpos]; rfl
        have hl : (cs[0]).length = 1024 := hv'.2.2 _ (List.getElem_mem hpos)
        have e : some ⟨n, .flat ((cs.getD 0 []).take (32 * n))⟩ = some w := by
          rw [← h]
          rcases hc with rfl | rfl
          · by_cases hr : realloc = true
            · rw [if_pos ⟨hn, hr⟩]
            · rw [if_neg (fun x => hr x.2), if_pos ⟨hn, rfl⟩]
          · rw [if_pos ⟨hn, rfl⟩]
        rw [eg] at e
        rw [← Option.some.inj e]
        refine ⟨rfl, ?_, fun p hp => ?_⟩
        · unfold WF; dsimp only; rw [List.length_take]; omega
        · unfold byteAt
          rw [hd]
          dsimp only
          rw [byteAt_take hp, show p / 1024 = 0 by omega, show p % 1024 = p by omega, List.getElem?_eq_getElem hpos]
          rfl
      · rw [if_neg h32, if_neg (by omega)] at h
        by_cases hm : n % 32 = 0
        · rw [if_neg (by omega)] at h
          rw [← Option.some.inj h]
          refine ⟨rfl, ?_, fun p hp => ?_⟩
          · refine ⟨by dsimp only; omega, ?_, fun c hc => hv'.2.2 c (List.mem_of_mem_take hc)⟩
            rw [List.length_take]; dsimp only; omega
          · unfold byteAt
            rw [hd]
            dsimp only
            rw [List.getElem?_take, if_pos (by omega)]
        · rw [if_pos hm] at h; simp at h
  obtain ⟨h1, h2, h3⟩ := key
  refine ⟨h1, h2, ?_⟩
  rw [← h1] at h3 hn ⊢
  exact elems_prefix hv h2 (by omega) h3

/-- C47: growing a vector in chunks appends zero elements, or is refused. Missing: vectors in one piece (`C47_false_grow`). -/
theorem C47_grow_partial (v w : Vec) (n : ℕ) (chop realloc : Bool) (hv : WF v) (hn : v.size < n) (cs : List Bytes) (hd : v.d = .chunks cs)
    (h : v.resize n chop realloc = some w) : w.size = n ∧ WF w ∧ elems w = elems v ++ List.replicate (n - v.size) (List.replicate 32 0) := by
  have hv' := hv
  unfold WF at hv'
  rw [hd] at hv'
  dsimp only at hv'
  rw [Vec.resize, if_neg (by omega), hd] at h
  dsimp only at h
  rw [if_neg (by omega), if_pos hn] at h
  split at h
  · simp at h
  rename_i hr
  have hm : n % 32 = 0 := by by_contra hx; exact hr (Or.inl hx)
  have hw : WF w := by
    rw [← Option.some.inj h]
    refine ⟨by dsimp only; omega, ?_, ?_⟩
    · rw [List.length_append, List.length_replicate]; dsimp only; omega
    · intro c hc
      rcases List.mem_append.mp hc with hc | hc
      · exact hv'.2.2 c hc
      · rw [List.eq_of_mem_replicate hc, List.length_replicate]
  have hws : w.size = n := by rw [← Option.some.inj h]
  refine ⟨hws, hw, ?_⟩
  apply List.ext_getElem?
  intro m
  by_cases h1 : m < v.size
  · rw [List.getElem?_append_left (by rw [elems_length]; exact h1), elems_get v h1, elems_get w (by omega)]
    congr 1
    apply List.ext_getElem?
    intro j
    rw [elem_get hw, elem_get hv]
    split
    · rename_i hj
      rw [← Option.some.inj h]
      unfold byteAt
      rw [hd]
      dsimp only
      rw [List.getElem?_append_left (by omega)]
    · rfl
  · rw [List.getElem?_append_right (by rw [elems_length]; omega), elems_length, List.getElem?_replicate]
    by_cases h2 : m < n
    · rw [if_pos (by omega), elems_get w (by omega)]
      congr 1
      apply List.ext_getElem?
      intro j
      rw [elem_get hw, List.getElem?_replicate]
      split
      · rename_i hj
        rw [← Option.some.inj h]
        unfold byteAt
        dsimp only
        rw [List.getElem?_append_right (by omega), List.getElem?_replicate, if_pos (by omega), Option.bind_some, List.getElem?_replicate,
          if_pos (by omega)]
      · rfl
    · rw [if_neg (by omega)]
      exact List.getElem?_eq_none (by rw [elems_length]; omega)

example : ∃ w, (Vec.new 64).resize 128 false false = some w ∧ ∃ w', w.resize 16 false false = some w' := ⟨_, rfl, _, rfl⟩

/-- C47 is false: growing a vector kept in one piece erases it. -/
theorem C47_false_grow : ∃ v w : Vec, v = ((Vec.new 2).read 0 (List.replicate 32 7)).1 ∧ v.resize 3 false false = some w ∧
    v.to 0 = some (List.replicate 32 7) ∧ w.to 0 = some (List.replicate 32 0) := ⟨_, _, rfl, rfl, by decide, by decide⟩

/-! ## Copying from another vector -/

theorem copyLoop_ok (src : Vec) (hsrc : WF src) (offset : ℕ) (n : ℕ) (hn : offset + n ≤ src.size) : ∀ (m : ℕ) (v : Vec), WF v → v.size = n → m ≤ n →
    (copyLoop src offset (List.range' (n - m) m) v).2 = true ∧ WF (copyLoop src offset (List.range' (n - m) m) v).1 ∧
    (copyLoop src offset (List.range' (n - m) m) v).1.size = n ∧
    elems (copyLoop src offset (List.range' (n - m) m) v).1 = ((elems v).take (n - m) ++ (elems src).drop (offset + (n - m))).take n := by
  intro m
  induction m with
  | zero =>
    intro v hv hs _
    refine ⟨rfl, hv, hs, ?_⟩
    show elems v = _
    rw [Nat.sub_zero, List.take_append_of_le_length (by rw [List.length_take, elems_length]; omega), List.take_take, Nat.min_self,
      List.take_of_length_le (by rw [elems_length]; omega)]
  | succ m ih =>
    intro v hv hs hm
    rw [List.range'_succ, copyLoop]
    have hk : n - (m + 1) + offset < src.size := by omega
    have hto : src.to ((n - (m + 1) + offset : ℕ) : ℤ) = (elems src)[n - (m + 1) + offset]? :=
      to_nat hsrc hk (by rw [idxize_eq (by omega), pyIdx_nat hk]; rfl)
    rw [hto, elems_get src hk]
    dsimp only
    have hlen : (((bytesOf src).drop (32 * (n - (m + 1) + offset))).take 32).length = 32 := by
      have hb : (bytesOf src)[32 * (n - (m + 1) + offset) + 31]? ≠ none := by
        rw [byteAt_eq hsrc]
        obtain ⟨x, hx⟩ := byteAt_some hsrc (p := 32 * (n - (m + 1) + offset) + 31) (by omega)
        rw [hx]; simp
      have hb : 32 * (n - (m + 1) + offset) + 31 < (bytesOf src).length := by
        by_contra hx
        exact hb (List.getElem?_eq_none (by omega))
      rw [List.length_take, List.length_drop]; omega
    have hkv : n - (m + 1) < v.size := by omega
    obtain ⟨h1, h2, h3, h4⟩ := read_nat hv hkv (i := ((n - (m + 1) : ℕ) : ℤ)) (by rw [idxize_eq (by omega), pyIdx_nat hkv]; rfl) (le_of_eq hlen.symm)
    rw [if_pos h1]
    have hadd : n - (m + 1) + 1 = n - m := by omega
    rw [hadd]
    obtain ⟨i1, i2, i3, i4⟩ := ih _ h2 (h3.trans hs) (by omega)
    refine ⟨i1, i2, i3, i4.trans ?_⟩
    rw [h4]
    congr 1
    have e1 := elems_get src hk
    have hk' : n - (m + 1) + offset < (elems src).length := by rw [elems_length]; exact hk
    rw [List.getElem?_eq_getElem hk'] at e1
    rw [show offset + (n - (m + 1)) = n - (m + 1) + offset by omega, List.drop_eq_getElem_cons hk', Option.some.inj e1,
      List.take_of_length_le (le_of_eq hlen), ← hadd,
      List.take_set, show offset + (n - (m + 1) + 1) = n - (m + 1) + offset + 1 by omega]
    have htk : (elems v).take (n - (m + 1) + 1) = (elems v).take (n - (m + 1)) ++ [(elems v)[n - (m + 1)]'(by rw [elems_length]; exact hkv)] :=
      (List.take_append_getElem (by rw [elems_length]; exact hkv)).symm
    have hlt : ((elems v).take (n - (m + 1))).length = n - (m + 1) := by rw [List.length_take, elems_length]; omega
    rw [htk, List.set_append_right _ _ (by rw [hlt]), hlt, Nat.sub_self, List.set_cons_zero, List.append_assoc]
    rfl

/-- C47: copying `n` elements from an offset of another vector gives them, for a plain source or at least 33 elements in whole chunks. Missing: a
source in chunks with a plain result (`C47_false_copy`). -/
theorem C47_copy_partial (n : ℕ) (src : Vec) (offset : ℕ) (hsrc : WF src) (hn : offset + n ≤ src.size)
    (h : (∃ b, src.d = .flat b) ∨ (n > 32 ∧ n % 32 = 0)) :
    (reallocInitFrom n src offset).2 = true ∧ WF (reallocInitFrom n src offset).1 ∧
    elems (reallocInitFrom n src offset).1 = ((elems src).drop offset).take n := by
  by_cases hc : n > 32 ∧ n % 32 = 0
  · have hw := wf_new n
    unfold Vec.new at hw
    have e : reallocInitFrom n src offset = copyLoop src offset (List.range n) ⟨n, setD n⟩ := by
      unfold reallocInitFrom setD
      rw [if_pos hc]
    rw [e, List.range_eq_range']
    obtain ⟨h1, h2, -, h4⟩ := copyLoop_ok src hsrc offset n hn n _ hw rfl le_rfl
    rw [Nat.sub_self] at h1 h2 h4
    refine ⟨h1, h2, h4.trans ?_⟩
    rw [List.take_zero, List.nil_append, Nat.add_zero]
  · obtain ⟨b, hb⟩ := h.resolve_right hc
    have hl := hsrc
    unfold WF at hl
    rw [hb] at hl
    dsimp only at hl
    have e : reallocInitFrom n src offset = (⟨n, .flat (memcpy (List.replicate (32 * n) 0) 0 b ((offset * 32 : ℕ) : ℤ) (32 * n)).1⟩,
        (memcpy (List.replicate (32 * n) 0) 0 b ((offset * 32 : ℕ) : ℤ) (32 * n)).2) := by
      unfold reallocInitFrom setD
      rw [if_neg hc, hb]
    rw [e]
    obtain ⟨h1, h2, h3⟩ := memcpy_ok b (32 * n) (List.replicate (32 * n) 0) 0 (offset * 32) (by simp) (by omega)
    rw [Nat.cast_zero] at h1 h2 h3
    have hw : WF ⟨n, .flat (memcpy (List.replicate (32 * n) 0) 0 b ((offset * 32 : ℕ) : ℤ) (32 * n)).1⟩ := by
      unfold WF; dsimp only; rw [h2, List.length_replicate]
    refine ⟨h1, hw, ?_⟩
    apply List.ext_getElem?
    intro m
    rw [List.getElem?_take, List.getElem?_drop]
    split
    · rename_i hm
      rw [elems_get _ hm, elems_get src (by omega)]
      congr 1
      apply List.ext_getElem?
      intro j
      rw [elem_get hw, elem_get hsrc]
      split
      · unfold byteAt
        rw [hb]
        dsimp only
        rw [h3, if_pos (by omega)]
        congr 1
        omega
      · rfl
    · exact List.getElem?_eq_none (by rw [elems_length]; dsimp only; omega)

example : WF (Vec.new 64) ∧ 32 + 32 ≤ (Vec.new 64).size := ⟨wf_new _, by decide⟩

/-- C47 is false: fewer than 32 elements of a vector in chunks are not copied at all, without an exception. -/
theorem C47_false_copy : ∃ src : Vec, src = ((Vec.new 64).read 0 (List.replicate 32 7)).1 ∧ src.to 0 = some (List.replicate 32 7) ∧
    (reallocInitFrom 16 src 0).2 = true ∧ (reallocInitFrom 16 src 0).1.to 0 = some (List.replicate 32 0) := by
  refine ⟨_, rfl, ?_, ?_, ?_⟩ <;> decide +kernel

/-! ## Saving and restoring -/

/-- C47: the size and the form of a vector survive being saved and restored, up to `2^60 - 1` elements. -/
theorem C47_save (size : ℕ) (chunked : Bool) (h : size < 2 ^ 60) : (pack size chunked).map unpack = some (size, chunked) := by
  have ht : size.testBit 60 = false := Nat.testBit_lt_two_pow h
  unfold pack
  rw [if_pos (by omega), Option.map_some]
  cases chunked with
  | false =>
    rw [if_neg (by decide), Nat.or_zero]
    unfold unpack
    rw [Nat.and_two_pow, ht]
    simp
  | true =>
    rw [if_pos rfl]
    have ho : (size ||| 2 ^ 60).testBit 60 = true := by rw [Nat.testBit_or, Nat.testBit_two_pow_self, Bool.or_true]
    have ha : size ||| 2 ^ 60 = 2 ^ 60 + size := by rw [Nat.or_comm]; exact (Nat.two_pow_add_eq_or_of_lt h 1 ▸ by simp)
    unfold unpack
    rw [Nat.and_two_pow, ho, ha]
    simp

/-- C47 is false at the largest size the check lets through: it is restored as zero, in chunks. -/
theorem C47_false_save : (pack (2 ^ 60) false).map unpack = some (0, true) := by decide +kernel

end Verif.KeyV
