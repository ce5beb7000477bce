import Verif.Model.VecTables
import Verif.Props.Fold

/-!
C127: the functions that build tables fill them with what they compute.
-/

namespace Verif.Bp
open Verif Ed Key Sig

theorem forRange_table {α : Type} (step : ℕ → Tbl α → Option (Tbl α)) (c : Bool) (z : α) (g : ℕ → α) (n : ℕ)
    (h : ∀ i < n, ∀ t : Tbl α, t.chunked = c → t.items.length = n → t.items[i]? = some z → step i t = some ⟨c, t.items.set i (g i)⟩) :
    forRange step n ⟨c, List.replicate n z⟩ = some ⟨c, (List.range n).map g⟩ := by
  have key : ∀ k ≤ n, forRange step k ⟨c, List.replicate n z⟩ = some ⟨c, (List.range k).map g ++ List.replicate (n - k) z⟩ := by
    intro k
    induction k with
    | zero => intro _; rfl
    | succ k ih =>
      intro hk
      rw [forRange, ih (by omega), Option.bind_some]
      have e : List.replicate (n - k) z = z :: List.replicate (n - (k + 1)) z := by
        rw [show n - k = n - (k + 1) + 1 by omega, List.replicate_succ]
      rw [h k (by omega) _ rfl (by simp; omega) (by rw [e]; exact get_mid _ _ _ (by simp))]
      congr 2
      dsimp only
      rw [e, set_mid _ _ _ _ (by simp), List.range_succ, List.map_append, List.append_assoc]
      rfl
  have := key n le_rfl
  rwa [Nat.sub_self, List.replicate_zero, List.append_nil] at this

theorem getD_at {α : Type} (a : List α) (d : α) {i : ℕ} (h : i < a.length) : a.getD i d = a[i] := by
  rw [List.getD_eq_getElem?_getD, List.getElem?_eq_getElem h, Option.getD_some]

theorem map_range_get {α β : Type} (f : α → β) (a : List α) (d : α) : (List.range a.length).map (fun i => f (a.getD i d)) = a.map f := by
  apply List.ext_getElem?
  intro i
  rw [List.getElem?_map, List.getElem?_map]
  by_cases hi : i < a.length
  · rw [List.getElem?_range hi, List.getElem?_eq_getElem hi]; simp [hi]
  · rw [List.getElem?_eq_none (by simpa using hi), List.getElem?_eq_none (by simpa using hi)]; rfl

/-- C127: a constant vector holds the constant everywhere, chunked or not. -/
theorem C127_dup {α : Type} (zero x : α) (n : ℕ) : (vectorDup zero x n).map Tbl.items = some (List.replicate n x) := by
  unfold vectorDup Tbl.new
  rw [forRange_table _ _ zero (fun _ => x) n (fun i hi t hc hl _ => by rw [Tbl.read, if_pos (by omega), ← hc]), Option.map_some]
  simp

/-- C127: sums and differences of vectors are element-wise for every length; a second vector that is too short raises. -/
theorem C127_op (op : ℤ → ℤ → ℤ) (a b : List ℤ) :
    (a.length ≤ b.length → (vectorOp op a b).map Tbl.items = some (a.zipWith op b)) ∧ (b.length < a.length → vectorOp op a b = none) := by
  refine ⟨fun h => ?_, fun h => ?_⟩
  · unfold vectorOp Tbl.new
    rw [forRange_table _ _ 0 (fun i => op (a.getD i 0) (b.getD i 0)) a.length (fun i hi t hc hl _ => by
      rw [List.getElem?_eq_getElem hi, List.getElem?_eq_getElem (show i < b.length by omega), Option.bind_some, Option.bind_some, Tbl.read,
        if_pos (by omega), ← hc, getD_at _ _ hi, getD_at _ _ (show i < b.length by omega)]), Option.map_some]
    congr 1
    apply List.ext_getElem?
    intro i
    rw [List.getElem?_map, List.getElem?_zipWith]
    by_cases hi : i < a.length
    · have hb : i < b.length := by omega
      rw [List.getElem?_range hi, List.getElem?_eq_getElem hi, List.getElem?_eq_getElem hb, Option.map_some, getD_at _ _ hi,
        getD_at _ _ hb]
    · rw [List.getElem?_eq_none (by simpa using hi), List.getElem?_eq_none (by omega : a.length ≤ i)]
      rfl
  · have key : ∀ k, b.length < k → ∀ s, forRange (fun i (t : Tbl ℤ) => a[i]?.bind fun x => b[i]?.bind fun y => t.read i (op x y)) k s = none := by
      intro k
      induction k with
      | zero => intro hk; omega
      | succ k ih =>
        intro hk s
        rw [forRange]
        by_cases hb : b.length < k
        · rw [ih hb]; rfl
        · have : k = b.length := by omega
          subst this
          rw [List.getElem?_eq_none (le_refl b.length)]
          cases forRange (fun i (t : Tbl ℤ) => a[i]?.bind fun x => b[i]?.bind fun y => t.read i (op x y)) b.length s with
          | none => rfl
          | some t => rw [Option.bind_some]; cases a[b.length]? <;> rfl
    exact key _ h _

/-- C127: multiples of a vector that is not chunked (at most 32 elements, or a length that is no multiple of 32) are element-wise. -/
theorem C127_scaled_partial {α : Type} (zero : α) (f : α → Option α) (g : α → α) (a : List α) (hf : ∀ x ∈ a, f x = some (g x))
    (hn : ¬(a.length > 32 ∧ a.length % 32 = 0)) : (vectorScaled zero f a).map Tbl.items = some (a.map g) := by
  unfold vectorScaled Tbl.new
  rw [forRange_table _ _ zero (fun i => g (a.getD i zero)) a.length (fun i hi t hc hl _ => by
    rw [List.getElem?_eq_getElem hi, Option.bind_some, hf _ (List.getElem_mem hi), Option.bind_some, Tbl.through, if_pos (by omega), hc,
      decide_eq_false hn, if_neg (by decide), getD_at _ _ hi]), Option.map_some, map_range_get]

/-- For chunked vectors, among them those of 64 elements, every multiple is lost: the result is zero, whatever the vector and the scalar. -/
theorem C127_false_scaled {α : Type} (zero : α) (f : α → Option α) (g : α → α) (a : List α) (hf : ∀ x ∈ a, f x = some (g x))
    (hn : a.length > 32 ∧ a.length % 32 = 0) : (vectorScaled zero f a).map Tbl.items = some (List.replicate a.length zero) := by
  unfold vectorScaled Tbl.new
  rw [forRange_table _ _ zero (fun _ => zero) a.length (fun i hi t hc hl hz => by
    rw [List.getElem?_eq_getElem hi, Option.bind_some, hf _ (List.getElem_mem hi), Option.bind_some, Tbl.through, if_pos (by omega), hc,
      decide_eq_true hn, if_pos rfl]
    obtain ⟨tc, ti⟩ := t
    dsimp only at hc hl hz ⊢
    rw [hc, decide_eq_true hn]
    congr 2
    apply List.ext_getElem?
    intro j
    rw [List.getElem?_set]
    split
    · rename_i h; subst h; rw [if_pos (by omega), hz]
    · rfl), Option.map_some]
  simp

/-- C127: the total is the sum modulo the order. -/
theorem C127_total (a : List ℤ) : vectorTotal a = some (a.sum % l) := by
  unfold vectorTotal
  have key : ∀ k ≤ a.length, forRange (fun i s => a[i]?.map fun x => scAdd s x) k 0 = some ((a.take k).sum % l) := by
    intro k
    induction k with
    | zero => intro _; rfl
    | succ k ih =>
      intro hk
      rw [forRange, ih (by omega), Option.bind_some, List.getElem?_eq_getElem (by omega), Option.map_some, List.take_add_one,
        List.getElem?_eq_getElem (by omega : k < a.length), List.sum_append]
      simp [scAdd]
  have := key _ le_rfl
  rwa [List.take_length] at this

/-- C127: the vector `z^{2+j} 2^c` computed on demand, from the tables of powers: at index `i` it is `z^{2+⌊i/N⌋} 2^{i mod N}`. -/
theorem C127_ztwo {z : ℤ} (hz : 0 ≤ z ∧ z < l) (logN M i : ℕ) (hi : i < M * 2 ^ logN) :
    zTwoAt logN (vectorPowers z (M + 2)) (vectorPowers 2 (2 ^ logN)) i = some (z ^ (2 + i / 2 ^ logN) * 2 ^ (i % 2 ^ logN) % l) := by
  have h2 : (0 : ℤ) ≤ 2 ∧ (2 : ℤ) < l := by decide +kernel
  have hj : i / 2 ^ logN < M := Nat.div_lt_of_lt_mul (by rwa [Nat.mul_comm] at hi)
  unfold zTwoAt
  rw [Nat.shiftRight_eq_div_pow, Nat.one_shiftLeft, Nat.and_two_pow_sub_one_eq_mod, (C126_powers z hz (M + 2)).2 _ (by omega), Option.bind_some,
    (C126_powers 2 h2 (2 ^ logN)).2 _ (Nat.mod_lt _ (by positivity)), Option.map_some, scMul, Int.mul_emod, Int.emod_emod, Int.emod_emod, ← Int.mul_emod,
    Nat.add_comm]

theorem inner_eq {N : ℕ} (zpow twoN : List ℤ) {i : ℕ} (a b : ℤ) (ha : zpow[2 + i / N]? = some a) (hb : twoN[i % N]? = some b) (hN : 0 < N)
    (t : Tbl ℤ) (ht : t.items[i]? = some 0) : ∀ M, forRange (zTwoInner N zpow twoN i) M t = if i / N < M then t.through i (scMuladd a b 0) else some t
  | 0 => by rw [if_neg (Nat.not_lt_zero _)]; rfl
  | M + 1 => by
    rw [forRange, inner_eq zpow twoN a b ha hb hN t ht M]
    have hmod := Nat.div_add_mod i N
    have hlt := Nat.mod_lt i hN
    have hli : i < t.items.length := (List.getElem?_eq_some_iff.mp ht).1
    rcases Nat.lt_trichotomy (i / N) M with h | h | h
    · rw [if_pos h, if_pos (by omega)]
      have : ¬(M * N ≤ i ∧ i < (M + 1) * N) := by
        rintro ⟨h1, _⟩
        have : M ≤ i / N := (Nat.le_div_iff_mul_le hN).mpr h1
        omega
      have e : ∀ t : Tbl ℤ, zTwoInner N zpow twoN i M t = some t := fun t => by rw [zTwoInner, if_neg this]
      rw [Tbl.through, if_pos hli, Option.bind_some, e]
    · rw [if_neg (by omega), if_pos (by omega), Option.bind_some, zTwoInner]
      rw [Nat.mul_comm] at hmod
      subst h
      rw [if_pos ⟨by omega, by rw [Nat.add_mul, Nat.one_mul]; omega⟩, ha, show i - i / N * N = i % N by omega, hb, ht]
      rfl
    · rw [if_neg (by omega), if_neg (by omega), Option.bind_some, zTwoInner, if_neg]
      rintro ⟨_, h2⟩
      have : i / N < M + 1 := (Nat.div_lt_iff_lt_mul hN).mpr h2
      omega

/-- C127: the table of these values built beforehand is the same, as long as it is not chunked. -/
theorem C127_ztwo_static_partial {z : ℤ} (hz : 0 ≤ z ∧ z < l) (logN M : ℕ) (hn : ¬(M * 2 ^ logN > 32 ∧ M * 2 ^ logN % 32 = 0)) :
    (zTwoStatic (2 ^ logN) M (vectorPowers z (M + 2)) (vectorPowers 2 (2 ^ logN))).map Tbl.items =
      some ((List.range (M * 2 ^ logN)).map fun i => z ^ (2 + i / 2 ^ logN) * 2 ^ (i % 2 ^ logN) % l) := by
  have h2 : (0 : ℤ) ≤ 2 ∧ (2 : ℤ) < l := by decide +kernel
  have hN : 0 < 2 ^ logN := by positivity
  unfold zTwoStatic Tbl.new
  rw [forRange_table _ _ 0 (fun i => z ^ (2 + i / 2 ^ logN) * 2 ^ (i % 2 ^ logN) % l) (M * 2 ^ logN) (fun i hi t hc hl _ => by
    have hj : i / 2 ^ logN < M := Nat.div_lt_of_lt_mul (by rwa [Nat.mul_comm] at hi)
    rw [Tbl.read, if_pos (by omega), Option.bind_some, inner_eq _ _ _ _ ((C126_powers z hz (M + 2)).2 _ (by omega))
      ((C126_powers 2 h2 (2 ^ logN)).2 _ (Nat.mod_lt _ hN)) hN _ (by simp [hl, hi]), if_pos hj, Tbl.through, if_pos (by simp [hl, hi])]
    dsimp only
    rw [hc, decide_eq_false hn, if_neg (by decide), List.set_set]
    congr 3
    rw [scMuladd, zero_add, Int.mul_emod, Int.emod_emod, Int.emod_emod, ← Int.mul_emod])]
  rfl

/-- With 64 bits per amount it is always chunked, and then all its elements are zero. -/
theorem C127_false_ztwo {z : ℤ} (hz : 0 ≤ z ∧ z < l) (M : ℕ) (hM : 0 < M) :
    (zTwoStatic 64 M (vectorPowers z (M + 2)) (vectorPowers 2 64)).map Tbl.items = some (List.replicate (M * 64) 0) := by
  have h2 : (0 : ℤ) ≤ 2 ∧ (2 : ℤ) < l := by decide +kernel
  have hn : M * 64 > 32 ∧ M * 64 % 32 = 0 := by omega
  unfold zTwoStatic Tbl.new
  rw [forRange_table _ _ 0 (fun _ => 0) (M * 64) (fun i hi t hc hl _ => by
    rw [Tbl.read, if_pos (by omega), Option.bind_some, inner_eq _ _ _ _ ((C126_powers z hz (M + 2)).2 _ (by omega))
      ((C126_powers 2 h2 64).2 _ (Nat.mod_lt _ (by omega))) (by omega) _ (by simp [hl, hi]), if_pos (by omega), Tbl.through, if_pos (by simp [hl, hi])]
    dsimp only
    rw [hc, decide_eq_true hn, if_pos rfl])]
  simp

theorem exponents_eq (H : Bytes → Bytes) (n : ℕ) : initExponents H n =
    (forRange (fun i t => t.through i (getExponent H (i * 2 + 1))) n (Tbl.new (List.replicate 32 0) n)).bind fun g =>
      (forRange (fun i t => t.through i (getExponent H (i * 2))) n (Tbl.new (List.replicate 32 0) n)).map fun h => (g, h) := by
  unfold initExponents
  generalize Tbl.new (List.replicate 32 (0 : UInt8)) n = t0
  induction n with
  | zero => rfl
  | succ n ih =>
    rw [forRange, ih, forRange, forRange]
    cases forRange (fun i t => t.through i (getExponent H (i * 2 + 1))) n t0 with
    | none => rfl
    | some g =>
      cases forRange (fun i t => t.through i (getExponent H (i * 2))) n t0 with
      | none => simp only [Option.bind_some, Option.map_none, Option.bind_none]; cases g.through n (getExponent H (n * 2 + 1)) <;> rfl
      | some h =>
        simp only [Option.bind_some, Option.map_some]
        cases g.through n (getExponent H (n * 2 + 1)) with
        | none => cases h.through n (getExponent H (n * 2)) <;> rfl
        | some g => cases h.through n (getExponent H (n * 2)) <;> rfl

theorem through_fill {α : Type} (zero : α) (g : ℕ → α) (n : ℕ) : (forRange (fun i t => t.through i (g i)) n (Tbl.new zero n)).map Tbl.items =
    some (if n > 32 ∧ n % 32 = 0 then List.replicate n zero else (List.range n).map g) := by
  have e := C127_scaled_partial zero (fun x => some x) id ((List.range n).map g) (fun _ _ => rfl)
  have e' := C127_false_scaled zero (fun x => some x) id ((List.range n).map g) (fun _ _ => rfl)
  have s : ∀ k ≤ n, ∀ t0, forRange (fun i t => ((List.range n).map g)[i]?.bind fun x => (some x).bind fun y => Tbl.through t i y) k t0 =
      forRange (fun i t => t.through i (g i)) k t0 := by
    intro k
    induction k with
    | zero => intro _ _; rfl
    | succ k ih =>
      intro hk t0
      rw [forRange, forRange, ih (by omega)]
      congr 1
      funext t
      rw [List.getElem?_map, List.getElem?_range (by omega)]
      rfl
  unfold vectorScaled at e e'
  rw [List.length_map, List.length_range, s n le_rfl] at e e'
  split
  · rename_i h; exact e' h
  · rename_i h; rw [e h, List.map_id]

/-- C127: the tables of generators: the elements with odd and even numbers, as long as the tables are not chunked. -/
theorem C127_generators_partial (H : Bytes → Bytes) (n : ℕ) (hn : ¬(n > 32 ∧ n % 32 = 0)) : (initExponents H n).map (fun t => (t.1.items, t.2.items)) =
    some ((List.range n).map fun i => getExponent H (2 * i + 1), (List.range n).map fun i => getExponent H (2 * i)) := by
  have hg := through_fill (List.replicate 32 (0 : UInt8)) (fun i => getExponent H (i * 2 + 1)) n
  have hh := through_fill (List.replicate 32 (0 : UInt8)) (fun i => getExponent H (i * 2)) n
  rw [if_neg hn] at hg hh
  obtain ⟨g, e1, e2⟩ := Option.map_eq_some_iff.mp hg
  obtain ⟨h, e3, e4⟩ := Option.map_eq_some_iff.mp hh
  rw [exponents_eq, e1, e3]
  simp only [Option.bind_some, Option.map_some, e2, e4, Nat.mul_comm]

/-- With the default of 64 both tables stay zero: no generator is stored. -/
theorem C127_false_generators (H : Bytes → Bytes) : (initExponents H 64).map (fun t => (t.1.items, t.2.items)) =
    some (List.replicate 64 (List.replicate 32 0), List.replicate 64 (List.replicate 32 0)) := by
  have hg := through_fill (List.replicate 32 (0 : UInt8)) (fun i => getExponent H (i * 2 + 1)) 64
  have hh := through_fill (List.replicate 32 (0 : UInt8)) (fun i => getExponent H (i * 2)) 64
  rw [if_pos (by omega)] at hg hh
  obtain ⟨g, e1, e2⟩ := Option.map_eq_some_iff.mp hg
  obtain ⟨h, e3, e4⟩ := Option.map_eq_some_iff.mp hh
  rw [exponents_eq, e1, e3]
  simp only [Option.bind_some, Option.map_some, e2, e4]

example : (vectorScaled 0 (fun x => some (scMul x 3)) [1, 2, 5]).map Tbl.items = some [3, 6, 15] ∧
    (vectorOp scAdd [1, 2] [3, 4]).map Tbl.items = some [4, 6] ∧
    (zTwoStatic 2 2 (vectorPowers 3 4) (vectorPowers 2 2)).map Tbl.items = some [9, 18, 27, 54] := by decide +kernel

example : (vectorScaled 0 (fun x => some (scMul x 3)) (List.replicate 64 1)).map Tbl.items = some (List.replicate 64 0) := by decide +kernel

end Verif.Bp
