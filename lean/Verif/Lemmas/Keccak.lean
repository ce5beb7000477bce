import Verif.Model.Keccak
import Verif.Spec.Keccak
import Mathlib.Data.Nat.Bitwise
import Mathlib.Tactic.IntervalCases
import Mathlib.Tactic.Linarith
import Mathlib.Tactic.Ring

/-! The Python rounds compute the rounds of the specification. -/

namespace Verif.Keccak
open Verif

/-- The table of lanes holds the bits of the state. -/
def Rep (s : Lanes) (A : KeccakSpec.State) : Prop :=
  ∀ x y, x < 5 → y < 5 → lane s x y < 2 ^ 64 ∧ ∀ z < 64, (lane s x y).testBit z = A x y z

/-- The table has five rows and columns. -/
def Shape (s : Lanes) : Prop := s.length = 5 ∧ ∀ c ∈ s, c.length = 5

theorem lane_table (f : ℕ → ℕ → ℕ) {x y : ℕ} (hx : x < 5) (hy : y < 5) : lane (table f) x y = f x y := by
  interval_cases x <;> interval_cases y <;> rfl

theorem shape_table (f : ℕ → ℕ → ℕ) : Shape (table f) := by
  refine ⟨rfl, fun c hc => ?_⟩
  obtain ⟨x, -, rfl⟩ := List.mem_map.mp hc
  rfl

theorem rol_testBit {v k : ℕ} (hv : v < 2 ^ 64) (hk : k < 64) {z : ℕ} (hz : z < 64) : (rol v k 64).testBit z = v.testBit ((z + 64 - k) % 64) := by
  rw [rol, Nat.testBit_or, Nat.testBit_shiftLeft, Nat.testBit_shiftRight, Nat.testBit_and, Nat.testBit_two_pow_sub_one]
  by_cases h : k ≤ z
  · have e : (z + 64 - k) % 64 = z - k := by omega
    have hf : v.testBit (64 - k + z) = false := Nat.testBit_lt_two_pow (lt_of_lt_of_le hv (Nat.pow_le_pow_right (by omega) (by omega)))
    rw [e, hf]
    have h1 : z - k < 64 - k := by omega
    simp [h, h1]
  · have e : (z + 64 - k) % 64 = 64 - k + z := by omega
    rw [e]
    simp [h]

theorem rol_lt {v k : ℕ} (hv : v < 2 ^ 64) (hk : k < 64) : rol v k 64 < 2 ^ 64 := by
  rw [rol]
  apply Nat.or_lt_two_pow
  · rw [Nat.shiftLeft_eq]
    have h1 : v &&& (2 ^ (64 - k) - 1) < 2 ^ (64 - k) := by
      rw [Nat.and_two_pow_sub_one_eq_mod]
      exact Nat.mod_lt _ (Nat.two_pow_pos _)
    calc _ < 2 ^ (64 - k) * 2 ^ k := Nat.mul_lt_mul_of_pos_right h1 (Nat.two_pow_pos _)
      _ = 2 ^ 64 := by rw [← pow_add]; congr 1; omega
  · exact lt_of_le_of_lt (by rw [Nat.shiftRight_eq_div_pow]; exact Nat.div_le_self _ _) hv

theorem shape_cases {s : Lanes} (h : Shape s) : s = table (lane s) := by
  obtain ⟨hl, hc⟩ := h
  match s, hl with
  | [a, b, c, d, e], _ =>
    have ha := hc a (by simp)
    have hb := hc b (by simp)
    have hcc := hc c (by simp)
    have hd := hc d (by simp)
    have he := hc e (by simp)
    match a, ha, b, hb, c, hcc, d, hd, e, he with
    | [_, _, _, _, _], _, [_, _, _, _, _], _, [_, _, _, _, _], _, [_, _, _, _, _], _, [_, _, _, _, _], _ => rfl

theorem theta_lane (f : ℕ → ℕ → ℕ) {x y : ℕ} (hx : x < 5) (hy : y < 5) : lane (theta (table f)) x y =
    f x y ^^^ ((0 ^^^ f ((x + 4) % 5) 0 ^^^ f ((x + 4) % 5) 1 ^^^ f ((x + 4) % 5) 2 ^^^ f ((x + 4) % 5) 3 ^^^ f ((x + 4) % 5) 4) ^^^
      rol (0 ^^^ f ((x + 1) % 5) 0 ^^^ f ((x + 1) % 5) 1 ^^^ f ((x + 1) % 5) 2 ^^^ f ((x + 1) % 5) 3 ^^^ f ((x + 1) % 5) 4) 1 64) := by
  interval_cases x <;> interval_cases y <;> rfl

theorem rep_theta {s : Lanes} {A : KeccakSpec.State} (hs : Shape s) (h : Rep s A) : Rep (theta s) (KeccakSpec.theta A) := by
  intro x y hx hy
  rw [shape_cases hs, theta_lane _ hx hy, Nat.zero_xor]
  have x4 : (x + 4) % 5 < 5 := Nat.mod_lt _ (by omega)
  have x1 : (x + 1) % 5 < 5 := Nat.mod_lt _ (by omega)
  have hc : ∀ x' < 5, lane s x' 0 ^^^ lane s x' 1 ^^^ lane s x' 2 ^^^ lane s x' 3 ^^^ lane s x' 4 < 2 ^ 64 ∧
      ∀ z < 64, (lane s x' 0 ^^^ lane s x' 1 ^^^ lane s x' 2 ^^^ lane s x' 3 ^^^ lane s x' 4).testBit z = KeccakSpec.parity A x' z := by
    intro x' hx'
    refine ⟨?_, fun z hz => ?_⟩
    · exact Nat.xor_lt_two_pow (Nat.xor_lt_two_pow (Nat.xor_lt_two_pow (Nat.xor_lt_two_pow (h x' 0 hx' (by omega)).1 (h x' 1 hx' (by omega)).1)
        (h x' 2 hx' (by omega)).1) (h x' 3 hx' (by omega)).1) (h x' 4 hx' (by omega)).1
    · simp only [Nat.testBit_xor, (h x' 0 hx' (by omega)).2 z hz, (h x' 1 hx' (by omega)).2 z hz, (h x' 2 hx' (by omega)).2 z hz,
        (h x' 3 hx' (by omega)).2 z hz, (h x' 4 hx' (by omega)).2 z hz, KeccakSpec.parity]
  refine ⟨?_, fun z hz => ?_⟩
  · exact Nat.xor_lt_two_pow (h x y hx hy).1 (Nat.xor_lt_two_pow (hc _ x4).1 (rol_lt (by rw [Nat.zero_xor]; exact (hc _ x1).1) (by omega)))
  · rw [Nat.testBit_xor, Nat.testBit_xor, (h x y hx hy).2 z hz, (hc _ x4).2 z hz, Nat.zero_xor, rol_testBit (hc _ x1).1 (by omega) hz,
      (hc _ x1).2 _ (Nat.mod_lt _ (by omega))]
    rfl

theorem rhoPi_lane (s : Lanes) {x y : ℕ} (hx : x < 5) (hy : y < 5) :
    lane (rhoPi s) x y = rol (lane s ((x + 3 * y) % 5) x) ((rotationConstants.getD x []).getD ((x + 3 * y) % 5) 0) 64 := by
  have key : ∀ g : ℕ → ℕ → ℕ, (List.range 5).foldl (fun b x => (List.range 5).foldl (fun b y => setLane b (y % 5) ((2 * x + 3 * y) % 5) (g x y)) b)
      (table fun _ _ => 0) = table fun x y => g ((x + 3 * y) % 5) x := fun g => by
    simp [show List.range 5 = [0, 1, 2, 3, 4] from rfl, setLane, table]
  rw [rhoPi, key fun x y => rol (lane s x y) ((rotationConstants.getD y []).getD x 0) 64, lane_table _ hx hy]

theorem rot_offset {x y : ℕ} (hx : x < 5) (hy : y < 5) : (rotationConstants.getD y []).getD x 0 = KeccakSpec.offset x y % 64 := by
  interval_cases x <;> interval_cases y <;> decide

theorem rep_rhoPi {s : Lanes} {A : KeccakSpec.State} (h : Rep s A) : Rep (rhoPi s) (KeccakSpec.pi (KeccakSpec.rho A)) := by
  intro x y hx hy
  have hm : (x + 3 * y) % 5 < 5 := Nat.mod_lt _ (by omega)
  obtain ⟨h1, h2⟩ := h _ x hm hx
  rw [rhoPi_lane s hx hy, rot_offset hm hx]
  have hk : KeccakSpec.offset ((x + 3 * y) % 5) x % 64 < 64 := Nat.mod_lt _ (by omega)
  refine ⟨rol_lt h1 hk, fun z hz => ?_⟩
  rw [rol_testBit h1 hk hz, h2 _ (Nat.mod_lt _ (by omega))]
  rfl

theorem rep_chi {s : Lanes} {A : KeccakSpec.State} (h : Rep s A) : Rep (chi s) (KeccakSpec.chi A) := by
  intro x y hx hy
  have x1 : (x + 1) % 5 < 5 := Nat.mod_lt _ (by omega)
  have x2 : (x + 2) % 5 < 5 := Nat.mod_lt _ (by omega)
  rw [chi, lane_table _ hx hy]
  refine ⟨Nat.xor_lt_two_pow (h x y hx hy).1 (Nat.xor_lt_two_pow (h _ y x2 hy).1 (lt_of_le_of_lt Nat.and_le_right (h _ y x2 hy).1)), fun z hz => ?_⟩
  rw [Nat.testBit_xor, Nat.testBit_xor, Nat.testBit_and, (h x y hx hy).2 z hz, (h _ y x1 hy).2 z hz, (h _ y x2 hy).2 z hz, KeccakSpec.chi]
  cases A x y z <;> cases A ((x + 1) % 5) y z <;> cases A ((x + 2) % 5) y z <;> rfl

theorem shape_chi (s : Lanes) : Shape (chi s) := shape_table _

theorem iota_lane (f : ℕ → ℕ → ℕ) (rc : ℕ) {x y : ℕ} (hx : x < 5) (hy : y < 5) :
    lane (iota rc (table f)) x y = if x = 0 ∧ y = 0 then f x y ^^^ rc else f x y := by
  interval_cases x <;> interval_cases y <;> rfl

theorem shape_iota (f : ℕ → ℕ → ℕ) (rc : ℕ) : Shape (iota rc (table f)) := by
  refine ⟨rfl, fun c hc => ?_⟩
  have : iota rc (table f) = table fun x y => if x = 0 ∧ y = 0 then f x y ^^^ rc else f x y := rfl
  rw [this] at hc
  exact (shape_table _).2 c hc

theorem rep_iota {s : Lanes} {A : KeccakSpec.State} (hs : Shape s) (h : Rep s A) {rc ir : ℕ} (hrc : rc < 2 ^ 64)
    (hb : ∀ z < 64, rc.testBit z = KeccakSpec.rc ir z) : Rep (iota rc s) (KeccakSpec.iota ir A) := by
  intro x y hx hy
  rw [shape_cases hs, iota_lane _ _ hx hy]
  obtain ⟨h1, h2⟩ := h x y hx hy
  by_cases h0 : x = 0 ∧ y = 0
  · rw [if_pos h0]
    refine ⟨Nat.xor_lt_two_pow h1 hrc, fun z hz => ?_⟩
    rw [Nat.testBit_xor, h2 z hz, hb z hz, KeccakSpec.iota, if_pos h0]
  · rw [if_neg h0]
    refine ⟨h1, fun z hz => ?_⟩
    rw [h2 z hz, KeccakSpec.iota, if_neg h0]

theorem rep_round {s : Lanes} {A : KeccakSpec.State} (hs : Shape s) (h : Rep s A) {rc ir : ℕ} (hrc : rc < 2 ^ 64)
    (hb : ∀ z < 64, rc.testBit z = KeccakSpec.rc ir z) : Rep (round s rc) (KeccakSpec.round ir A) ∧ Shape (round s rc) :=
  ⟨rep_iota (shape_chi _) (rep_chi (rep_rhoPi (rep_theta hs h))) hrc hb, shape_iota _ _⟩

theorem roundConstants_ok : ∀ ir < 24, roundConstants.getD ir 0 < 2 ^ 64 ∧ ∀ z < 64, (roundConstants.getD ir 0).testBit z = KeccakSpec.rc ir z := by
  decide +kernel

theorem rep_keccakF {s : Lanes} {A : KeccakSpec.State} (hs : Shape s) (h : Rep s A) : Rep (keccakF s) (KeccakSpec.keccakF A) ∧ Shape (keccakF s) := by
  have e : roundConstants = (List.range 24).map fun ir => roundConstants.getD ir 0 := by decide
  rw [keccakF, e, List.foldl_map, KeccakSpec.keccakF]
  have key : ∀ (l : List ℕ), (∀ ir ∈ l, ir < 24) → ∀ (s : Lanes) (A : KeccakSpec.State), Shape s → Rep s A →
      Rep (l.foldl (fun s ir => round s (roundConstants.getD ir 0)) s) (l.foldl (fun A ir => KeccakSpec.round ir A) A) ∧
      Shape (l.foldl (fun s ir => round s (roundConstants.getD ir 0)) s) := by
    intro l
    induction l with
    | nil => intro _ s A hs h; exact ⟨h, hs⟩
    | cons ir l ih =>
      intro hl s A hs h
      obtain ⟨h1, h2⟩ := roundConstants_ok ir (hl ir (by simp))
      obtain ⟨h3, h4⟩ := rep_round hs h h1 h2
      exact ih (fun i hi => hl i (by simp [hi])) _ _ h4 h3
  exact key _ (fun ir h => List.mem_range.mp h) s A hs h

/-! ## Bytes and lanes -/

theorem bytes2lane_cons (b : UInt8) (bb : Bytes) : bytes2lane (b :: bb) = (bytes2lane bb <<< 8) ||| b.toNat := by
  rw [bytes2lane, List.reverse_cons, List.foldl_append]
  rfl

theorem bytes2lane_testBit (bb : Bytes) : ∀ z, (bytes2lane bb).testBit z = (bb.getD (z / 8) 0).toNat.testBit (z % 8) := by
  induction bb with
  | nil => intro z; simp [bytes2lane]
  | cons b bb ih =>
    intro z
    rw [bytes2lane_cons, Nat.testBit_or, Nat.testBit_shiftLeft]
    have hb : b.toNat < 2 ^ 8 := b.toNat_lt
    by_cases h : z < 8
    · rw [Nat.div_eq_of_lt h, Nat.mod_eq_of_lt h]
      simp [show ¬ 8 ≤ z by omega]
    · have hf : b.toNat.testBit z = false := Nat.testBit_lt_two_pow (lt_of_lt_of_le hb (Nat.pow_le_pow_right (by omega) (by omega)))
      rw [hf, ih, show z / 8 = (z - 8) / 8 + 1 by omega, show z % 8 = (z - 8) % 8 by omega, List.getD_cons_succ]
      simp [show 8 ≤ z by omega]

theorem bytes2lane_lt (bb : Bytes) (h : bb.length ≤ 8) : bytes2lane bb < 2 ^ 64 := by
  apply Nat.lt_pow_two_of_testBit
  intro z hz
  rw [bytes2lane_testBit, List.getD_eq_getElem?_getD, List.getElem?_eq_none (by omega)]
  simp

theorem bits_getD (m : Bytes) : ∀ n, (KeccakSpec.bits m).getD n false = (m.getD (n / 8) 0).toNat.testBit (n % 8) := by
  induction m with
  | nil => intro n; simp [KeccakSpec.bits]
  | cons b m ih =>
    intro n
    have e : KeccakSpec.bits (b :: m) = (List.range 8).map b.toNat.testBit ++ KeccakSpec.bits m := rfl
    rw [e, List.getD_eq_getElem?_getD]
    by_cases h : n < 8
    · rw [List.getElem?_append_left (by simpa using h), Nat.div_eq_of_lt h, Nat.mod_eq_of_lt h, List.getElem?_map, List.getElem?_range h]
      rfl
    · rw [List.getElem?_append_right (by simpa using h), ← List.getD_eq_getElem?_getD, List.length_map, List.length_range, ih,
        show n / 8 = (n - 8) / 8 + 1 by omega, show n % 8 = (n - 8) % 8 by omega, List.getD_cons_succ]

theorem bits_length (m : Bytes) : (KeccakSpec.bits m).length = 8 * m.length := by
  induction m with
  | nil => rfl
  | cons b m ih =>
    have e : KeccakSpec.bits (b :: m) = (List.range 8).map b.toNat.testBit ++ KeccakSpec.bits m := rfl
    rw [e, List.length_append, ih, List.length_cons]
    simp; omega

theorem bits_append (a b : Bytes) : KeccakSpec.bits (a ++ b) = KeccakSpec.bits a ++ KeccakSpec.bits b := by simp [KeccakSpec.bits]

theorem bits_take (m : Bytes) (n : ℕ) : KeccakSpec.bits (m.take n) = (KeccakSpec.bits m).take (8 * n) := by
  have e : KeccakSpec.bits m = KeccakSpec.bits (m.take n) ++ KeccakSpec.bits (m.drop n) := by rw [← bits_append, List.take_append_drop]
  have hl : (KeccakSpec.bits (m.take n)).length = 8 * min n m.length := by rw [bits_length, List.length_take]
  rw [e]
  by_cases h : n ≤ m.length
  · rw [List.take_append_of_le_length (by omega)]
    exact (List.take_of_length_le (by omega)).symm
  · have : KeccakSpec.bits (m.drop n) = [] := by rw [List.drop_of_length_le (by omega)]; rfl
    rw [this, List.append_nil]
    exact (List.take_of_length_le (by omega)).symm

theorem bits_drop (m : Bytes) (n : ℕ) : KeccakSpec.bits (m.drop n) = (KeccakSpec.bits m).drop (8 * n) := by
  have e : KeccakSpec.bits m = KeccakSpec.bits (m.take n) ++ KeccakSpec.bits (m.drop n) := by rw [← bits_append, List.take_append_drop]
  have hl : (KeccakSpec.bits (m.take n)).length = 8 * min n m.length := by rw [bits_length, List.length_take]
  by_cases h : n ≤ m.length
  · rw [e, List.drop_append_of_le_length (by omega), List.drop_of_length_le (l := KeccakSpec.bits (m.take n)) (by omega), List.nil_append]
  · have : KeccakSpec.bits (m.drop n) = [] := by rw [List.drop_of_length_le (by omega)]; rfl
    rw [this]
    exact (List.drop_of_length_le (by rw [bits_length]; omega)).symm

theorem rep_absorbState {s : Lanes} {A : KeccakSpec.State} (h : Rep s A) (bb : Bytes) :
    Rep (absorbState s bb) (KeccakSpec.xorBits A (KeccakSpec.bits bb)) ∧ Shape (absorbState s bb) := by
  refine ⟨?_, shape_table _⟩
  intro x y hx hy
  rw [absorbState, lane_table _ hx hy]
  refine ⟨Nat.xor_lt_two_pow (h x y hx hy).1 (bytes2lane_lt _ (by rw [List.length_take]; omega)), fun z hz => ?_⟩
  rw [Nat.testBit_xor, (h x y hx hy).2 z hz, bytes2lane_testBit, KeccakSpec.xorBits, bits_getD]
  have e1 : (64 * (5 * y + x) + z) / 8 = 8 * (5 * y + x) + z / 8 := by omega
  have e2 : (64 * (5 * y + x) + z) % 8 = z % 8 := by omega
  rw [e1, e2]
  congr 3
  rw [List.getD_eq_getElem?_getD, List.getD_eq_getElem?_getD, List.getElem?_take, if_pos (by omega), List.getElem?_drop]
  by_cases hi : 8 * (5 * y + x) + z / 8 < bb.length
  · rw [List.getElem?_append_left hi]
  · rw [List.getElem?_append_right (by omega), List.getElem?_eq_none (show bb.length ≤ _ by omega), List.getElem?_replicate]
    split <;> rfl

theorem lane2bytes_bits {v : ℕ} : KeccakSpec.bits (lane2bytes v) = (List.range 64).map v.testBit := by
  apply List.ext_getElem?
  intro n
  have hl : (lane2bytes v).length = 8 := by simp [lane2bytes]
  by_cases hn : n < 64
  · have h1 : n < (KeccakSpec.bits (lane2bytes v)).length := by rw [bits_length, hl]; omega
    have h2 := bits_getD (lane2bytes v) n
    rw [List.getD_eq_getElem?_getD, List.getElem?_eq_getElem h1, Option.getD_some] at h2
    rw [List.getElem?_eq_getElem h1, h2, List.getElem?_map, List.getElem?_range hn, Option.map_some, lane2bytes, List.getD_eq_getElem?_getD,
      List.getElem?_map, List.getElem?_range (by omega), Option.map_some, Option.getD_some, UInt8.toNat_ofNat']
    congr 1
    rw [show (0xFF : ℕ) = 2 ^ 8 - 1 from rfl, Nat.and_two_pow_sub_one_eq_mod, Nat.mod_mod, Nat.testBit_mod_two_pow, Nat.testBit_shiftRight,
      show 8 * (n / 8) + n % 8 = n by omega]
    simp [Nat.mod_lt]
  · rw [List.getElem?_eq_none (by rw [bits_length, hl]; omega), List.getElem?_eq_none (by simp; omega)]

theorem getBytes_length (s : Lanes) : (getBytes s).length = 200 := by
  simp [getBytes, lane2bytes, show List.range 5 = [0, 1, 2, 3, 4] from rfl]

theorem getBytes_bits {s : Lanes} {A : KeccakSpec.State} (h : Rep s A) :
    KeccakSpec.bits (getBytes s) = (List.range 1600).map fun i => A (i / 64 % 5) (i / 64 / 5) (i % 64) := by
  have e : getBytes s = ((List.range 25).map fun k => lane2bytes (lane s (k % 5) (k / 5))).flatten := rfl
  have h0 : ∀ L : List Bytes, KeccakSpec.bits L.flatten = (L.map KeccakSpec.bits).flatten := by
    intro L
    induction L with
    | nil => rfl
    | cons a L ih => rw [List.flatten_cons, bits_append, ih]; rfl
  have h1 : ∀ n ≤ 25, ((List.range n).map fun k => (List.range 64).map (lane s (k % 5) (k / 5)).testBit).flatten =
      (List.range (64 * n)).map fun i => A (i / 64 % 5) (i / 64 / 5) (i % 64) := by
    intro n
    induction n with
    | zero => intro _; rfl
    | succ n ih =>
      intro hn
      rw [List.range_succ (n := n), List.map_append, List.flatten_append, ih (by omega), show 64 * (n + 1) = 64 * n + 64 by omega, List.range_add, List.map_append]
      congr 1
      rw [List.map_cons, List.map_nil, List.flatten_cons, List.flatten_nil, List.append_nil, List.map_map]
      apply List.map_congr_left
      intro z hz
      have hz := List.mem_range.mp hz
      rw [(h (n % 5) (n / 5) (by omega) (by omega)).2 z hz]
      simp only [Function.comp_apply]
      rw [show (64 * n + z) / 64 = n by omega, show (64 * n + z) % 64 = z by omega]
  rw [e, h0, List.map_map]
  have := h1 25 le_rfl
  rw [← this]
  congr 1
  apply List.map_congr_left
  intro k _
  exact lane2bytes_bits

theorem bits_injective {a b : Bytes} (h : KeccakSpec.bits a = KeccakSpec.bits b) : a = b := by
  have hl : a.length = b.length := by have := congrArg List.length h; rw [bits_length, bits_length] at this; omega
  apply List.ext_getElem hl
  intro i h1 h2
  apply UInt8.toNat_inj.mp
  apply Nat.eq_of_testBit_eq
  intro j
  by_cases hj : j < 8
  · have := bits_getD a (8 * i + j)
    rw [h, bits_getD, show (8 * i + j) / 8 = i by omega, show (8 * i + j) % 8 = j by omega, List.getD_eq_getElem?_getD, List.getD_eq_getElem?_getD,
      List.getElem?_eq_getElem h1, List.getElem?_eq_getElem h2] at this
    exact this.symm
  · have hp : 2 ^ 8 ≤ 2 ^ j := Nat.pow_le_pow_right (by omega) (by omega)
    rw [Nat.testBit_lt_two_pow (lt_of_lt_of_le (a[i]).toNat_lt hp), Nat.testBit_lt_two_pow (lt_of_lt_of_le (b[i]).toNat_lt hp)]

/-! ## The sponge -/

/-- Absorbing `n` blocks. -/
def blocks (rate : ℕ) : ℕ → Bytes → Lanes → Lanes
  | 0, _, s => s
  | n + 1, m, s => blocks rate n (m.drop rate) (absorbBlock s (m.take rate))

theorem rep_blocks (rate : ℕ) (n : ℕ) : ∀ (m : Bytes) (s : Lanes) (A : KeccakSpec.State), Shape s → Rep s A →
    Rep (blocks rate n m s) (KeccakSpec.absorb (8 * rate) n (KeccakSpec.bits m) A) := by
  induction n with
  | zero => intro m s A _ h; exact h
  | succ n ih =>
    intro m s A _ h
    rw [blocks, KeccakSpec.absorb, ← bits_take, ← bits_drop]
    obtain ⟨h1, h2⟩ := rep_absorbState h (m.take rate)
    obtain ⟨h3, h4⟩ := rep_keccakF h2 h1
    exact ih _ _ _ h4 h3

theorem blocks_append (rate : ℕ) (n k : ℕ) : ∀ (m : Bytes) (s : Lanes), blocks rate (n + k) m s = blocks rate k (m.drop (n * rate)) (blocks rate n m s) := by
  induction n with
  | zero => intro m s; simp [blocks]
  | succ n ih =>
    intro m s
    rw [show n + 1 + k = (n + k) + 1 by omega, blocks, ih, blocks, List.drop_drop, show rate + n * rate = (n + 1) * rate by ring]

theorem blocks_prefix (rate : ℕ) (n : ℕ) : ∀ (m m' : Bytes) (s : Lanes), n * rate ≤ m.length → blocks rate n (m ++ m') s = blocks rate n m s := by
  induction n with
  | zero => intro m m' s _; rfl
  | succ n ih =>
    intro m m' s h
    have h' : n * rate + rate ≤ m.length := by rw [← Nat.succ_mul]; exact h
    rw [blocks, blocks, List.take_append_of_le_length (by omega), List.drop_append_of_le_length (by omega), ih _ _ _ (by rw [List.length_drop]; omega)]

theorem absorbLoop_eq {rate : ℕ} (hr : 0 < rate) (fuel : ℕ) : ∀ (s : Lanes) (b : Bytes), b.length ≤ fuel →
    absorbLoop rate fuel ⟨s, b⟩ = ⟨blocks rate (b.length / rate) b s, b.drop (b.length / rate * rate)⟩ := by
  induction fuel with
  | zero =>
    intro s b h
    have : b = [] := List.eq_nil_of_length_eq_zero (by omega)
    subst this
    simp [absorbLoop, blocks]
  | succ fuel ih =>
    intro s b h
    rw [absorbLoop]
    dsimp only
    by_cases hb : b.length ≥ rate
    · rw [if_pos hb, ih _ _ (by rw [List.length_drop]; omega), List.length_drop]
      have e : b.length / rate = (b.length - rate) / rate + 1 := by rw [← Nat.add_div_right _ hr]; congr 1; omega
      rw [e, blocks, List.drop_drop]
      congr 2
      ring
    · rw [if_neg hb, Nat.div_eq_of_lt (by omega)]
      simp [blocks]

/-- What the sponge holds after absorbing a message in any pieces. -/
def after (rate : ℕ) (m : Bytes) : Sponge := ⟨blocks rate (m.length / rate) m Sponge.new.s, m.drop (m.length / rate * rate)⟩

theorem absorb_after {rate : ℕ} (hr : 0 < rate) (m m' : Bytes) : (after rate m).absorb rate m' = after rate (m ++ m') := by
  rw [Sponge.absorb]
  rw [absorbLoop_eq hr _ _ _ le_rfl, after, after]
  have hle : m.length / rate * rate ≤ m.length := Nat.div_mul_le_self _ _
  have hl : (m.drop (m.length / rate * rate) ++ m').length = (m ++ m').length - m.length / rate * rate := by
    rw [List.length_append, List.length_append, List.length_drop]; omega
  have hd : (m.drop (m.length / rate * rate) ++ m') = (m ++ m').drop (m.length / rate * rate) := by
    rw [List.drop_append_of_le_length hle]
  have hq : (m ++ m').length / rate = m.length / rate + ((m ++ m').length - m.length / rate * rate) / rate := by
    have hle' : m.length / rate * rate ≤ (m ++ m').length := by rw [List.length_append]; omega
    conv_lhs => rw [← Nat.sub_add_cancel hle', Nat.add_mul_div_right _ _ hr]
    omega
  rw [hl, hd]
  rw [hq, blocks_append, blocks_prefix _ _ _ _ _ hle, List.drop_drop, ← Nat.add_mul]

theorem after_nil (rate : ℕ) : after rate [] = Sponge.new := by simp [after, blocks, Sponge.new]

end Verif.Keccak
