import Verif.Model.KeyV
import Verif.Lemmas.BpVec

/-!
C46: lazily computed vectors. A history is the list of indices a caller reads, going on after exceptions. `at' size i` is the element an index of a
Python sequence of length `size` denotes.
-/

namespace Verif.KeyV
open Verif Ed Key Sig

/-- The position an index denotes: negative ones count from the end. -/
def at' (size : ℕ) (i : ℤ) : ℤ := if i < 0 then size + i else i

theorem idxize_some {size : ℕ} {i item : ℤ} (h : idxize size i = some item) : item = at' size i ∧ item < size := by
  unfold idxize at h
  unfold at'
  by_cases hi : i < 0
  · rw [if_pos hi] at h ⊢
    dsimp only at h
    split at h
    · simp at h
    · have := Option.some.inj h
      omega
  · rw [if_neg hi] at h ⊢
    dsimp only at h
    split at h
    · simp at h
    · have := Option.some.inj h
      omega

theorem idxize_ok {size : ℕ} {i : ℤ} (h : at' size i < size) : idxize size i = some (at' size i) := by
  unfold idxize
  dsimp only
  unfold at' at h ⊢
  rw [if_neg (by omega)]

/-- If every successful access from a good state returns the right value and leaves a good state, a history without failures returns the vector. -/
theorem run_ok {S : Type} (get : S → ℤ → S × Option ℤ) (Inv : S → Prop) (val : ℤ → ℤ)
    (h : ∀ s i v, Inv s → (get s i).2 = some v → v = val i ∧ Inv (get s i).1) :
    ∀ (is : List ℤ) (s : S), Inv s → none ∉ run get s is → run get s is = is.map fun i => some (val i)
  | [], _, _, _ => rfl
  | i :: is, s, hs, hn => by
    rw [run] at hn ⊢
    cases hv : (get s i).2 with
    | none => rw [hv] at hn; simp at hn
    | some v =>
      obtain ⟨e, hs'⟩ := h s i v hs hv
      rw [hv] at hn
      rw [e, List.map_cons, run_ok get Inv val h is _ hs' fun hm => hn (List.mem_cons_of_mem _ hm)]

theorem after_ok {S : Type} (get : S → ℤ → S × Option ℤ) (Inv : S → Prop) (val : ℤ → ℤ)
    (h : ∀ s i v, Inv s → (get s i).2 = some v → v = val i ∧ Inv (get s i).1) :
    ∀ (is : List ℤ) (s : S), Inv s → none ∉ run get s is → Inv (after get s is)
  | [], _, hs, _ => hs
  | i :: is, s, hs, hn => by
    rw [run] at hn
    rw [after]
    cases hv : (get s i).2 with
    | none => rw [hv] at hn; simp at hn
    | some v =>
      obtain ⟨-, hs'⟩ := h s i v hs hv
      exact after_ok get Inv val h is _ hs' fun hm => hn (List.mem_cons_of_mem _ hm)

/-- A scan in order succeeds if each step of it does. -/
theorem run_scan {S : Type} (get : S → ℤ → S × Option ℤ) (Inv : ℕ → S → Prop) (n : ℕ)
    (h : ∀ (s : S) (k : ℕ), k < n → Inv k s → (get s k).2 ≠ none ∧ Inv (k + 1) (get s k).1) :
    ∀ (m k : ℕ) (s : S), k + m = n → Inv k s → none ∉ run get s ((List.range' k m).map fun i : ℕ => (i : ℤ))
  | 0, _, _, _, _ => by simp [run]
  | m + 1, k, s, hk, hs => by
    obtain ⟨h1, h2⟩ := h s k (by omega) hs
    rw [List.range'_succ, List.map_cons, run]
    intro hm
    rcases List.mem_cons.mp hm with e | hm
    · exact h1 e.symm
    · exact run_scan get Inv n h m (k + 1) _ (by omega) h2 hm

theorem mod_mul (a b : ℤ) : (a % l) * b % l = a * b % l := by rw [Int.mul_emod, Int.emod_emod_of_dvd _ (dvd_refl l), ← Int.mul_emod]

/-! ## Powers -/

theorem pw_spec {x : ℤ} (hx : 0 ≤ x ∧ x < l) : ∀ n, Bp.pw x n = x ^ n % l
  | 0 => by rw [Bp.pw, pow_zero]; decide
  | 1 => by rw [Bp.pw, pow_one, Int.emod_eq_of_lt hx.1 hx.2]
  | n + 2 => by
    rw [Bp.pw, pw_spec hx (n + 1), scMul, mod_mul, ← pow_succ]

/-- The object is new, or holds the power it last returned. -/
def Powers.Inv (x : ℤ) (s : Powers) : Prop := s = Powers.new ∨ (0 ≤ s.last ∧ s.cur = Bp.pw x s.last.toNat)

theorem powers_step (size : ℕ) (x : ℤ) (s : Powers) (i v : ℤ) (hs : s.Inv x) (h : (Powers.get size x s i).2 = some v) :
    v = Bp.pw x (at' size i).toNat ∧ (0 ≤ at' size i ∧ at' size i < size) ∧ (Powers.get size x s i).1.last = at' size i ∧ (Powers.get size x s i).1.Inv x := by
  rw [Powers.get] at h ⊢
  cases hi : idxize size i with
  | none => rw [hi] at h; simp at h
  | some item =>
    obtain ⟨e, hlt⟩ := idxize_some hi
    rw [hi] at h
    dsimp only at h ⊢
    rw [← e]
    have hlast : 0 ≤ s.last := by rcases hs with rfl | hs; exacts [le_rfl, hs.1]
    split
    · rename_i h0
      rw [if_pos h0] at h
      subst h0
      exact ⟨(Option.some.inj h).symm, ⟨le_rfl, hlt⟩, rfl, Or.inr ⟨le_rfl, rfl⟩⟩
    rename_i h0
    rw [if_neg h0] at h
    split
    · rename_i h1
      rw [if_pos h1] at h
      subst h1
      exact ⟨(Option.some.inj h).symm, ⟨by omega, hlt⟩, rfl, Or.inr ⟨by norm_num, rfl⟩⟩
    rename_i h1
    rw [if_neg h1] at h
    split
    · rename_i h2
      rw [if_pos h2] at h
      have hc : s.cur = Bp.pw x s.last.toNat := by
        rcases hs with rfl | hs
        · exact absurd h2 h0
        · exact hs.2
      rw [← Option.some.inj h, h2]
      exact ⟨hc, ⟨hlast, by omega⟩, rfl, Or.inr ⟨hlast, hc⟩⟩
    rename_i h2
    rw [if_neg h2] at h
    split
    · rename_i h3
      rw [if_pos h3] at h
      have hc : scMul s.cur x = Bp.pw x item.toNat := by
        rcases hs with rfl | hs
        · exact absurd h3 (by simpa [Powers.new] using h1)
        · have : item.toNat = (s.last.toNat - 1) + 2 := by omega
          rw [this, Bp.pw, hs.2]
          congr 2
          omega
      rw [← Option.some.inj h]
      exact ⟨hc, ⟨by omega, hlt⟩, rfl, Or.inr ⟨by show 0 ≤ item; omega, hc⟩⟩
    · rename_i h3
      rw [if_neg h3] at h
      simp at h

/-- C46, powers: in a history in which no read failed, every read returned the power of its index. Missing: histories that go on after a caught
exception (`C46_false_powers`). -/
theorem C46_powers_partial (size : ℕ) (x : ℤ) (hx : 0 ≤ x ∧ x < l) (is : List ℤ) (h : none ∉ run (Powers.get size x) Powers.new is) :
    run (Powers.get size x) Powers.new is = is.map fun i => some (x ^ (at' size i).toNat % l) :=
  run_ok _ (Powers.Inv x) (fun i => x ^ (at' size i).toNat % l)
    (fun s i v hs hv => by
      obtain ⟨h1, -, -, h2⟩ := powers_step size x s i v hs hv
      exact ⟨by rw [h1, pw_spec hx], h2⟩) is _ (Or.inl rfl) h

example : none ∉ run (Powers.get 8 3) Powers.new [0, 1, 2, 2, 3, 0, 1, 2, 3, 4, 4, 5, 6, -1, 7] := by decide

/-- C46, powers: reading the vector in order never fails. -/
theorem C46_powers_scan (size : ℕ) (x : ℤ) : none ∉ run (Powers.get size x) Powers.new ((List.range size).map fun i : ℕ => (i : ℤ)) := by
  rw [List.range_eq_range']
  refine run_scan _ (fun k s => k = 0 ∨ s.last = (k : ℤ) - 1) size ?_ size 0 _ (by omega) (Or.inl rfl)
  intro s k hk hs
  have hat : at' size (k : ℤ) = k := by unfold at'; rw [if_neg (by omega)]
  rw [Powers.get, idxize_ok (by rw [hat]; exact_mod_cast hk), hat]
  dsimp only
  split
  · exact ⟨by simp, Or.inr (by dsimp only; push_cast; omega)⟩
  split
  · exact ⟨by simp, Or.inr (by dsimp only; push_cast; omega)⟩
  split
  · exact ⟨by simp, Or.inr (by dsimp only; push_cast; omega)⟩
  split
  · exact ⟨by simp, Or.inr (by dsimp only; push_cast; omega)⟩
  · rename_i h0 h1 h2 h3
    exfalso
    rcases hs with rfl | hs
    · exact h0 rfl
    · omega

/-- C46, powers: rewinding by `n` after a read moves to the power `n` further. -/
theorem C46_powers_rewind (x : ℤ) (hx : 0 ≤ x ∧ x < l) (n : ℕ) : ∀ s : Powers, 1 ≤ s.last → s.cur = x ^ s.last.toNat % l →
    (Powers.rewind x n s).last = s.last + n ∧ (Powers.rewind x n s).cur = x ^ (s.last.toNat + n) % l := by
  induction n with
  | zero => intro s _ h; exact ⟨by simp [Powers.rewind], h⟩
  | succ n ih =>
    intro s h1 h
    have e : (s.last + 1).toNat = s.last.toNat + 1 := by omega
    obtain ⟨h2, h3⟩ := ih ⟨scMul s.cur x, s.last + 1⟩ (by dsimp only; omega) (by
      dsimp only
      rw [h, scMul, mod_mul, ← pow_succ, e])
    rw [Powers.rewind]
    refine ⟨by rw [h2]; push_cast; ring, ?_⟩
    rw [h3]
    dsimp only
    rw [e, show s.last.toNat + 1 + n = s.last.toNat + (n + 1) by omega]

/-- C46 is false: after a refused read of index 5 the same read returns a stale value: 2 instead of 32. -/
theorem C46_false_powers : run (Powers.get 8 2) Powers.new [0, 1, 5, 5] = [some 1, some 2, none, some 2] := by decide

/-! ## Random elements -/

/-- The object has drawn the block it last returned. -/
def Prng.Inv (str : ℕ → ℤ) (s : Prng) : Prop := 0 ≤ s.last ∧ s.drawn = s.last.toNat + 1 ∧ s.cur = str s.last.toNat

theorem prng_step (size : ℕ) (nl : Bool) (str : ℕ → ℤ) (s : Prng) (i v : ℤ) (hi0 : -(size : ℤ) ≤ i) (hs : s.Inv str)
    (h : (Prng.get size nl str s i).2 = some v) : v = str (at' size i).toNat ∧ (Prng.get size nl str s i).1.Inv str := by
  obtain ⟨hl0, hd, hc⟩ := hs
  rw [Prng.get] at h ⊢
  cases hi : idxize size i with
  | none => rw [hi] at h; simp at h
  | some item =>
    obtain ⟨e, hlt⟩ := idxize_some hi
    have hnn : 0 ≤ item := by rw [e]; unfold at'; omega
    rw [hi] at h
    dsimp only at h ⊢
    rw [← e]
    split
    · rename_i h0
      rw [if_pos h0] at h
      subst h0
      exact ⟨(Option.some.inj h).symm, le_rfl, rfl, rfl⟩
    rename_i h0
    rw [if_neg h0] at h
    split
    · rename_i h1
      rw [if_pos h1] at h
      rw [← Option.some.inj h]
      dsimp only
      rw [hc, ← h1]
      exact ⟨rfl, hnn, by dsimp only; rw [hd, h1], rfl⟩
    rename_i h1
    rw [if_neg h1] at h
    split
    · rename_i h2
      rw [if_pos h2] at h
      have e2 : s.drawn = item.toNat := by rw [hd, h2]; omega
      rw [← Option.some.inj h, Prng.next]
      dsimp only
      rw [e2]
      exact ⟨rfl, hnn, by dsimp only, rfl⟩
    rename_i h2
    rw [if_neg h2] at h
    split
    · rename_i h3
      rw [if_pos h3] at h
      rw [← Option.some.inj h, Prng.next]
      dsimp only
      by_cases hlt' : item < s.last
      · rw [if_pos hlt', if_pos hlt', Prng.reset, Prng.next]
        dsimp only
        have e3 : 0 + 1 + (item - 0 - 1).toNat = item.toNat := by omega
        rw [e3]
        exact ⟨rfl, hnn, by dsimp only, rfl⟩
      · rw [if_neg hlt', if_neg hlt']
        dsimp only
        have e3 : s.drawn + (item - s.last - 1).toNat = item.toNat := by omega
        rw [e3]
        exact ⟨rfl, hnn, by dsimp only, rfl⟩
    · rename_i h3
      rw [if_neg h3] at h
      simp at h

/-- C46, random vectors: in a history that starts at index zero and in which no read failed, every read returned the block of its index, also when
jumping is allowed. Missing: histories that start elsewhere or go on after a caught exception. -/
theorem C46_prng_partial (size : ℕ) (nl : Bool) (str : ℕ → ℤ) (is : List ℤ) (hi : ∀ i ∈ is, -(size : ℤ) ≤ i)
    (h : none ∉ run (Prng.get size nl str) Prng.new (0 :: is)) :
    run (Prng.get size nl str) Prng.new (0 :: is) = (0 :: is).map fun i => some (str (at' size i).toNat) := by
  by_cases hz : size = 0
  · subst hz
    exfalso
    apply h
    rw [run]
    exact List.mem_cons.mpr (Or.inl rfl)
  have h0 : Prng.get size nl str Prng.new 0 = (⟨1, str 0, 0⟩, some (str 0)) := by
    rw [Prng.get, idxize_ok (by unfold at'; simp; omega)]
    rfl
  rw [run, h0] at h ⊢
  dsimp only at h ⊢
  rw [List.map_cons]
  congr 1
  have hn : none ∉ run (Prng.get size nl str) ⟨1, str 0, 0⟩ is := fun hm => h (List.mem_cons_of_mem _ hm)
  have hinv : Prng.Inv str ⟨1, str 0, 0⟩ := ⟨le_rfl, rfl, rfl⟩
  clear h h0
  generalize (⟨1, str 0, 0⟩ : Prng) = s at hn hinv
  induction is generalizing s with
  | nil => rfl
  | cons i is ih =>
    rw [run] at hn ⊢
    cases hv : (Prng.get size nl str s i).2 with
    | none => rw [hv] at hn; simp at hn
    | some v =>
      obtain ⟨e, hs'⟩ := prng_step size nl str s i v (hi i (by simp)) hinv hv
      rw [hv] at hn
      rw [e, List.map_cons, ih (fun j hj => hi j (by simp [hj])) _ (fun hm => hn (List.mem_cons_of_mem _ hm)) hs']

example : none ∉ run (Prng.get 9 true fun i => (i : ℤ) * 7) Prng.new [0, 5, 3, 3, -1, 2, 8] := by decide

/-- C46 is false: a new random vector read first at index 1 returns element 0, and the following reads are off by one; with jumps, too. -/
theorem C46_false_prng : run (Prng.get 8 false fun i => (i : ℤ) + 100) Prng.new [1, 2] = [some 100, some 101] ∧
    run (Prng.get 8 true fun i => (i : ℤ) + 100) Prng.new [5, 0, 5] = [some 104, some 100, some 105] := by decide

/-- C46, random vectors: reading in order never fails. -/
theorem C46_prng_scan (size : ℕ) (str : ℕ → ℤ) : none ∉ run (Prng.get size false str) Prng.new ((List.range size).map fun i : ℕ => (i : ℤ)) := by
  rw [List.range_eq_range']
  refine run_scan _ (fun k s => k = 0 ∨ s.last = (k : ℤ) - 1) size ?_ size 0 _ (by omega) (Or.inl rfl)
  intro s k hk hs
  have hat : at' size (k : ℤ) = k := by unfold at'; rw [if_neg (by omega)]
  rw [Prng.get, idxize_ok (by rw [hat]; exact_mod_cast hk), hat]
  dsimp only
  split
  · refine ⟨by simp, Or.inr ?_⟩
    simp [Prng.reset, Prng.next]
  split
  · refine ⟨by simp, Or.inr ?_⟩
    dsimp only; push_cast; omega
  split
  · refine ⟨by simp, Or.inr ?_⟩
    dsimp only [Prng.next]; push_cast; omega
  · rename_i h0 h1 h2
    exfalso
    rcases hs with rfl | hs
    · exact h0 rfl
    · omega

/-! ## The vector r0 -/

/-- The elements: `(aR_i + z) y^i + z^{2 + i/N} 2^{i mod N}`. -/
def r0Spec (N : ℕ) (aR : ℕ → ℤ) (y z : ℤ) (i : ℕ) : ℤ := ((aR i + z) * y ^ i + z ^ (2 + i / N) * 2 ^ (i % N)) % l

/-- The running powers belong to the last index. -/
def R0.Pows (N : ℕ) (y z : ℤ) (s : R0) : Prop :=
  0 ≤ s.last ∧ s.yp = y ^ s.last.toNat % l ∧ s.zt = z ^ (2 + s.last.toNat / N) % l ∧ s.p2 = 2 ^ (s.last.toNat % N) % l

/-- ... and so does the result, except in a new object. -/
def R0.Inv (N : ℕ) (aR : ℕ → ℤ) (y z : ℤ) (s : R0) : Prop := s.Pows N y z ∧ (s.last = 0 ∨ s.res = r0Spec N aR y z s.last.toNat)

theorem one_mod_l : (1 : ℤ) % l = 1 := by decide

theorem r0_eval {N : ℕ} {aR : ℕ → ℤ} {y z : ℤ} {s : R0} (hs : s.Pows N y z) : (s.eval aR z s.last).res = r0Spec N aR y z s.last.toNat := by
  obtain ⟨-, h1, h2, h3⟩ := hs
  rw [R0.eval]
  dsimp only
  rw [h1, h2, h3, scMuladd, scMul, scAdd, r0Spec]
  simp only [Int.add_emod, Int.mul_emod, Int.emod_emod_of_dvd _ (dvd_refl l)]

theorem r0_new (N : ℕ) (y z : ℤ) (s : R0) : R0.Pows N y z (R0.reset z { s with last := 0 }) := by
  refine ⟨le_rfl, ?_, ?_, ?_⟩
  · show (1 : ℤ) = y ^ 0 % l
    rw [pow_zero, one_mod_l]
  · show scMul z z = z ^ (2 + (0 : ℤ).toNat / N) % l
    rw [show (0 : ℤ).toNat = 0 from rfl, Nat.zero_div, add_zero, pow_two]; rfl
  · show (1 : ℤ) = 2 ^ ((0 : ℤ).toNat % N) % l
    rw [show (0 : ℤ).toNat = 0 from rfl, Nat.zero_mod, pow_zero, one_mod_l]

theorem r0_inv_new (N : ℕ) (aR : ℕ → ℤ) (y z : ℤ) : R0.Inv N aR y z (R0.new z) := ⟨r0_new N y z (R0.new z), Or.inl rfl⟩

theorem r0_advance {N : ℕ} (hN : 0 < N) {y z : ℤ} {s : R0} (hs : s.Pows N y z) :
    R0.Pows N y z (R0.advance N y z (s.last + 1) { s with last := s.last + 1 }) := by
  obtain ⟨h0, h1, h2, h3⟩ := hs
  have e : (s.last + 1).toNat = s.last.toNat + 1 := by omega
  have ey : scMul s.yp y = y ^ (s.last.toNat + 1) % l := by rw [h1, scMul, mod_mul, ← pow_succ]
  obtain ⟨n, hn⟩ : ∃ n : ℕ, s.last = n := ⟨s.last.toNat, by omega⟩
  have en : s.last.toNat = n := by omega
  have em : (s.last + 1) % (N : ℤ) = 0 ↔ (n + 1) % N = 0 := by rw [hn]; constructor <;> intro h <;> exact_mod_cast h
  rw [R0.advance]
  split
  · rename_i hm
    have hm' : (n + 1) % N = 0 := em.mp hm
    have hd : (n + 1) / N = n / N + 1 := Nat.succ_div_of_mod_eq_zero hm'
    refine ⟨by dsimp only; omega, by dsimp only; rw [e]; exact ey, ?_, ?_⟩
    · dsimp only
      rw [e, en, hd, h2, en, scMul, mod_mul, ← pow_succ, add_assoc]
    · dsimp only
      rw [e, en, hm', pow_zero, one_mod_l]
  · rename_i hm
    have hm' : (n + 1) % N ≠ 0 := fun h => hm (em.mpr h)
    have hd : (n + 1) / N = n / N := Nat.succ_div_of_mod_ne_zero hm'
    have hmod : (n + 1) % N = n % N + 1 := by
      have a1 := Nat.div_add_mod (n + 1) N
      have a2 := Nat.div_add_mod n N
      rw [hd] at a1
      omega
    refine ⟨by dsimp only; omega, by dsimp only; rw [e]; exact ey, ?_, ?_⟩
    · dsimp only
      rw [e, en, hd, h2, en]
    · dsimp only
      rw [e, en, hmod, h3, en, scMul, mod_mul, ← pow_succ]

theorem r0_step (size : ℕ) {N : ℕ} (hN : 0 < N) (aR : ℕ → ℤ) (y z : ℤ) (s : R0) (i v : ℤ) (hs : s.Pows N y z)
    (hres : at' size i = s.last → at' size i = 0 ∨ s.res = r0Spec N aR y z s.last.toNat) (h : (R0.get size N aR y z s i).2 = some v) :
    v = r0Spec N aR y z (at' size i).toNat ∧ (R0.get size N aR y z s i).1.Inv N aR y z := by
  rw [R0.get] at h ⊢
  cases hi : idxize size i with
  | none => rw [hi] at h; simp at h
  | some item =>
    obtain ⟨e, hlt⟩ := idxize_some hi
    rw [hi] at h
    dsimp only at h ⊢
    rw [← e] at hres ⊢
    split
    · rename_i h0
      rw [if_pos h0] at h
      subst h0
      have hp := r0_new N y z s
      have hv := r0_eval (aR := aR) hp
      exact ⟨(Option.some.inj h).symm.trans hv, hp, Or.inr hv⟩
    rename_i h0
    rw [if_neg h0] at h
    split
    · rename_i h1
      rw [if_pos h1] at h
      subst h1
      have hp := r0_advance hN hs
      have hlast : (R0.advance N y z (s.last + 1) { s with last := s.last + 1 }).last = s.last + 1 := by rw [R0.advance]; split <;> rfl
      have hv := r0_eval (aR := aR) hp
      rw [hlast] at hv
      refine ⟨(Option.some.inj h).symm.trans hv, hp, Or.inr ?_⟩
      show _ = r0Spec N aR y z (R0.advance N y z (s.last + 1) { s with last := s.last + 1 }).last.toNat
      rw [hlast]
      exact hv
    rename_i h1
    rw [if_neg h1] at h
    split
    · rename_i h2
      rw [if_pos h2] at h
      have hr := (hres h2).resolve_left h0
      subst h2
      exact ⟨(Option.some.inj h).symm.trans hr, hs, Or.inr hr⟩
    · rename_i h2
      rw [if_neg h2] at h
      simp at h

/-- C46, the vector `r0`: in a history in which no read failed, every read returned the element of its index. Missing: histories that go on after a
caught exception (`C46_false_r0`). -/
theorem C46_r0_partial (size N : ℕ) (hN : 0 < N) (aR : ℕ → ℤ) (y z : ℤ) (is : List ℤ)
    (h : none ∉ run (R0.get size N aR y z) (R0.new z) is) :
    run (R0.get size N aR y z) (R0.new z) is = is.map fun i => some (r0Spec N aR y z (at' size i).toNat) :=
  run_ok _ (R0.Inv N aR y z) _ (fun s i v hs hv => r0_step size hN aR y z s i v hs.1
    (fun e => hs.2.elim (fun h0 => Or.inl (e.trans h0)) Or.inr) hv) is (R0.new z) (r0_inv_new N aR y z) h

example : none ∉ run (R0.get 8 2 (fun i => i) 3 5) (R0.new 5) [0, 0, 1, 2, 3, 3, 4, 5, 0, 1, 2, 3, 4, 5, 6, 7, -1] := by decide

/-- C46, the vector `r0`: reading in order never fails. -/
theorem C46_r0_scan (size N : ℕ) (aR : ℕ → ℤ) (y z : ℤ) :
    none ∉ run (R0.get size N aR y z) (R0.new z) ((List.range size).map fun i : ℕ => (i : ℤ)) := by
  rw [List.range_eq_range']
  refine run_scan _ (fun k s => k = 0 ∨ s.last = (k : ℤ) - 1) size ?_ size 0 _ (by omega) (Or.inl rfl)
  intro s k hk hs
  have hat : at' size (k : ℤ) = k := by unfold at'; rw [if_neg (by omega)]
  rw [R0.get, idxize_ok (by rw [hat]; exact_mod_cast hk), hat]
  dsimp only
  split
  · refine ⟨by simp, Or.inr ?_⟩
    simp [R0.reset, R0.eval]
  split
  · refine ⟨by simp, Or.inr ?_⟩
    have : ∀ s : R0, (R0.eval aR z k (R0.advance N y z k { s with last := (k : ℤ) })).last = k := by
      intro s; rw [R0.eval, R0.advance]; split <;> rfl
    rw [this]; push_cast; ring
  split
  · refine ⟨by simp, Or.inr ?_⟩
    dsimp only; push_cast; omega
  · rename_i h0 h1 h2
    exfalso
    rcases hs with rfl | hs
    · exact h0 rfl
    · omega

/-- C46, the vector `r0`: saved after any successful history and restored into a new object, it goes on returning the right elements, provided the
first read after restoring is not the last one before saving (or index zero). -/
theorem C46_r0_restored_partial (size N : ℕ) (hN : 0 < N) (aR : ℕ → ℤ) (y z : ℤ) (is : List ℤ) (j : ℤ) (js : List ℤ)
    (h : none ∉ run (R0.get size N aR y z) (R0.new z) is) (hj : at' size j = (after (R0.get size N aR y z) (R0.new z) is).last → at' size j = 0)
    (h' : none ∉ run (R0.get size N aR y z) (after (R0.get size N aR y z) (R0.new z) is).restored (j :: js)) :
    run (R0.get size N aR y z) (after (R0.get size N aR y z) (R0.new z) is).restored (j :: js) =
      (j :: js).map fun i => some (r0Spec N aR y z (at' size i).toNat) := by
  have hstep := fun s i v (hs : R0.Inv N aR y z s) hv => r0_step size hN aR y z s i v hs.1
    (fun e => hs.2.elim (fun h0 => Or.inl (e.trans h0)) Or.inr) hv
  have hinv := after_ok _ (R0.Inv N aR y z) _ hstep is (R0.new z) (r0_inv_new N aR y z) h
  generalize after (R0.get size N aR y z) (R0.new z) is = s at hinv hj h'
  rw [run] at h' ⊢
  cases hv : (R0.get size N aR y z s.restored j).2 with
  | none => rw [hv] at h'; simp at h'
  | some v =>
    obtain ⟨e, hs'⟩ := r0_step size hN aR y z s.restored j v hinv.1 (fun e => Or.inl (hj e)) hv
    rw [hv] at h'
    rw [e, List.map_cons, run_ok _ _ _ hstep js _ hs' fun hm => h' (List.mem_cons_of_mem _ hm)]

example : none ∉ run (R0.get 8 2 (fun i => i) 3 5) (after (R0.get 8 2 (fun i => i) 3 5) (R0.new 5) [0, 1, 2, 3]).restored [4, 5, 6] := by decide

/-- C46 is false: after a refused read of index 5 the same read returns a stale value, and a restored object returns zero for the index it was saved
at. -/
theorem C46_false_r0 :
    (∃ v, run (R0.get 8 2 (fun i => i) 3 5) (R0.new 5) [0, 5, 5] = [some v, none, some v] ∧ v ≠ r0Spec 2 (fun i => i) 3 5 5) ∧
    run (R0.get 8 2 (fun i => i) 3 5) (after (R0.get 8 2 (fun i => i) 3 5) (R0.new 5) [0, 1]).restored [1] = [some 0] ∧
    r0Spec 2 (fun i => i) 3 5 1 ≠ 0 := by
  refine ⟨⟨30, ?_, ?_⟩, ?_, ?_⟩ <;> decide

end Verif.KeyV
