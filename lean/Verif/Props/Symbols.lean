import Verif.Model.Symbols
import Mathlib.Data.List.Sort
import Mathlib.Data.List.Induction
import Mathlib.Tactic.Linarith

/-!
C121: addresses in a trace are resolved to the function that contains them.
-/

namespace Verif.Symbols

variable {S : Type}

/-- The symbol that the map files give to an address: that of the last entry with this address. -/
def Defined (defs : List (ℕ × S)) (a : ℕ) (s : S) : Prop :=
  ∃ before after, defs = before ++ (a, s) :: after ∧ ∀ d ∈ after, d.1 ≠ a

/-- `a` is the start of the function that contains `addr`: the greatest address of a symbol that is not after it. -/
def Contains (defs : List (ℕ × S)) (a addr : ℕ) : Prop :=
  a ≤ addr ∧ (∃ d ∈ defs, d.1 = a) ∧ ∀ d ∈ defs, d.1 ≤ addr → d.1 ≤ a

/-! ## The table -/

theorem lookup_put (m : List (ℕ × S)) (a b : ℕ) (s : S) : (put m a s).lookup b = if b = a then some s else m.lookup b := by
  induction m with
  | nil =>
    by_cases h : b = a
    · simp [put, List.lookup, h]
    · have : (b == a) = false := by simpa using h
      simp [put, List.lookup, h, this]
  | cons x m ih =>
    obtain ⟨c, t⟩ := x
    rw [put]
    split
    · rename_i h
      subst h
      by_cases h : b = c
      · simp [List.lookup, h]
      · have : (b == c) = false := by simpa using h
        simp [List.lookup, h, this]
    · rename_i h
      by_cases h2 : b = c
      · subst h2
        simp [List.lookup, h]
      · have : (b == c) = false := by simpa using h2
        rw [List.lookup_cons, List.lookup_cons, this]
        exact ih

theorem keys_put (m : List (ℕ × S)) (a : ℕ) (s : S) :
    (put m a s).map Prod.fst = if a ∈ m.map Prod.fst then m.map Prod.fst else m.map Prod.fst ++ [a] := by
  induction m with
  | nil => simp [put]
  | cons x m ih =>
    obtain ⟨c, t⟩ := x
    rw [put]
    split
    · rename_i h
      subst h
      simp
    · rename_i h
      have h' : a ≠ c := fun e => h e.symm
      rw [List.map_cons, ih, List.map_cons]
      by_cases h2 : a ∈ m.map Prod.fst
      · rw [if_pos h2, if_pos (List.mem_cons_of_mem _ h2)]
      · rw [if_neg h2, if_neg (by simp only [List.mem_cons, not_or]; exact ⟨h', h2⟩)]
        rfl

theorem load_snoc (defs : List (ℕ × S)) (d : ℕ × S) : load (defs ++ [d]) = put (load defs) d.1 d.2 := by
  simp [load]

theorem mem_keys (defs : List (ℕ × S)) (a : ℕ) : a ∈ (load defs).map Prod.fst ↔ ∃ d ∈ defs, d.1 = a := by
  induction defs using List.reverseRecOn with
  | nil => simp [load]
  | append_singleton defs d ih =>
    rw [load_snoc, keys_put]
    have hx : (∃ e ∈ defs ++ [d], e.1 = a) ↔ (∃ e ∈ defs, e.1 = a) ∨ d.1 = a := by
      simp only [List.mem_append, List.mem_singleton, or_and_right, exists_or, exists_eq_left]
    rw [hx, ← ih]
    split
    · rename_i h
      constructor
      · exact Or.inl
      · rintro (h2 | h2)
        · exact h2
        · rw [← h2]; exact h
    · simp only [List.mem_append, List.mem_singleton, eq_comm]

theorem nodup_keys (defs : List (ℕ × S)) : ((load defs).map Prod.fst).Nodup := by
  induction defs using List.reverseRecOn with
  | nil => simp [load]
  | append_singleton defs d ih =>
    rw [load_snoc, keys_put]
    split
    · exact ih
    · rename_i h
      rw [List.nodup_append]
      exact ⟨ih, by simp, by
        intro x hx y hy
        rw [List.mem_singleton.mp hy]
        exact fun e => h (e ▸ hx)⟩

theorem resolve_defined (defs : List (ℕ × S)) (a : ℕ) (s : S) : resolve (load defs) a = some s ↔ Defined defs a s := by
  unfold resolve
  induction defs using List.reverseRecOn with
  | nil => simp [load, Defined]
  | append_singleton defs d ih =>
    obtain ⟨b, t⟩ := d
    rw [load_snoc, lookup_put]
    dsimp only
    split
    · rename_i h
      subst h
      constructor
      · intro e
        cases e
        exact ⟨defs, [], rfl, by simp⟩
      · rintro ⟨before, after, h1, h2⟩
        rcases List.eq_nil_or_concat after with rfl | ⟨l, x, rfl⟩
        · have := (List.append_inj' h1 rfl).2
          injection this with e1 _
          injection e1 with _ e2
          rw [e2]
        · have h3 : before ++ (a, s) :: (l ++ [x]) = (before ++ (a, s) :: l) ++ [x] := by simp
          rw [List.concat_eq_append, h3] at h1
          have h4 := (List.append_inj' h1 rfl).2
          injection h4 with e1 _
          exact absurd (congrArg Prod.fst e1.symm) (h2 x (by simp))
    · rename_i h
      rw [ih]
      constructor
      · rintro ⟨before, after, h1, h2⟩
        refine ⟨before, after ++ [(b, t)], by rw [h1]; simp, ?_⟩
        intro x hx
        rcases List.mem_append.mp hx with hx | hx
        · exact h2 x hx
        · rw [List.mem_singleton.mp hx]
          exact fun e => h e.symm
      · rintro ⟨before, after, h1, h2⟩
        rcases List.eq_nil_or_concat after with rfl | ⟨l, x, rfl⟩
        · have := (List.append_inj' h1 rfl).2
          injection this with e1 _
          injection e1 with e2 _
          exact absurd e2.symm h
        · have h3 : before ++ (a, s) :: (l ++ [x]) = (before ++ (a, s) :: l) ++ [x] := by simp
          rw [List.concat_eq_append, h3] at h1
          exact ⟨before, l, (List.append_inj' h1 rfl).1, fun y hy => h2 y (by simp [hy])⟩

/-! ## The search -/

/-- Strictly increasing, by index. -/
def Inc (data : List ℕ) : Prop := ∀ i j, i < j → j < data.length → data.getD i 0 < data.getD j 0

theorem search_in {data : List ℕ} (val : ℕ) : ∀ n lo hi, hi - lo = n → lo ≤ hi → hi < data.length → data.getD lo 0 ≤ val → val ≤ data.getD hi 0 →
    ∃ a b, search data val lo hi = (a, b) ∧ a < data.length ∧ b < data.length ∧
      ((a = b ∧ data.getD a 0 = val) ∨ (b = a + 1 ∧ data.getD a 0 < val ∧ val < data.getD b 0)) := by
  intro n
  induction n using Nat.strong_induction_on with
  | _ n ih =>
    intro lo hi hn hle hlt h1 h2
    rw [search]
    split
    · rename_i h
      dsimp only
      split
      · exact ⟨lo, lo, rfl, by omega, by omega, Or.inl ⟨rfl, by assumption⟩⟩
      · split
        · exact ⟨_, _, rfl, by omega, by omega, Or.inl ⟨rfl, by assumption⟩⟩
        · split
          · exact ⟨hi, hi, rfl, hlt, hlt, Or.inl ⟨rfl, by assumption⟩⟩
          · rename_i g1 g2 g3
            split
            · rename_i g4
              rw [if_neg (by omega)]
              exact ih _ (by omega) lo _ rfl (by omega) (by omega) h1 (by omega)
            · rename_i g4
              split
              · rename_i g5
                exact ⟨lo, hi, by rw [Nat.min_eq_right hle, Nat.max_eq_left hle], by omega, hlt, Or.inr ⟨by omega, by omega, by omega⟩⟩
              · exact ih _ (by omega) _ hi rfl (by omega) hlt (by omega) h2
    · obtain rfl : lo = hi := by omega
      exact ⟨lo, lo, by simp, hlt, hlt, Or.inl ⟨rfl, by omega⟩⟩

theorem search_after {data : List ℕ} (val : ℕ) (hval : ∀ i, i < data.length → data.getD i 0 < val) : ∀ n lo hi, hi - lo = n → lo < hi →
    hi < data.length → search data val lo hi = (hi - 1, hi) := by
  intro n
  induction n using Nat.strong_induction_on with
  | _ n ih =>
    intro lo hi hn hle hlt
    have e1 := hval lo (by omega)
    have e2 := hval hi hlt
    have e3 := hval ((hi + lo) / 2) (by omega)
    rw [search, if_pos hle]
    dsimp only
    rw [if_neg (by omega), if_neg (by omega), if_neg (by omega), if_neg (by omega)]
    split
    · have : lo = hi - 1 := by omega
      rw [Nat.min_eq_right (by omega), Nat.max_eq_left (by omega), this]
    · exact ih _ (by omega) _ _ rfl (by omega) hlt

theorem search_before {data : List ℕ} (val : ℕ) (hval : ∀ i, i < data.length → val < data.getD i 0) : ∀ n lo hi, hi - lo = n → lo ≤ hi →
    hi < data.length → search data val lo hi = (lo, lo) := by
  intro n
  induction n using Nat.strong_induction_on with
  | _ n ih =>
    intro lo hi hn hle hlt
    rw [search]
    split
    · rename_i h
      have e1 := hval lo (by omega)
      have e2 := hval hi hlt
      have e3 := hval ((hi + lo) / 2) (by omega)
      dsimp only
      rw [if_neg (by omega), if_neg (by omega), if_neg (by omega), if_pos e3, if_neg (by omega)]
      exact ih _ (by omega) _ _ rfl (by omega) (by omega)
    · obtain rfl : lo = hi := by omega
      simp

theorem mem_addrs (defs : List (ℕ × S)) (a : ℕ) : a ∈ addrs (load defs) ↔ ∃ d ∈ defs, d.1 = a := by
  rw [addrs, List.mem_mergeSort, mem_keys]

theorem inc_addrs (defs : List (ℕ × S)) : Inc (addrs (load defs)) := by
  have h1 : (addrs (load defs)).Pairwise (· ≤ ·) := by
    have := List.pairwise_mergeSort (le := fun a b : ℕ => decide (a ≤ b)) (by simpa using fun a b c => Nat.le_trans) (by simpa using Nat.le_total)
      ((load defs).map Prod.fst)
    simpa [addrs] using this
  have h2 : (addrs (load defs)).Nodup := (List.mergeSort_perm _ _).nodup_iff.mpr (nodup_keys defs)
  intro i j hij hj
  have hi : i < (addrs (load defs)).length := by omega
  have a1 := List.pairwise_iff_getElem.mp h1 i j hi hj hij
  have a2 := List.pairwise_iff_getElem.mp h2 i j hi hj hij
  simp only [List.getD_eq_getElem?_getD, List.getElem?_eq_getElem hi, List.getElem?_eq_getElem hj, Option.getD_some]
  omega

theorem getD_mem {data : List ℕ} {i : ℕ} (h : i < data.length) : data.getD i 0 ∈ data := by
  simp [List.getD_eq_getElem?_getD, List.getElem?_eq_getElem h]

theorem mem_getD {data : List ℕ} {x : ℕ} (h : x ∈ data) : ∃ i, i < data.length ∧ data.getD i 0 = x := by
  obtain ⟨i, hi, e⟩ := List.mem_iff_getElem.mp h
  exact ⟨i, hi, by simp [List.getD_eq_getElem?_getD, List.getElem?_eq_getElem hi, e]⟩

theorem inc_le {data : List ℕ} (h : Inc data) {i j : ℕ} (hij : i ≤ j) (hj : j < data.length) : data.getD i 0 ≤ data.getD j 0 := by
  rcases Nat.lt_or_ge i j with e | e
  · exact Nat.le_of_lt (h i j e hj)
  · rw [Nat.le_antisymm hij e]

theorem ish_of_exact {defs : List (ℕ × S)} {addr : ℕ} {s : S} (h : resolve (load defs) addr = some s) : resolveIsh (load defs) addr = some (some s) := by
  rw [resolveIsh, h]

/-- C121, part: an address at or after the first symbol and not after the last one is resolved to the symbol that the map files give to the function
containing it. Missing: addresses after the last symbol. -/
theorem C121_resolved_partial (defs : List (ℕ × S)) (addr : ℕ) (hlast : ∃ d ∈ defs, addr ≤ d.1) {a : ℕ} (ha : Contains defs a addr) :
    ∃ s, resolveIsh (load defs) addr = some (some s) ∧ Defined defs a s := by
  obtain ⟨h1, h2, h3⟩ := ha
  have hres : ∀ x, (∃ d ∈ defs, d.1 = x) → ∃ s, resolve (load defs) x = some s := by
    intro x hx
    have := (mem_keys defs x).mpr hx
    cases hr : resolve (load defs) x with
    | some s => exact ⟨s, rfl⟩
    | none =>
      obtain ⟨p, hp, e⟩ := List.mem_map.mp this
      unfold resolve at hr
      rw [List.lookup_eq_none_iff] at hr
      have := hr p hp
      simp [e] at this
  cases hx : resolve (load defs) addr with
  | some s =>
    refine ⟨s, ish_of_exact hx, ?_⟩
    obtain ⟨before, after, e, -⟩ := (resolve_defined defs addr s).mp hx
    have : addr ≤ a := h3 (addr, s) (by rw [e]; simp) (Nat.le_refl _)
    obtain rfl : a = addr := by omega
    exact (resolve_defined defs a s).mp hx
  | none =>
    have hinc := inc_addrs defs
    have hmem := mem_addrs defs
    obtain ⟨i, hi, ei⟩ := mem_getD ((hmem a).mpr h2)
    obtain ⟨d, hd, hda⟩ := hlast
    obtain ⟨j, hj, ej⟩ := mem_getD ((hmem d.1).mpr ⟨d, hd, rfl⟩)
    have hne : addrs (load defs) ≠ [] := fun e => by rw [e] at hi; simp at hi
    have b1 := inc_le hinc (Nat.zero_le i) hi
    have b2 := inc_le hinc (show j ≤ (addrs (load defs)).length - 1 by omega) (by omega)
    obtain ⟨x, y, hs, hx1, hy1, hcase⟩ := search_in (data := addrs (load defs)) addr _ 0 ((addrs (load defs)).length - 1) rfl (by omega) (by omega) (by omega) (by omega)
    have hax : (addrs (load defs)).getD x 0 = a := by
      obtain ⟨e, he, hea⟩ := (hmem _).mp (getD_mem hx1)
      rcases hcase with ⟨-, h⟩ | ⟨hy, hlo, hhi⟩
      · rw [h] at hea
        obtain ⟨s, hs'⟩ := hres addr ⟨e, he, hea⟩
        rw [hs'] at hx
        cases hx
      · have c1 : (addrs (load defs)).getD x 0 ≤ a := by
          rw [← hea]
          exact h3 e he (by omega)
        by_contra hc
        have c2 : x < i := by
          by_contra hxi
          have := inc_le hinc (Nat.le_of_not_lt hxi) hx1
          omega
        have c3 := inc_le hinc (show y ≤ i by omega) hi
        omega
    obtain ⟨s, hs'⟩ := hres a h2
    refine ⟨s, ?_, (resolve_defined defs a s).mp hs'⟩
    rw [resolveIsh, hx]
    dsimp only
    rw [binarySearch, if_neg hne, hs]
    dsimp only
    rw [hax, hs']

/-- C121: what is printed for a number of a line: nothing below 32; unmarked exactly the symbol defined at this address, if one is; else marked as a guess,
with what `resolve_ish` finds. -/
theorem C121_marked (defs : List (ℕ × S)) (addr : ℕ) :
    (annotate (load defs) addr = some none ↔ addr < 32) ∧
    (∀ s, annotate (load defs) addr = some (some (true, some s)) ↔ 32 ≤ addr ∧ Defined defs addr s) ∧
    (∀ s, annotate (load defs) addr = some (some (false, s)) ↔ 32 ≤ addr ∧ (¬∃ t, Defined defs addr t) ∧ resolveIsh (load defs) addr = some s) := by
  unfold annotate
  simp only [← resolve_defined]
  by_cases h : addr < 32
  · have h' : ¬ 32 ≤ addr := by omega
    simp [h, h']
  · have h' : 32 ≤ addr := by omega
    rw [if_neg h]
    cases hr : resolve (load defs) addr with
    | some s => simp [h, h', eq_comm]
    | none =>
      dsimp only
      cases hi : resolveIsh (load defs) addr with
      | none => simp [h]
      | some x => simp [h, h', eq_comm]

/-- C121 is false after the last symbol: with two or more symbols, an address behind all of them is resolved to the last but one. -/
theorem C121_false_last (defs : List (ℕ × S)) (addr : ℕ) (hall : ∀ d ∈ defs, d.1 < addr) (htwo : 2 ≤ (addrs (load defs)).length) :
    ∃ a b s, Contains defs a addr ∧ b < a ∧ (∃ d ∈ defs, d.1 = b) ∧ Defined defs b s ∧ resolveIsh (load defs) addr = some (some s) := by
  have hinc := inc_addrs defs
  have hmem := mem_addrs defs
  obtain ⟨n, hn⟩ : ∃ n, (addrs (load defs)).length = n + 2 := ⟨_, (Nat.sub_add_cancel htwo).symm⟩
  have hval : ∀ i, i < (addrs (load defs)).length → (addrs (load defs)).getD i 0 < addr := by
    intro i hi
    obtain ⟨d, hd, e⟩ := (hmem _).mp (getD_mem hi)
    rw [← e]
    exact hall d hd
  have hs := search_after addr hval _ 0 (n + 1) rfl (by omega) (by omega)
  have hb := (hmem _).mp (getD_mem (data := addrs (load defs)) (i := n) (by omega))
  have ha := (hmem _).mp (getD_mem (data := addrs (load defs)) (i := n + 1) (by omega))
  have hex : resolve (load defs) addr = none := by
    cases hr : resolve (load defs) addr with
    | none => rfl
    | some s =>
      obtain ⟨before, after, e, -⟩ := (resolve_defined defs addr s).mp hr
      exact absurd (hall (addr, s) (by rw [e]; simp)) (Nat.lt_irrefl _)
  obtain ⟨s, hs'⟩ : ∃ s, resolve (load defs) ((addrs (load defs)).getD n 0) = some s := by
    cases hr : resolve (load defs) ((addrs (load defs)).getD n 0) with
    | some s => exact ⟨s, rfl⟩
    | none =>
      obtain ⟨p, hp, e⟩ := List.mem_map.mp ((mem_keys defs _).mpr hb)
      unfold resolve at hr
      rw [List.lookup_eq_none_iff] at hr
      have := hr p hp
      simp [e] at this
  refine ⟨(addrs (load defs)).getD (n + 1) 0, (addrs (load defs)).getD n 0, s, ⟨Nat.le_of_lt (hval _ (by omega)), ha, ?_⟩, hinc n (n + 1) (by omega) (by omega), hb,
    (resolve_defined defs _ s).mp hs', ?_⟩
  · intro d hd _
    obtain ⟨i, hi, e⟩ := mem_getD ((hmem d.1).mpr ⟨d, hd, rfl⟩)
    rw [← e]
    exact inc_le hinc (by omega) (by omega)
  · rw [resolveIsh, hex]
    dsimp only
    rw [binarySearch, if_neg (fun e => by rw [e] at hn; simp at hn), hn]
    simp only [Nat.add_sub_cancel, show n + 2 - 1 = n + 1 by omega]
    rw [hs]
    simp only [Nat.add_sub_cancel]
    rw [hs']

/-- C121 is false before the first symbol: such an address, in no function, is resolved to the first one. -/
theorem C121_false_first (defs : List (ℕ × S)) (hne : defs ≠ []) (addr : ℕ) (hall : ∀ d ∈ defs, addr < d.1) :
    ∃ b s, (∃ d ∈ defs, d.1 = b) ∧ (∀ d ∈ defs, b ≤ d.1) ∧ Defined defs b s ∧ resolveIsh (load defs) addr = some (some s) := by
  have hinc := inc_addrs defs
  have hmem := mem_addrs defs
  obtain ⟨d0, hd0⟩ := List.exists_mem_of_ne_nil defs hne
  obtain ⟨i0, hi0, -⟩ := mem_getD ((hmem d0.1).mpr ⟨d0, hd0, rfl⟩)
  have hval : ∀ i, i < (addrs (load defs)).length → addr < (addrs (load defs)).getD i 0 := by
    intro i hi
    obtain ⟨d, hd, e⟩ := (hmem _).mp (getD_mem hi)
    rw [← e]
    exact hall d hd
  have hs := search_before addr hval _ 0 ((addrs (load defs)).length - 1) rfl (by omega) (by omega)
  have hb := (hmem _).mp (getD_mem (data := addrs (load defs)) (i := 0) (by omega))
  have hex : resolve (load defs) addr = none := by
    cases hr : resolve (load defs) addr with
    | none => rfl
    | some s =>
      obtain ⟨before, after, e, -⟩ := (resolve_defined defs addr s).mp hr
      exact absurd (hall (addr, s) (by rw [e]; simp)) (Nat.lt_irrefl _)
  obtain ⟨s, hs'⟩ : ∃ s, resolve (load defs) ((addrs (load defs)).getD 0 0) = some s := by
    cases hr : resolve (load defs) ((addrs (load defs)).getD 0 0) with
    | some s => exact ⟨s, rfl⟩
    | none =>
      obtain ⟨p, hp, e⟩ := List.mem_map.mp ((mem_keys defs _).mpr hb)
      unfold resolve at hr
      rw [List.lookup_eq_none_iff] at hr
      have := hr p hp
      simp [e] at this
  refine ⟨(addrs (load defs)).getD 0 0, s, hb, ?_, (resolve_defined defs _ s).mp hs', ?_⟩
  · intro d hd
    obtain ⟨i, hi, e⟩ := mem_getD ((hmem d.1).mpr ⟨d, hd, rfl⟩)
    rw [← e]
    exact inc_le hinc (Nat.zero_le _) hi
  · rw [resolveIsh, hex]
    dsimp only
    rw [binarySearch, if_neg (fun e => by rw [e] at hi0; simp at hi0), hs]
    dsimp only
    rw [hs']

/-! Three functions, one defined twice. -/

/-- Symbols at 64, 128 and 256. -/
def demoDefs : List (ℕ × Char) := [(256, 'a'), (64, 'b'), (128, 'c'), (64, 'd')]

example : Contains demoDefs 64 100 ∧ (∃ d ∈ demoDefs, 100 ≤ d.1) ∧ ∀ d ∈ demoDefs, d.1 < 300 := by unfold Contains demoDefs; decide
example : load demoDefs = [(256, 'a'), (64, 'd'), (128, 'c')] ∧ (addrs (load demoDefs)).length = 3 := by
  refine ⟨by decide, ?_⟩
  rw [addrs, List.length_mergeSort]
  decide
example : search [64, 128, 256] 100 0 2 = (0, 1) ∧ search [64, 128, 256] 300 0 2 = (1, 2) ∧ search [64, 128, 256] 40 0 2 = (0, 0) := by
  simp [search]

end Verif.Symbols
