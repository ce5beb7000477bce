import Verif.Model.Height

/-! C55: the restore height found for a date. -/

namespace Verif.Height

/-- The daemon serves every block of a chain of `n` blocks with these timestamps and nothing else. -/
def chain (n : Nat) (ts : Nat → Int) (h : Int) : Option Int := if 0 ≤ h ∧ h < n then some (ts h.toNat) else none

/-- What the loop knows: the interval is inside the chain, everything at its lower end is before the date. -/
theorem search_spec (n : Nat) (ts : Nat → Int) (t : Int) : ∀ (fuel : Nat) (lo hi : Nat), lo ≤ hi → hi < n → hi - lo < fuel →
    (lo = 0 ∨ ts lo < t) →
    search (chain n ts) t fuel lo hi = .future ∨
    ∃ r : Nat, search (chain n ts) t fuel lo hi = .height r ∧ lo ≤ r ∧ r ≤ hi ∧ (r = 0 ∨ ts r < t) := by
  intro fuel
  induction fuel with
  | zero => intro lo hi _ _ h; omega
  | succ fuel ih =>
    intro lo hi h1 h2 h3 h4
    obtain ⟨mid, hm⟩ : ∃ mid : Nat, mid = (lo + hi) / 2 := ⟨_, rfl⟩
    have hmid : ((lo : Int) + hi) / 2 = (mid : Int) := by omega
    have c1 : chain n ts lo = some (ts lo) := by unfold chain; rw [if_pos (by omega)]; simp
    have c2 : chain n ts mid = some (ts mid) := by unfold chain; rw [if_pos (by omega)]; simp
    have c3 : chain n ts hi = some (ts hi) := by unfold chain; rw [if_pos (by omega)]; simp
    unfold search
    simp only [hmid, c1, c2, c3]
    split
    · right; refine ⟨lo, ?_, Nat.le_refl _, h1, h4⟩
      congr 1; unfold least; omega
    · split
      · left; rfl
      · split
        · right; exact ⟨lo, rfl, Nat.le_refl _, h1, h4⟩
        · by_cases hc : t ≤ ts mid
          · simp only [hc, if_true]
            split
            · right; exact ⟨lo, rfl, Nat.le_refl _, h1, h4⟩
            · rename_i hs
              unfold span at hs
              rcases ih lo mid (by omega) (by omega) (by omega) h4 with h | ⟨r, hr, a, b, c⟩
              · left; exact h
              · right; exact ⟨r, hr, a, by omega, c⟩
          · simp only [hc, if_false]
            split
            · right; exact ⟨mid, rfl, by omega, by omega, Or.inr (by omega)⟩
            · rename_i hs
              unfold span at hs
              rcases ih mid hi (by omega) (by omega) (by omega) (Or.inr (by omega)) with h | ⟨r, hr, a, b, c⟩
              · left; exact h
              · right; exact ⟨r, hr, by omega, b, c⟩

/-- The search always ends: every turn at least halves the interval. It can only end with a height or with the refusal of a date in the future. -/
theorem C55_terminates (n : Nat) (hn : 0 < n) (ts : Nat → Int) (t : Int) :
    heightByDate (chain n ts) n t = .future ∨ ∃ r : Nat, heightByDate (chain n ts) n t = .height r ∧ r < n := by
  have := search_spec n ts t (n + 1) 0 (n - 1) (by omega) (by omega) (by omega) (Or.inl rfl)
  unfold heightByDate
  rw [show ((n : Int) - 1) = ((n - 1 : Nat) : Int) by omega]
  rcases this with h | ⟨r, h, _, hr, _⟩
  · exact Or.inl h
  · exact Or.inr ⟨r, h, by omega⟩

/-- Whatever the timestamps are, in particular when they go back now and then, the height found is the first block or a block before the date. -/
theorem C55_before (n : Nat) (hn : 0 < n) (ts : Nat → Int) (t : Int) (r : Int) (h : heightByDate (chain n ts) n t = .height r) :
    0 ≤ r ∧ r < n ∧ (r = 0 ∨ ts r.toNat < t) := by
  have := search_spec n ts t (n + 1) 0 (n - 1) (by omega) (by omega) (by omega) (Or.inl rfl)
  unfold heightByDate at h
  rw [show ((n : Int) - 1) = ((n - 1 : Nat) : Int) by omega] at h
  rcases this with h' | ⟨k, h', _, hr, hk⟩
  · rw [show ((0 : Nat) : Int) = 0 from rfl, h] at h'; cases h'
  · rw [show ((0 : Nat) : Int) = 0 from rfl, h] at h'
    cases h'
    refine ⟨by omega, by omega, ?_⟩
    rcases hk with hk | hk
    · left; omega
    · right; simpa using hk

theorem search_mono (n : Nat) (ts : Nat → Int) (hts : ∀ i j, i ≤ j → j < n → ts i ≤ ts j) (t : Int) : ∀ (fuel : Nat) (lo hi : Nat), lo ≤ hi → hi < n →
    hi - lo < fuel → t ≤ ts hi → ∃ r : Nat, search (chain n ts) t fuel lo hi = .height r ∧
      (t ≤ ts r + margin ∨ ∃ k, r ≤ k ∧ k < n ∧ k ≤ r + 1440 ∧ t ≤ ts k) := by
  intro fuel
  induction fuel with
  | zero => intro lo hi _ _ h; omega
  | succ fuel ih =>
    intro lo hi h1 h2 h3 h4
    obtain ⟨mid, hm⟩ : ∃ mid : Nat, mid = (lo + hi) / 2 := ⟨_, rfl⟩
    have hmid : ((lo : Int) + hi) / 2 = (mid : Int) := by omega
    have c1 : chain n ts lo = some (ts lo) := by unfold chain; rw [if_pos (by omega)]; simp
    have c2 : chain n ts mid = some (ts mid) := by unfold chain; rw [if_pos (by omega)]; simp
    have c3 : chain n ts hi = some (ts hi) := by unfold chain; rw [if_pos (by omega)]; simp
    unfold search
    simp only [hmid, c1, c2, c3]
    rw [if_neg (by simp only [Decidable.not_not]; exact ⟨hts _ _ (by omega) (by omega), hts _ _ (by omega) (by omega)⟩), if_neg (by omega)]
    split
    · rename_i h; exact ⟨lo, rfl, Or.inl h⟩
    · by_cases hc : t ≤ ts mid
      · simp only [hc, if_true]
        split
        · rename_i hs; unfold span at hs
          exact ⟨lo, rfl, Or.inr ⟨mid, by omega, by omega, by omega, hc⟩⟩
        · rename_i hs; unfold span at hs
          exact ih lo mid (by omega) (by omega) (by omega) hc
      · simp only [hc, if_false]
        split
        · rename_i hs; unfold span at hs
          exact ⟨mid, rfl, Or.inr ⟨hi, by omega, by omega, by omega, h4⟩⟩
        · rename_i hs; unfold span at hs
          exact ih mid hi (by omega) (by omega) (by omega) h4

/-- On a chain whose timestamps never decrease: a date after the last block is refused, and for any other date the height `r` found is such that
no block below `r` reached the date, and the date is at most two days after block `r` or reached at most 1440 blocks above it. -/
theorem C55_bracket (n : Nat) (hn : 0 < n) (ts : Nat → Int) (hts : ∀ i j, i ≤ j → j < n → ts i ≤ ts j) (t : Int) :
    (ts (n - 1) < t → heightByDate (chain n ts) n t = .future) ∧
    (t ≤ ts (n - 1) → ∃ r : Nat, heightByDate (chain n ts) n t = .height r ∧ r < n ∧ (∀ k, k < r → ts k < t) ∧
      (t ≤ ts r + 2 * 86400 ∨ ∃ k, r ≤ k ∧ k < n ∧ k ≤ r + 1440 ∧ t ≤ ts k)) := by
  have e : ((n : Int) - 1) = ((n - 1 : Nat) : Int) := by omega
  constructor
  · intro h
    obtain ⟨mid, hm⟩ : ∃ mid : Nat, mid = (0 + (n - 1)) / 2 := ⟨_, rfl⟩
    have hmid : ((0 : Int) + (n - 1 : Nat)) / 2 = (mid : Int) := by omega
    have c1 : chain n ts 0 = some (ts 0) := by unfold chain; rw [if_pos (by omega)]; simp
    have c2 : chain n ts mid = some (ts mid) := by unfold chain; rw [if_pos (by omega)]; simp
    have c3 : chain n ts (n - 1 : Nat) = some (ts (n - 1)) := by unfold chain; rw [if_pos (by omega)]; simp
    unfold heightByDate search
    simp only [e, hmid, c1, c2, c3]
    rw [if_neg (by simp only [Decidable.not_not]; exact ⟨hts _ _ (by omega) (by omega), hts _ _ (by omega) (by omega)⟩), if_pos h]
  · intro h
    obtain ⟨r, hr, hb⟩ := search_mono n ts hts t (n + 1) 0 (n - 1) (by omega) (by omega) (by omega) h
    have h' : heightByDate (chain n ts) n t = .height r := by unfold heightByDate; rw [e]; exact hr
    obtain ⟨_, h2, h3⟩ := C55_before n hn ts t r h'
    refine ⟨r, h', by omega, ?_, hb⟩
    intro k hk
    rcases h3 with h3 | h3
    · omega
    · simp only [Int.toNat_natCast] at h3
      have := hts k r (by omega) (by omega)
      omega

/-- On a chain whose timestamps go back, the search can stop with the first block although a late date was asked for, and a block below the height
found can carry a timestamp after the date. -/
theorem C55_false_unordered :
    (∃ ts : Nat → Int, heightByDate (chain 5000 ts) 5000 4000000 = .height 0 ∧ (∀ k, k < 5000 → k ≠ 2499 → ts k = 1000 * k)) ∧
    (∃ ts : Nat → Int, heightByDate (chain 5000 ts) 5000 4000000 = .height 3749 ∧ (∀ k, k < 5000 → k ≠ 100 → ts k = 1000 * k) ∧ ts 100 > 4000000) := by
  constructor
  · refine ⟨fun k => if k = 2499 then 9000000 else 1000 * k, by decide +kernel, ?_⟩
    intro k _ h; simp [h]
  · refine ⟨fun k => if k = 100 then 9000000 else 1000 * k, by decide +kernel, ?_, by decide⟩
    intro k _ h; simp [h]

/-- A chain of 10000 blocks, one every 120 seconds, and a date in its second half. -/
example : heightByDate (chain 10000 fun k => 120 * k) 10000 700000 = .height 4999 := by decide +kernel

end Verif.Height
