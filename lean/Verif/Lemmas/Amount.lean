import Verif.Model.Amount
import Verif.Spec.Amount
import Mathlib.Tactic.Linarith
import Mathlib.Tactic.FieldSimp
import Mathlib.Tactic.Ring
import Mathlib.Tactic.Positivity
import Mathlib.Tactic.NormNum
import Mathlib.Algebra.Order.Field.Power
import Mathlib.Data.Rat.Floor
import Mathlib.Data.Nat.Log

namespace Verif.Amount

theorem floor_eq (q : ℚ) : q.floor = ⌊q⌋ := rfl

theorem nearest_err (q : ℚ) : |(nearest q : ℚ) - q| ≤ 1 / 2 := by
  have h1 := Int.floor_le q
  have h2 := Int.lt_floor_add_one q
  rw [abs_le]
  by_cases h : 1 / 2 < q - ⌊q⌋ ∨ (q - ⌊q⌋ = 1 / 2 ∧ ⌊q⌋ % 2 = 1)
  · have e : nearest q = ⌊q⌋ + 1 := if_pos h
    rw [e]
    push_cast
    rcases h with h | ⟨h, -⟩ <;> constructor <;> linarith
  · have e : nearest q = ⌊q⌋ := if_neg h
    rw [e]
    push Not at h
    constructor <;> linarith [h.1]

theorem nearest_int (m : ℤ) : nearest (m : ℚ) = m := by
  simp [nearest, floor_eq]

theorem ilog_le {q : ℚ} (h : 0 < q) : (2 : ℚ) ^ ilog q ≤ q := by
  have hn : 0 < q.num := Rat.num_pos.2 h
  have hd : (0 : ℚ) < q.den := by exact_mod_cast q.den_pos
  obtain ⟨n, hq⟩ : ∃ n : ℕ, (n : ℤ) = q.num := ⟨q.num.toNat, Int.toNat_of_nonneg hn.le⟩
  have hn0 : n ≠ 0 := by rintro rfl; simp at hq; omega
  have hnq : (n : ℚ) = q * q.den := by
    rw [Rat.mul_den_eq_num, ← hq]; push_cast; rfl
  simp only [ilog]
  have e : q.num.toNat = n := by rw [← hq]; simp
  rw [e]
  split
  · assumption
  · have h1 : 2 ^ Nat.log2 n ≤ n := Nat.log2_self_le hn0
    have h2 : q.den < 2 ^ (Nat.log2 q.den + 1) := Nat.lt_log2_self
    have h1' : (2 : ℚ) ^ Nat.log2 n ≤ n := by exact_mod_cast h1
    have h2' : (q.den : ℚ) < 2 ^ (Nat.log2 q.den + 1) := by exact_mod_cast h2
    have e2 : (2 : ℚ) ^ ((Nat.log2 n : ℤ) - Nat.log2 q.den - 1) * 2 ^ (Nat.log2 q.den + 1) = 2 ^ Nat.log2 n := by
      rw [← zpow_natCast, ← zpow_add₀ (by norm_num), ← zpow_natCast]
      congr 1; push_cast; ring
    obtain ⟨X, hX⟩ : ∃ X : ℚ, X = 2 ^ ((Nat.log2 n : ℤ) - Nat.log2 q.den - 1) := ⟨_, rfl⟩
    obtain ⟨Y, hY⟩ : ∃ Y : ℚ, Y = 2 ^ (Nat.log2 q.den + 1) := ⟨_, rfl⟩
    rw [← hX] at e2 ⊢
    rw [← hY] at e2 h2'
    have hp : (0 : ℚ) < X := by rw [hX]; positivity
    by_contra hc
    push Not at hc
    nlinarith [mul_pos h hd]

theorem roundPos_err {q : ℚ} (h : (2 : ℚ) ^ (-1022 : ℤ) ≤ q) : |roundPos q - q| ≤ q / 2 ^ 53 := by
  have hq : 0 < q := lt_of_lt_of_le (by positivity) h
  have hl := ilog_le hq
  simp only [roundPos]
  obtain ⟨t, ht⟩ : ∃ t, t = max (ilog q - 52) (-1074) := ⟨_, rfl⟩
  rw [← ht]
  have hp : (0 : ℚ) < 2 ^ t := by positivity
  have hb : (2 : ℚ) ^ t ≤ q / 2 ^ 52 := by
    rw [le_div_iff₀ (by positivity), ← zpow_natCast, ← zpow_add₀ (by norm_num)]
    rcases le_total (ilog q - 52) (-1074) with hc | hc
    · rw [max_eq_right hc] at ht
      rw [ht]; exact h
    · rw [max_eq_left hc] at ht
      rw [ht]
      simpa using hl
  have h1 := nearest_err (q / 2 ^ t)
  have h2 : (nearest (q / 2 ^ t) : ℚ) * 2 ^ t - q = (nearest (q / 2 ^ t) - q / 2 ^ t) * 2 ^ t := by field_simp
  rw [h2, abs_mul, abs_of_pos hp]
  calc _ ≤ 1 / 2 * (q / 2 ^ 52) := by gcongr
    _ = q / 2 ^ 53 := by ring

theorem round_err {q : ℚ} (h : (2 : ℚ) ^ (-1022 : ℤ) ≤ q) (h' : q ≤ 2 ^ 1000) : ∃ r, round q = .fin r ∧ |r - q| ≤ q / 2 ^ 53 := by
  have hq : 0 < q := lt_of_lt_of_le (by positivity) h
  have he := roundPos_err h
  refine ⟨roundPos q, ?_, he⟩
  have hc : ¬ (2 : ℚ) ^ 1024 ≤ roundPos q := by
    have h1 := (abs_le.1 he).2
    have h2 : q / 2 ^ 53 ≤ q := div_le_self hq.le (by norm_num)
    have h3 : (2 : ℚ) ^ 1024 = 2 ^ 1000 * 2 ^ 24 := by rw [← pow_add]
    have h4 : (0 : ℚ) < 2 ^ 1000 := by positivity
    rw [h3]
    obtain ⟨X, hX⟩ : ∃ X : ℚ, X = 2 ^ 1000 := ⟨_, rfl⟩
    rw [← hX] at h' h4 ⊢
    intro h6
    generalize q / 2 ^ 53 = z at h1 h2 he
    clear hX h3 h he
    linarith
  unfold round
  rw [if_neg hq.ne', if_pos hq, if_neg hc]

theorem round_exact {k : ℕ} {j : ℤ} (hk : k < 2 ^ 53) (hj : -1074 ≤ j) (hj' : j ≤ 900) : round ((k : ℚ) * 2 ^ j) = .fin ((k : ℚ) * 2 ^ j) := by
  rcases Nat.eq_zero_or_pos k with rfl | hk0
  · simp [round]
  obtain ⟨q, hq⟩ : ∃ q : ℚ, q = (k : ℚ) * 2 ^ j := ⟨_, rfl⟩
  rw [← hq]
  have hk0' : (0 : ℚ) < k := by exact_mod_cast hk0
  have hpos : 0 < q := by rw [hq]; positivity
  have hlt : q < 2 ^ (53 + j) := by
    rw [hq, zpow_add₀ (by norm_num)]
    have : (k : ℚ) < 2 ^ (53 : ℤ) := by exact_mod_cast hk
    gcongr
  have hl : ilog q < 53 + j := (zpow_lt_zpow_iff_right₀ (by norm_num : (1 : ℚ) < 2)).1 ((ilog_le hpos).trans_lt hlt)
  have hr : roundPos q = q := by
    simp only [roundPos]
    obtain ⟨t, ht⟩ : ∃ t, t = max (ilog q - 52) (-1074) := ⟨_, rfl⟩
    rw [← ht]
    have htj : t ≤ j := by rw [ht]; exact max_le (by omega) hj
    obtain ⟨d, hd⟩ : ∃ d : ℕ, j = t + d := ⟨(j - t).toNat, by omega⟩
    have e : q / 2 ^ t = ((k * 2 ^ d : ℤ) : ℚ) := by
      rw [hq, hd, zpow_add₀ (by norm_num)]
      push_cast
      field_simp
      rw [zpow_natCast]
    rw [e, nearest_int, ← e]
    field_simp
  have hc : ¬ (2 : ℚ) ^ 1024 ≤ roundPos q := by
    rw [hr, not_le]
    refine hlt.trans_le ?_
    rw [← zpow_natCast]
    exact zpow_le_zpow_right₀ (by norm_num) (by push_cast; omega)
  unfold round
  rw [if_neg hpos.ne', if_pos hpos, if_neg hc, hr]

theorem range_ok {q : ℚ} (h1 : 1 / 10 ^ 13 ≤ q) (h2 : q ≤ 10 ^ 30) : (2 : ℚ) ^ (-1022 : ℤ) ≤ q ∧ q ≤ 2 ^ 1000 := by
  constructor
  · refine le_trans ?_ h1
    calc (2 : ℚ) ^ (-1022 : ℤ) ≤ 2 ^ (-44 : ℤ) := zpow_le_zpow_right₀ (by norm_num) (by norm_num)
      _ ≤ 1 / 10 ^ 13 := by norm_num
  · refine h2.trans ?_
    calc (10 : ℚ) ^ 30 ≤ 2 ^ 100 := by norm_num
      _ ≤ 2 ^ 1000 := pow_le_pow_right₀ (by norm_num) (by norm_num)

/-- The product that is cut to an integer. -/
theorem product_err {a : ℕ} (h0 : 0 < a) (ha : a < 2 ^ 64) :
    ∃ r : ℚ, (Double.mul (.fin (10 ^ 12)) (round ((a : ℚ) / 10 ^ 12))) = .fin r ∧ |r - a| ≤ (a : ℚ) / 2 ^ 51 := by
  have h1 : (1 : ℚ) ≤ a := by exact_mod_cast h0
  have h2 : (a : ℚ) < 2 ^ 64 := by exact_mod_cast ha
  obtain ⟨f, hf, ef⟩ : ∃ f, round ((a : ℚ) / 10 ^ 12) = .fin f ∧ |f - (a : ℚ) / 10 ^ 12| ≤ (a : ℚ) / 10 ^ 12 / 2 ^ 53 := by
    obtain ⟨b1, b2⟩ := range_ok (q := (a : ℚ) / 10 ^ 12) (by rw [div_le_div_iff₀ (by norm_num) (by norm_num)]; norm_num; linarith)
      (by rw [div_le_iff₀ (by norm_num)]; norm_num at h2 ⊢; linarith)
    exact round_err b1 b2
  rw [abs_le] at ef
  rw [hf]
  have e1 : 10 ^ 12 * f ≤ a + (a : ℚ) / 2 ^ 53 := by have := ef.2; norm_num at this ⊢; linarith
  have e2 : a - (a : ℚ) / 2 ^ 53 ≤ 10 ^ 12 * f := by have := ef.1; norm_num at this ⊢; linarith
  obtain ⟨p, hp⟩ : ∃ p : ℚ, p = 10 ^ 12 * f := ⟨_, rfl⟩
  obtain ⟨r, hr, er⟩ : ∃ r, round p = .fin r ∧ |r - p| ≤ p / 2 ^ 53 := by
    rw [← hp] at e1 e2
    have h3 : (a : ℚ) < 18446744073709551616 := by exact_mod_cast ha
    obtain ⟨b1, b2⟩ := range_ok (q := p) (by norm_num at e2 ⊢; linarith) (by norm_num at e1 ⊢; linarith)
    exact round_err b1 b2
  refine ⟨r, by simp only [Double.mul, ← hp, hr], ?_⟩
  rw [← hp] at e1 e2
  rw [abs_le] at er ⊢
  obtain ⟨er1, er2⟩ := er
  norm_num at e1 e2 er1 er2 ⊢
  constructor <;> linarith

/-! ## Texts -/

theorem digit_iff (c : Char) : Digit c ↔ ('0' ≤ c ∧ c ≤ '9') := by
  simp only [Digit, Char.le_def, UInt32.le_iff_toNat_le]
  rfl

theorem digitsVal_digits : ∀ (ds : List Char) (b : Bool) (acc : ℕ), (∀ c ∈ ds, Digit c) → (ds ≠ [] ∨ b = true) →
    Hd.digitsVal ds b acc = some (ds.foldl (fun n c => 10 * n + (c.toNat - 48)) acc)
  | [], b, acc, _, h => by
    have : b = true := by simpa using h
    simp [Hd.digitsVal, this]
  | c :: cs, b, acc, hd, _ => by
    have hc := hd c (by simp)
    have h1 : c ≠ '_' := by rintro rfl; exact absurd hc (by unfold Digit; decide)
    simp only [Hd.digitsVal, if_neg h1, if_pos ((digit_iff c).1 hc), List.foldl_cons]
    rw [digitsVal_digits cs true _ (fun x hx => hd x (by simp [hx])) (Or.inr rfl), mul_comm acc 10]

theorem digitsVal_value {ds : List Char} (h : ∀ c ∈ ds, Digit c) (hn : ds ≠ []) : Hd.digitsVal ds false 0 = some (value ds) :=
  digitsVal_digits ds false 0 h (Or.inl hn)

theorem takeWhile_all {α : Type} {p : α → Bool} : ∀ {l : List α} (r : List α), (∀ x ∈ l, p x = true) → (∀ x ∈ r.head?, p x = false) →
    (l ++ r).takeWhile p = l
  | [], [], _, _ => rfl
  | [], y :: r, _, h => by simp [h y (by simp)]
  | x :: l, r, h, h' => by
    simp only [List.cons_append, List.takeWhile_cons, h x (by simp), if_true]
    rw [takeWhile_all r (fun y hy => h y (by simp [hy])) h']

theorem digit_ne {c d : Char} (hc : Digit c) (hd : ¬ (48 ≤ d.toNat ∧ d.toNat ≤ 57)) : c ≠ d := by
  rintro rfl; exact hd hc

theorem mantissa_whole {w : List Char} (hw : w ≠ []) (hd : ∀ c ∈ w, Digit c) : mantissa w = some (value w, 0) := by
  have e : w.takeWhile (· ≠ '.') = w := by
    have := takeWhile_all (p := (· ≠ '.')) (l := w) [] (fun c hc => by simpa using digit_ne (hd c hc) (by decide)) (by simp)
    simpa using this
  unfold mantissa
  dsimp only
  rw [e, List.drop_length]
  simp [digitsVal_value hd hw]

theorem value_nil : value [] = 0 := rfl

theorem mantissa_point {w f : List Char} (hw : w ≠ []) (hd : ∀ c ∈ w, Digit c) (hf : ∀ c ∈ f, Digit c) :
    ∃ m n, mantissa (w ++ '.' :: f) = some (m, n) ∧ (m : ℚ) * 10 ^ f.length = (value w * 10 ^ f.length + value f) * 10 ^ n := by
  have e : (w ++ '.' :: f).takeWhile (· ≠ '.') = w :=
    takeWhile_all (p := (· ≠ '.')) ('.' :: f) (fun c hc => by simpa using digit_ne (hd c hc) (by decide)) (by simp)
  have ef : f.filter (· ≠ '_') = f := List.filter_eq_self.2 fun c hc => by simpa using digit_ne (hf c hc) (by decide)
  unfold mantissa
  dsimp only
  rw [e, List.drop_left]
  dsimp only
  rw [if_neg hw, ef]
  by_cases hf0 : f = []
  · rw [if_pos hf0, digitsVal_value hd hw]
    exact ⟨_, _, rfl, by subst hf0; simp [value_nil]⟩
  · rw [if_neg hf0, digitsVal_value hd hw, digitsVal_value hf hf0]
    exact ⟨_, _, rfl, by push_cast; ring⟩

theorem notexp {s : List Char} (h : ∀ c ∈ s, Digit c ∨ c = '.') : s.takeWhile (fun c => c ≠ 'e' ∧ c ≠ 'E') = s := by
  have := takeWhile_all (p := fun c => decide (c ≠ 'e' ∧ c ≠ 'E')) (l := s) [] (fun c hc => by
    rcases h c hc with h | rfl
    · exact decide_eq_true ⟨digit_ne h (by decide), digit_ne h (by decide)⟩
    · rfl) (by simp)
  simpa using this

theorem unsigned_of {s : List Char} (h : ∀ c ∈ s, Digit c ∨ c = '.') {m n : ℕ} (hm : mantissa s = some (m, n)) :
    unsigned s = some ((m : ℚ) * 10 ^ (-(n : ℤ))) := by
  unfold unsigned
  dsimp only
  rw [notexp h, hm, List.drop_length]
  rfl

theorem unsigned_denotes {txt : List Char} {a : ℕ} (h : Denotes txt a) : unsigned txt = some ((a : ℚ) / 10 ^ 12) := by
  cases h with
  | whole _ hw hd =>
    rw [unsigned_of (fun c hc => Or.inl (hd c hc)) (mantissa_whole hw hd)]
    congr 1
    push_cast
    simp only [mul_one]
    ring
  | point w f hw hd hf hl =>
    obtain ⟨m, n, hm, e⟩ := mantissa_point hw hd hf
    rw [unsigned_of (fun c hc => ?_) hm]
    · congr 1
      have h10 : (10 : ℚ) ^ 12 = 10 ^ (12 - f.length) * 10 ^ f.length := by rw [← pow_add]; congr 1; omega
      rw [zpow_neg, zpow_natCast]
      push_cast
      field_simp
      calc (m : ℚ) * 10 ^ 12 = 10 ^ (12 - f.length) * (m * 10 ^ f.length) := by rw [h10]; ring
        _ = _ := by
          rw [e]
          have h11 : (1000000000000 : ℚ) = 10 ^ (12 - f.length) * 10 ^ f.length := by rw [← h10]; norm_num
          rw [h11]; ring
    · simp only [List.mem_append, List.mem_cons] at hc
      rcases hc with hc | rfl | hc
      · exact Or.inl (hd c hc)
      · exact Or.inr rfl
      · exact Or.inl (hf c hc)

theorem denotes_chars {txt : List Char} {a : ℕ} (h : Denotes txt a) : txt ≠ [] ∧ ∀ c ∈ txt, Digit c ∨ c = '.' := by
  cases h with
  | whole _ hw hd => exact ⟨hw, fun c hc => Or.inl (hd c hc)⟩
  | point w f hw hd hf hl =>
    refine ⟨by simp, fun c hc => ?_⟩
    simp only [List.mem_append, List.mem_cons] at hc
    rcases hc with hc | rfl | hc
    · exact Or.inl (hd c hc)
    · exact Or.inr rfl
    · exact Or.inl (hf c hc)

theorem dropWhile_none {α : Type} {p : α → Bool} : ∀ {l : List α}, (∀ x ∈ l, p x = false) → l.dropWhile p = l
  | [], _ => rfl
  | x :: l, h => by simp [h x (by simp)]

theorem plain_char {c : Char} (h : Digit c ∨ c = '.') : Hd.isSpace c = false ∧ c ≠ '-' ∧ c ≠ '+' ∧ c ≠ 'i' ∧ c ≠ 'n' ∧ c ≠ 'I' ∧ c ≠ 'N' ∧ c.toLower = c := by
  rcases h with h | rfl
  · refine ⟨?_, digit_ne h (by decide), digit_ne h (by decide), digit_ne h (by decide), digit_ne h (by decide), digit_ne h (by decide),
      digit_ne h (by decide), ?_⟩
    · simp only [Hd.isSpace, decide_eq_false (digit_ne h (by decide : ¬ (48 ≤ ' '.toNat ∧ ' '.toNat ≤ 57))),
        decide_eq_false (digit_ne h (by decide : ¬ (48 ≤ '\t'.toNat ∧ '\t'.toNat ≤ 57))),
        decide_eq_false (digit_ne h (by decide : ¬ (48 ≤ '\n'.toNat ∧ '\n'.toNat ≤ 57))),
        decide_eq_false (digit_ne h (by decide : ¬ (48 ≤ '\r'.toNat ∧ '\r'.toNat ≤ 57))),
        decide_eq_false (digit_ne h (by decide : ¬ (48 ≤ '\x0b'.toNat ∧ '\x0b'.toNat ≤ 57))),
        decide_eq_false (digit_ne h (by decide : ¬ (48 ≤ '\x0c'.toNat ∧ '\x0c'.toNat ≤ 57))), Bool.or_false]
    · unfold Char.toLower
      split
      · rename_i h1
        simp only [UInt32.le_iff_toNat_le] at h1
        have := h1.1
        have h2 := h.2
        simp only [Char.toNat] at h2
        exact absurd (this.trans h2) (by decide)
      · rfl
  · decide

theorem float_denotes {txt : List Char} {a : ℕ} (h : Denotes txt a) : float txt = some (round ((a : ℚ) / 10 ^ 12)) := by
  obtain ⟨h0, hc⟩ := denotes_chars h
  have e1 : txt.dropWhile Hd.isSpace = txt := dropWhile_none fun c hx => (plain_char (hc c hx)).1
  have e2 : txt.reverse.dropWhile Hd.isSpace = txt.reverse := dropWhile_none fun c hx => (plain_char (hc c (by simpa using hx))).1
  have eb : body txt false = some (round ((a : ℚ) / 10 ^ 12)) := by
    have el : txt.map Char.toLower = txt := by
      conv_rhs => rw [← List.map_id txt]
      exact List.map_congr_left fun c hx => (plain_char (hc c hx)).2.2.2.2.2.2.2
    unfold body
    dsimp only
    rw [el]
    have n1 : ¬ (txt = "inf".toList ∨ txt = "infinity".toList) := by
      rintro (rfl | rfl) <;> exact absurd rfl (plain_char (hc 'i' (by decide))).2.2.2.1
    have n2 : ¬ txt = "nan".toList := by
      rintro rfl; exact absurd rfl (plain_char (hc 'n' (by decide))).2.2.2.2.1
    rw [if_neg n1, if_neg n2, unsigned_denotes h]
    rfl
  unfold float
  rw [e1, e2, List.reverse_reverse]
  split
  · exact absurd rfl (plain_char (hc '-' (by simp))).2.1
  · exact absurd rfl (plain_char (hc '+' (by simp))).2.2.1
  · exact eb

end Verif.Amount
