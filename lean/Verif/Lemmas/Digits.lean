import Verif.Model.Basic
import Mathlib.Tactic.Ring

/-! Positional notation, used by the codecs. -/

namespace Verif.Dig

/-- Value of a digit list, most significant digit first. -/
def ofBE (b : Nat) (l : List Nat) : Nat := l.foldl (fun a d => a * b + d) 0

/-- The `k` low digits of `n`, most significant first. -/
def toBE (b : Nat) : Nat → Nat → List Nat
  | 0, _ => []
  | k + 1, n => toBE b k (n / b) ++ [n % b]

theorem foldl_shift (b : Nat) (l : List Nat) (a : Nat) :
    l.foldl (fun a d => a * b + d) a = a * b ^ l.length + ofBE b l := by
  unfold ofBE
  induction l generalizing a with
  | nil => simp
  | cons d l ih =>
    simp only [List.foldl_cons, List.length_cons]
    rw [ih (a * b + d), ih (0 * b + d)]
    ring

theorem ofBE_nil (b : Nat) : ofBE b [] = 0 := rfl

theorem ofBE_cons (b d : Nat) (l : List Nat) : ofBE b (d :: l) = d * b ^ l.length + ofBE b l := by
  have := foldl_shift b l d
  unfold ofBE at *
  simpa using this

theorem ofBE_append (b : Nat) (l m : List Nat) : ofBE b (l ++ m) = ofBE b l * b ^ m.length + ofBE b m := by
  have := foldl_shift b m (ofBE b l)
  unfold ofBE at *
  rw [List.foldl_append, this]

theorem ofBE_snoc (b d : Nat) (l : List Nat) : ofBE b (l ++ [d]) = ofBE b l * b + d := by
  rw [ofBE_append]; simp [ofBE]

theorem ofBE_lt {b : Nat} (l : List Nat) (h : ∀ d ∈ l, d < b) : ofBE b l < b ^ l.length := by
  induction l with
  | nil => simp [ofBE]
  | cons d l ih =>
    rw [ofBE_cons, List.length_cons, Nat.pow_succ]
    have h1 := ih (fun x hx => h x (List.mem_cons_of_mem _ hx))
    have h2 := h d (List.mem_cons_self ..)
    have h3 : (d + 1) * b ^ l.length ≤ b * b ^ l.length := Nat.mul_le_mul_right _ h2
    have h4 : b ^ l.length * b = b * b ^ l.length := Nat.mul_comm _ _
    rw [h4]
    have h5 : (d + 1) * b ^ l.length = d * b ^ l.length + b ^ l.length := by ring
    omega

@[simp] theorem toBE_length (b k n : Nat) : (toBE b k n).length = k := by
  induction k generalizing n with
  | zero => rfl
  | succ k ih => simp [toBE, ih]

theorem toBE_lt {b : Nat} (hb : 0 < b) (k n : Nat) : ∀ d ∈ toBE b k n, d < b := by
  induction k generalizing n with
  | zero => simp [toBE]
  | succ k ih =>
    intro d hd
    simp only [toBE, List.mem_append, List.mem_singleton] at hd
    rcases hd with hd | rfl
    · exact ih _ d hd
    · exact Nat.mod_lt _ hb

theorem ofBE_toBE {b : Nat} (k n : Nat) (h : n < b ^ k) : ofBE b (toBE b k n) = n := by
  induction k generalizing n with
  | zero => simp only [Nat.pow_zero] at h; simp [toBE, ofBE]; omega
  | succ k ih =>
    rw [toBE, ofBE_snoc, ih (n / b)]
    · rw [Nat.mul_comm]; exact Nat.div_add_mod n b
    · rw [Nat.pow_succ] at h
      exact Nat.div_lt_of_lt_mul (by rwa [Nat.mul_comm])

theorem toBE_ofBE {b : Nat} (hb : 0 < b) (l : List Nat) (h : ∀ d ∈ l, d < b) : toBE b l.length (ofBE b l) = l := by
  induction hn : l.length generalizing l with
  | zero => rw [List.length_eq_zero_iff.1 hn]; rfl
  | succ k ih =>
    have hne : l ≠ [] := by intro e; simp [e] at hn
    have e := List.dropLast_concat_getLast hne
    generalize hm : l.dropLast = m at e
    generalize l.getLast hne = d at e
    subst e
    have hm' : m.length = k := by simpa using hn
    have hd : d < b := h d (by simp)
    have ho : ofBE b (m ++ [d]) = d + b * ofBE b m := by rw [ofBE_snoc]; ring
    rw [toBE, ho, Nat.add_mul_div_left _ _ hb, Nat.div_eq_of_lt hd, Nat.zero_add, Nat.add_mul_mod_self_left, Nat.mod_eq_of_lt hd,
      ih m (fun x hx => h x (by simp [hx])) hm']

theorem toBE_zero {b : Nat} (k : Nat) : toBE b k 0 = List.replicate k 0 := by
  induction k with
  | zero => rfl
  | succ k ih => rw [toBE, Nat.zero_div, ih, Nat.zero_mod, ← List.replicate_succ']

/-- Minimal digits, most significant first (no leading zero). -/
def natDigits (b : Nat) (hb : 1 < b) (n : Nat) : List Nat :=
  if h : n = 0 then [] else natDigits b hb (n / b) ++ [n % b]
termination_by n
decreasing_by exact Nat.div_lt_self (by omega) hb

theorem natDigits_zero (b : Nat) (hb : 1 < b) : natDigits b hb 0 = [] := by rw [natDigits]; simp

theorem natDigits_pos {b : Nat} (hb : 1 < b) {n : Nat} (h : n ≠ 0) : natDigits b hb n = natDigits b hb (n / b) ++ [n % b] := by
  rw [natDigits]; simp [h]

theorem ofBE_natDigits {b : Nat} (hb : 1 < b) (n : Nat) : ofBE b (natDigits b hb n) = n := by
  induction n using Nat.strongRecOn with
  | ind n ih =>
    by_cases h : n = 0
    · subst h; rw [natDigits_zero]; rfl
    · rw [natDigits_pos hb h, ofBE_snoc, ih _ (Nat.div_lt_self (by omega) hb), Nat.mul_comm]
      exact Nat.div_add_mod n b

theorem natDigits_lt {b : Nat} (hb : 1 < b) (n : Nat) : ∀ d ∈ natDigits b hb n, d < b := by
  induction n using Nat.strongRecOn with
  | ind n ih =>
    by_cases h : n = 0
    · subst h; rw [natDigits_zero]; simp
    · rw [natDigits_pos hb h]
      intro d hd
      simp only [List.mem_append, List.mem_singleton] at hd
      rcases hd with hd | rfl
      · exact ih _ (Nat.div_lt_self (by omega) hb) d hd
      · exact Nat.mod_lt _ (by omega)

/-- No leading zero. -/
def Lead (l : List Nat) : Prop := ∀ d, l.head? = some d → d ≠ 0

theorem natDigits_lead {b : Nat} (hb : 1 < b) (n : Nat) : Lead (natDigits b hb n) := by
  induction n using Nat.strongRecOn with
  | ind n ih =>
    by_cases h : n = 0
    · subst h; rw [natDigits_zero]; intro d hd; simp at hd
    · rw [natDigits_pos hb h]
      by_cases h2 : n / b = 0
      · rw [h2, natDigits_zero]
        intro d hd
        simp at hd
        subst hd
        have : n < b := (Nat.div_eq_zero_iff_lt (by omega)).1 h2
        rw [Nat.mod_eq_of_lt this]; exact h
      · intro d hd
        have hne : natDigits b hb (n / b) ≠ [] := by rw [natDigits_pos hb h2]; simp
        obtain ⟨x, xs, hx⟩ := List.exists_cons_of_ne_nil hne
        exact ih _ (Nat.div_lt_self (by omega) hb) d (by rw [hx] at hd ⊢; simpa using hd)

theorem natDigits_ofBE {b : Nat} (hb : 1 < b) (l : List Nat) (h : ∀ d ∈ l, d < b) (hl : Lead l) :
    natDigits b hb (ofBE b l) = l := by
  induction hn : l.length generalizing l with
  | zero => rw [List.length_eq_zero_iff.1 hn, ofBE_nil, natDigits_zero]
  | succ k ih =>
    have hne : l ≠ [] := by intro e; simp [e] at hn
    have e := List.dropLast_concat_getLast hne
    generalize hm : l.dropLast = m at e
    generalize l.getLast hne = d at e
    subst e
    have hm' : m.length = k := by simpa using hn
    have hd : d < b := h d (by simp)
    have hlm : Lead m := by
      intro x hx
      cases m with
      | nil => simp at hx
      | cons y m => exact hl x (by simpa using hx)
    have ih' := ih m (fun x hx => h x (by simp [hx])) hlm hm'
    have hpos : ofBE b (m ++ [d]) ≠ 0 := by
      cases m with
      | nil =>
        have := hl d (by simp)
        rw [ofBE_snoc, ofBE_nil]; omega
      | cons y m =>
        have := hl y (by simp)
        rw [List.cons_append, ofBE_cons]
        have : 0 < y * b ^ (m ++ [d]).length := Nat.mul_pos (by omega) (Nat.pow_pos (by omega))
        omega
    have ho : ofBE b (m ++ [d]) = d + b * ofBE b m := by rw [ofBE_snoc]; ring
    rw [natDigits_pos hb hpos, ho, Nat.add_mul_div_left _ _ (by omega), Nat.div_eq_of_lt hd, Nat.zero_add, Nat.add_mul_mod_self_left,
      Nat.mod_eq_of_lt hd, ih']

/-- Bytes as digits. -/
def nats (l : Bytes) : List Nat := l.map UInt8.toNat

def ofNats (l : List Nat) : Bytes := l.map UInt8.ofNat

theorem nats_lt (l : Bytes) : ∀ d ∈ nats l, d < 256 := by
  intro d hd
  obtain ⟨x, _, rfl⟩ := List.mem_map.1 hd
  exact x.toNat_lt

@[simp] theorem ofNats_nats (l : Bytes) : ofNats (nats l) = l := by
  simp only [ofNats, nats, List.map_map]
  conv => rhs; rw [← List.map_id l]
  apply List.map_congr_left
  intro d _
  simp

theorem nats_ofNats (l : List Nat) (h : ∀ d ∈ l, d < 256) : nats (ofNats l) = l := by
  simp only [nats, ofNats, List.map_map]
  conv => rhs; rw [← List.map_id l]
  apply List.map_congr_left
  intro d hd
  simp [Nat.mod_eq_of_lt (h d hd)]

@[simp] theorem nats_length (l : Bytes) : (nats l).length = l.length := by simp [nats]
@[simp] theorem ofNats_length (l : List Nat) : (ofNats l).length = l.length := by simp [ofNats]

end Verif.Dig
