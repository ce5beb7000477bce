import Verif.Model.Seed
import Verif.Props.Mnemonic
import Mathlib.Data.List.Nodup

/-! Words and lines of words. -/

namespace Verif.Seed
open Verif Hd
open Verif.Mnemonic (words)

/-- The number of a text. -/
def textNum : Nat → List Char → Nat
  | k + 1, c :: cs => c.toNat * 256 ^ k + textNum k cs
  | _, _ => 0

/-- Small letters only. -/
def small (s : List Char) : Bool := s.all fun c => decide ('a' ≤ c) && decide (c ≤ 'z')

/-- A number that writes a word: small letters, then zeros. -/
def goodWord : Nat → Nat → Bool
  | 0, v => Nat.beq v 0
  | k + 1, v =>
    bif Nat.beq (v / 256 ^ k) 0 then Nat.beq v 0
    else Nat.ble 97 (v / 256 ^ k) && (Nat.ble (v / 256 ^ k) 122 && goodWord k (v % 256 ^ k))

theorem char_small {d : Nat} (h1 : 97 ≤ d) (h2 : d ≤ 122) : (Char.ofNat d).toNat = d ∧ 'a' ≤ Char.ofNat d ∧ Char.ofNat d ≤ 'z' := by
  have : ∀ d : Fin 123, 97 ≤ d.1 → (Char.ofNat d.1).toNat = d.1 ∧ 'a' ≤ Char.ofNat d.1 ∧ Char.ofNat d.1 ≤ 'z' := by decide +kernel
  exact this ⟨d, by omega⟩ h1

theorem goodWord_text : ∀ (k v : Nat), goodWord k v = true → textNum k (wordText k v) = v ∧ small (wordText k v) = true
  | 0, v, h => by
    rw [goodWord] at h
    exact ⟨(Nat.eq_of_beq_eq_true h).symm, rfl⟩
  | k + 1, v, h => by
    rw [goodWord] at h
    rw [wordText]
    by_cases h0 : v / 256 ^ k = 0
    · rw [if_pos h0]
      rw [show Nat.beq (v / 256 ^ k) 0 = true by rw [h0]; rfl] at h
      exact ⟨(Nat.eq_of_beq_eq_true h).symm, rfl⟩
    · rw [if_neg h0]
      have hb : Nat.beq (v / 256 ^ k) 0 = false := by
        cases he : Nat.beq (v / 256 ^ k) 0 with
        | false => rfl
        | true => exact absurd (Nat.eq_of_beq_eq_true he) h0
      rw [hb, cond_false, Bool.and_eq_true, Bool.and_eq_true] at h
      obtain ⟨h1, h2, h3⟩ := h
      obtain ⟨c1, c2, c3⟩ := char_small (Nat.le_of_ble_eq_true h1) (Nat.le_of_ble_eq_true h2)
      obtain ⟨i1, i2⟩ := goodWord_text k _ h3
      constructor
      · rw [textNum, c1, i1, Nat.mul_comm]
        exact Nat.div_add_mod _ _
      · rw [small, List.all_cons]
        rw [small] at i2
        rw [i2]
        simp [c2, c3]

theorem words_good : words.all (fun w => goodWord 12 w && !Nat.beq w 0) = true := by decide +kernel

theorem english_good : english.all (fun w => goodWord 8 w && !Nat.beq w 0) = true := by decide +kernel

theorem english_increasing : Mnemonic.increasing english = true := by decide +kernel

theorem english_length : english.length = 2048 := by decide +kernel

theorem good_of {k w : Nat} (h : (goodWord k w && !Nat.beq w 0) = true) :
    textNum k (wordText k w) = w ∧ small (wordText k w) = true ∧ wordText k w ≠ [] := by
  rw [Bool.and_eq_true] at h
  obtain ⟨h1, h2⟩ := goodWord_text k w h.1
  refine ⟨h1, h2, ?_⟩
  intro he
  rw [he] at h1
  have : w = 0 := by rw [← h1]; cases k <;> rfl
  have h3 := h.2
  rw [this] at h3
  cases h3

theorem moneroWord_good {w : Nat} (h : w ∈ words) : textNum 12 (wordText 12 w) = w ∧ small (wordText 12 w) = true ∧ wordText 12 w ≠ [] :=
  good_of (List.all_eq_true.1 words_good w h)

theorem englishWord_good {w : Nat} (h : w ∈ english) : textNum 8 (wordText 8 w) = w ∧ small (wordText 8 w) = true ∧ wordText 8 w ≠ [] :=
  good_of (List.all_eq_true.1 english_good w h)

theorem idxOf_map {k : Nat} {ws : List Nat} (hinc : Mnemonic.increasing ws = true) (hg : ∀ w ∈ ws, textNum k (wordText k w) = w) (i : Nat) (hi : i < ws.length) :
    (ws.map (wordText k)).idxOf? (wordText k ws[i]) = some i := by
  rw [List.idxOf?, List.findIdx?_eq_some_iff_getElem]
  refine ⟨by simpa using hi, by simp, ?_⟩
  intro j hj
  simp only [List.getElem_map, beq_iff_eq]
  intro he
  have hlt := List.pairwise_iff_getElem.1 (Mnemonic.increasing_lt hinc) j i (by omega) hi hj
  have h1 := hg ws[j] (List.getElem_mem _)
  have h2 := hg ws[i] (List.getElem_mem _)
  rw [he, h2] at h1
  omega

theorem moneroWord_text {w : Nat} (h : w ∈ words) : moneroWord (wordText 12 w) = w := by
  obtain ⟨i, hi, rfl⟩ := List.mem_iff_getElem.1 h
  rw [moneroWord, moneroTexts, idxOf_map Mnemonic.increasing_words (fun w hw => (moneroWord_good hw).1) i hi]
  simp [List.getD_eq_getElem?_getD, List.getElem?_eq_getElem hi]

theorem english_index (i : Nat) (h : i < 2048) : ∃ t, englishTexts[i]? = some t ∧ englishTexts.idxOf? t = some i ∧ small t = true ∧ t ≠ [] := by
  have hi : i < english.length := by rw [english_length]; exact h
  refine ⟨wordText 8 english[i], by simp [englishTexts, List.getElem?_eq_getElem hi], ?_, ?_⟩
  · exact idxOf_map english_increasing (fun w hw => (englishWord_good hw).1) i hi
  · exact (englishWord_good (List.getElem_mem hi)).2

/-! ## Lines -/

/-- No white space. -/
def solid (s : List Char) : Prop := ∀ c ∈ s, isSpace c = false

theorem toLower_space {c : Char} (h : isSpace c = true) : c.toLower = c := by
  simp only [isSpace, Bool.or_eq_true, decide_eq_true_eq] at h
  rcases h with ((((rfl | rfl) | rfl) | rfl) | rfl) | rfl <;> decide

theorem small_solid {c : Char} (h : 'a' ≤ c) : isSpace c = false := by
  cases hs : isSpace c with
  | false => rfl
  | true =>
    simp only [isSpace, Bool.or_eq_true, decide_eq_true_eq] at hs
    rcases hs with ((((rfl | rfl) | rfl) | rfl) | rfl) | rfl <;> exact absurd h (by decide)

/-- A word in any mixture of capital and small letters has no white space. -/
theorem solid_of_lower {s : List Char} (h : small (lower s) = true) : solid s := by
  intro c hc
  cases hs : isSpace c with
  | false => rfl
  | true =>
    have : c.toLower ∈ lower s := List.mem_map.2 ⟨c, hc, rfl⟩
    have := List.all_eq_true.1 h _ this
    rw [toLower_space hs] at this
    simp only [Bool.and_eq_true, decide_eq_true_eq] at this
    rw [small_solid this.1] at hs
    cases hs

theorem dropWhile_solid {s : List Char} (h : solid s) : s.dropWhile isSpace = s := by
  cases s with
  | nil => rfl
  | cons c cs => rw [List.dropWhile_cons, h c List.mem_cons_self]; rfl

theorem strip_solid {s : List Char} (h : solid s) : strip s = s := by
  rw [strip, dropWhile_solid h, dropWhile_solid (by intro c hc; exact h c (List.mem_reverse.1 hc)), List.reverse_reverse]

theorem splitSpace_solid {s : List Char} (h : solid s) : splitSpace s = [s] := by
  induction s with
  | nil => rfl
  | cons c cs ih =>
    have hc : c ≠ ' ' := by
      rintro rfl
      have := h ' ' List.mem_cons_self
      revert this; decide
    rw [splitSpace, if_neg hc, ih fun x hx => h x (List.mem_cons_of_mem _ hx)]

theorem splitSpace_cons {s t : List Char} (h : solid s) : splitSpace (s ++ ' ' :: t) = s :: splitSpace t := by
  induction s with
  | nil => rfl
  | cons c cs ih =>
    have hc : c ≠ ' ' := by
      rintro rfl
      have := h ' ' List.mem_cons_self
      revert this; decide
    rw [List.cons_append, splitSpace, if_neg hc, ih fun x hx => h x (List.mem_cons_of_mem _ hx)]

theorem splitSpace_join {ws : List (List Char)} (hne : ws ≠ []) (h : ∀ w ∈ ws, solid w) : splitSpace (joinSpace ws) = ws := by
  induction ws with
  | nil => exact absurd rfl hne
  | cons w ws ih =>
    cases ws with
    | nil => exact splitSpace_solid (h w List.mem_cons_self)
    | cons v vs =>
      rw [joinSpace, splitSpace_cons (h w List.mem_cons_self), ih (by simp) fun x hx => h x (List.mem_cons_of_mem _ hx)]
      intro he; cases he

/-- Lines of words, in any mixture of capital and small letters. -/
theorem cleanInput_lines {groups : List (List (List Char))} (hne : ∀ g ∈ groups, g ≠ []) (h : ∀ g ∈ groups, ∀ w ∈ g, solid w) :
    cleanInput (.list (groups.map joinSpace)) = groups.flatten.map lower := by
  have h1 : (groups.map joinSpace).flatMap splitSpace = groups.flatten := by
    induction groups with
    | nil => rfl
    | cons g gs ih =>
      rw [List.map_cons, List.flatMap_cons, splitSpace_join (hne g List.mem_cons_self) (h g List.mem_cons_self), List.flatten_cons,
        ih (fun x hx => hne x (List.mem_cons_of_mem _ hx)) fun x hx => h x (List.mem_cons_of_mem _ hx)]
  show ((groups.map joinSpace).flatMap splitSpace).map (fun x => lower (strip x)) = _
  rw [h1]
  apply List.map_congr_left
  intro w hw
  obtain ⟨g, hg, hw⟩ := List.mem_flatten.1 hw
  rw [strip_solid (h g hg w hw)]

theorem lower_small {s : List Char} (h : small s = true) : lower s = s := by
  rw [lower]
  conv_rhs => rw [← List.map_id s]
  apply List.map_congr_left
  intro c hc
  have := List.all_eq_true.1 h c hc
  simp only [Bool.and_eq_true, decide_eq_true_eq] at this
  have h1 := this.1
  rw [id, Char.toLower]
  rw [dif_neg]
  intro hx
  have h2 : 'a'.val ≤ c.val := h1
  have h3 := hx.2
  have : (97 : UInt32) ≤ 90 := UInt32.le_trans h2 h3
  revert this; decide

end Verif.Seed
