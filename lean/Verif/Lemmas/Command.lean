import Verif.Spec.Command
import Verif.Lemmas.Amount
import Verif.Lemmas.SeedText
import Verif.Lemmas.HdHex
import Mathlib.Tactic.IntervalCases

namespace Verif.Cmd
open Verif

theorem alnum_not_space {c : Char} (h : Alnum c) : Hd.isSpace c = false := by
  cases hs : Hd.isSpace c with
  | false => rfl
  | true =>
    simp only [Hd.isSpace, Bool.or_eq_true, decide_eq_true_eq] at hs
    rcases hs with ((((rfl | rfl) | rfl) | rfl) | rfl) | rfl <;> exact absurd h (by unfold Alnum Amount.Digit; decide)

theorem digit_alnum {c : Char} (h : Amount.Digit c) : Alnum c := Or.inl h

theorem splitSpace_sep {ws : List Text} (hne : ws ≠ []) (h : ∀ w ∈ ws, Seed.solid w) : Seed.splitSpace (sepBy ' ' ws) = ws := by
  induction ws with
  | nil => exact absurd rfl hne
  | cons w ws ih =>
    cases ws with
    | nil => exact Seed.splitSpace_solid (h w List.mem_cons_self)
    | cons v vs =>
      rw [sepBy, Seed.splitSpace_cons (h w List.mem_cons_self), ih (by simp) fun x hx => h x (List.mem_cons_of_mem _ hx)]
      intro he; cases he

/-- The words of a line are what was put together. -/
theorem words_sep {ws : List Text} (hne : ws ≠ []) (h : ∀ w ∈ ws, Seed.solid w) (h0 : ∀ w ∈ ws, w ≠ []) : words (sepBy ' ' ws) = ws := by
  rw [words, splitSpace_sep hne h, List.filter_eq_self]
  intro w hw
  rw [Seed.strip_solid (h w hw)]
  simpa [List.length_pos_iff] using h0 w hw

theorem splitComma_solid {s : Text} (h : ∀ c ∈ s, c ≠ ',') : splitComma s = [s] := by
  induction s with
  | nil => rfl
  | cons c cs ih => rw [splitComma, if_neg (h c List.mem_cons_self), ih fun x hx => h x (List.mem_cons_of_mem _ hx)]

theorem splitComma_cons {s t : Text} (h : ∀ c ∈ s, c ≠ ',') : splitComma (s ++ ',' :: t) = s :: splitComma t := by
  induction s with
  | nil => rfl
  | cons c cs ih => rw [List.cons_append, splitComma, if_neg (h c List.mem_cons_self), ih fun x hx => h x (List.mem_cons_of_mem _ hx)]

theorem splitComma_sep {ws : List Text} (hne : ws ≠ []) (h : ∀ w ∈ ws, ∀ c ∈ w, c ≠ ',') : splitComma (sepBy ',' ws) = ws := by
  induction ws with
  | nil => exact absurd rfl hne
  | cons w ws ih =>
    cases ws with
    | nil => exact splitComma_solid (h w List.mem_cons_self)
    | cons v vs =>
      rw [sepBy, splitComma_cons (h w List.mem_cons_self), ih (by simp) fun x hx => h x (List.mem_cons_of_mem _ hx)]
      intro he; cases he

theorem solid_alnum {t : Text} (h : ∀ c ∈ t, Alnum c) : Seed.solid t := fun c hc => alnum_not_space (h c hc)

theorem alnum_sign {c : Char} (h : Alnum c) : c ≠ '-' ∧ c ≠ '+' ∧ c ≠ '_' ∧ c ≠ '=' ∧ c ≠ ',' ∧ c ≠ '.' ∧ c ≠ ' ' := by
  refine ⟨?_, ?_, ?_, ?_, ?_, ?_, ?_⟩ <;> rintro rfl <;> exact absurd h (by unfold Alnum Amount.Digit; decide)

/-- A text without sign is read digit by digit. -/
theorem pyInt_alnum {t : Text} (h : ∀ c ∈ t, Alnum c) : Hd.pyInt t = (Hd.digitsVal t false 0).map fun n => (n : Int) := by
  have hs := solid_alnum h
  have e : ((t.dropWhile Hd.isSpace).reverse.dropWhile Hd.isSpace).reverse = t := Seed.strip_solid hs
  rw [Hd.pyInt, e]
  split
  · rename_i r
    exact absurd rfl (alnum_sign (h '-' List.mem_cons_self)).1
  · rename_i r _
    exact absurd rfl (alnum_sign (h '+' List.mem_cons_self)).2.1
  · rfl

theorem pyInt_number {t : Text} (h : Number t) : Hd.pyInt t = some (Amount.value t : Int) := by
  rw [pyInt_alnum fun c hc => digit_alnum (h.2 c hc), Amount.digitsVal_value h.2 h.1]
  rfl

theorem digitsVal_none : ∀ (t : Text) (b : Bool) (acc : ℕ), (∃ c ∈ t, c ≠ '_' ∧ ¬ Amount.Digit c) → Hd.digitsVal t b acc = none
  | [], _, _, h => by simp at h
  | c :: cs, b, acc, h => by
    by_cases h1 : c = '_'
    · have : ∃ x ∈ cs, x ≠ '_' ∧ ¬ Amount.Digit x := by
        obtain ⟨x, hx, hn⟩ := h
        rcases List.mem_cons.1 hx with rfl | hx
        · exact absurd h1 hn.1
        · exact ⟨x, hx, hn⟩
      rw [Hd.digitsVal, if_pos h1, digitsVal_none cs false acc this, ite_self]
    · by_cases h2 : '0' ≤ c ∧ c ≤ '9'
      · have : ∃ x ∈ cs, x ≠ '_' ∧ ¬ Amount.Digit x := by
          obtain ⟨x, hx, hn⟩ := h
          rcases List.mem_cons.1 hx with rfl | hx
          · exact absurd ((Amount.digit_iff _).2 h2) hn.2
          · exact ⟨x, hx, hn⟩
        rw [Hd.digitsVal, if_neg h1, if_pos h2, digitsVal_none cs true _ this]
      · rw [Hd.digitsVal, if_neg h1, if_neg h2]

theorem pyInt_address {t : Text} (h : AddressLike t) : Hd.pyInt t = none := by
  rw [pyInt_alnum h.2.1]
  obtain ⟨c, hc, hd⟩ := h.2.2
  rw [digitsVal_none t false 0 ⟨c, hc, (alnum_sign (h.2.1 c hc)).2.2.1, hd⟩]
  rfl

theorem not_index {t : Text} (h : ∀ c ∈ t, Alnum c) : indexTag.isPrefixOf t = false := by
  cases hp : indexTag.isPrefixOf t with
  | false => rfl
  | true =>
    obtain ⟨r, rfl⟩ := List.isPrefixOf_iff_prefix.1 hp
    exact absurd rfl (alnum_sign (h '=' (List.mem_append_left _ (by decide)))).2.2.2.1

theorem not_priority_long {t : Text} (h : 12 ≤ t.length) : priorities.contains t = false := by
  cases hp : priorities.contains t with
  | false => rfl
  | true =>
    have := List.contains_iff_mem.1 hp
    simp only [priorities, List.mem_cons, List.not_mem_nil, or_false] at this
    rcases this with rfl | rfl | rfl | rfl | rfl <;> exact absurd h (by decide)

theorem not_priority_number {t : Text} (h : Number t) : priorities.contains t = false := by
  cases hp : priorities.contains t with
  | false => rfl
  | true =>
    have := List.contains_iff_mem.1 hp
    simp only [priorities, List.mem_cons, List.not_mem_nil, or_false] at this
    rcases this with rfl | rfl | rfl | rfl | rfl <;> exact absurd h.2 (by unfold Amount.Digit; decide)

theorem pyInt_priority {n : ℕ} (h : n < 5) : Hd.pyInt (priorityName n) = none := by
  interval_cases n <;> decide

theorem priority_alnum {n : ℕ} (h : n < 5) : ∀ c ∈ priorityName n, Alnum c := by
  unfold Alnum Amount.Digit
  interval_cases n <;> decide

theorem cutPriority_name {n : ℕ} (h : n < 5) (ws : List Text) : cutPriority (priorityName n :: ws) = some (some n, ws) := by
  interval_cases n <;> rfl

/-- A word that ends the options. -/
structure Stop (t : Text) : Prop where
  index : indexTag.isPrefixOf t = false
  priority : priorities.contains t = false
  number : Hd.pyInt t = none

theorem AddressLike.stop {t : Text} (h : AddressLike t) : Stop t := ⟨not_index h.2.1, not_priority_long h.1, pyInt_address h⟩

theorem mapM_ints {l : List Text} (h : ∀ t ∈ l, Number t) :
    (l.mapM fun x => Hd.pyInt (Seed.strip x)) = some (l.map fun t => (Amount.value t : Int)) := by
  induction l with
  | nil => rfl
  | cons t l ih =>
    have ht := h t List.mem_cons_self
    rw [List.mapM_cons, Seed.strip_solid (solid_alnum fun c hc => digit_alnum (ht.2 c hc)), pyInt_number ht,
      ih fun x hx => h x (List.mem_cons_of_mem _ hx)]
    rfl

theorem cutIndex_tag {l : List Text} (h0 : l ≠ []) (h : ∀ t ∈ l, Number t) (ws : List Text) :
    cutIndex (("index=".toList ++ sepBy ',' l) :: ws) = some (l.map fun t => (Amount.value t : Int), ws) := by
  have hp : indexTag.isPrefixOf ("index=".toList ++ sepBy ',' l) = true := List.isPrefixOf_iff_prefix.2 ⟨_, rfl⟩
  have hd : ("index=".toList ++ sepBy ',' l).drop 6 = sepBy ',' l := rfl
  rw [cutIndex, if_pos hp, hd, splitComma_sep h0 fun w hw c hc => (alnum_sign (digit_alnum ((h w hw).2 c hc))).2.2.2.2.1, mapM_ints h]
  rfl

/-- The options are read as they are written. -/
theorem cut_options {o : Options} (ho : o.Ok) {t : Text} (ht : Stop t) (ws : List Text) :
    ∃ ws1 ws2, cutIndex (o.words ++ t :: ws) = some (o.indices.map fun t => (Amount.value t : Int), ws1) ∧
      cutPriority ws1 = some (o.priority, ws2) ∧ cutMixin ws2 = (o.ring.map fun t => (Amount.value t : Int), t :: ws) := by
  obtain ⟨ind, pri, ring⟩ := o
  have h2 : ∃ ws2, cutPriority ((pri.map priorityName).toList ++ ring.toList ++ t :: ws) = some (pri, ws2) ∧
      cutMixin ws2 = (ring.map fun t => (Amount.value t : Int), t :: ws) := by
    have h3 : cutMixin (ring.toList ++ t :: ws) = (ring.map fun t => (Amount.value t : Int), t :: ws) := by
      cases ring with
      | none => simp [cutMixin, ht.number]
      | some r => simp [cutMixin, pyInt_number (ho.ring r rfl)]
    refine ⟨ring.toList ++ t :: ws, ?_, h3⟩
    cases pri with
    | some n => exact cutPriority_name (ho.priority n rfl) _
    | none =>
      cases ring with
      | none => simp only [Option.map_none, Option.toList_none, List.nil_append, cutPriority, ht.priority, Bool.false_eq_true, if_false]
      | some r => simp only [Option.map_none, Option.toList_none, List.nil_append, Option.toList_some, List.cons_append, cutPriority,
          not_priority_number (ho.ring r rfl), Bool.false_eq_true, if_false]
  obtain ⟨ws2, h2, h3⟩ := h2
  refine ⟨(pri.map priorityName).toList ++ ring.toList ++ t :: ws, ws2, ?_, h2, h3⟩
  by_cases hi : ind = []
  · subst hi
    have hf : ∃ f r, (pri.map priorityName).toList ++ ring.toList ++ t :: ws = f :: r ∧ indexTag.isPrefixOf f = false := by
      cases pri with
      | some n => exact ⟨_, _, rfl, not_index (priority_alnum (ho.priority n rfl))⟩
      | none =>
        cases ring with
        | some r => exact ⟨_, _, rfl, not_index fun c hc => digit_alnum ((ho.ring r rfl).2 c hc)⟩
        | none => exact ⟨_, _, rfl, ht.index⟩
    obtain ⟨f, r, e, hf⟩ := hf
    simp only [Options.words, if_true, List.nil_append]
    rw [e, cutIndex, if_neg (by rw [hf]; exact Bool.false_ne_true)]
    rfl
  · simp only [Options.words, if_neg hi, List.append_assoc, List.singleton_append, List.cons_append, List.nil_append]
    exact cutIndex_tag hi ho.indices _

theorem cutDests_pairs : ∀ {dests : List (Text × Text)} {vs : List Amount.Double}, List.Forall₂ (fun d v => Amount.float d.2 = some v) dests vs →
    ∀ (ws : List Text), cutDests ws = ([], ws) → cutDests (dests.flatMap (fun d => [d.1, d.2]) ++ ws) = ((dests.map (·.1)).zip vs, ws)
  | _, _, .nil, ws, hw => hw
  | _, _, .cons (a := d) (l₁ := r) h t, ws, hw => by
    simp only [List.flatMap_cons, List.cons_append, List.nil_append, cutDests, h, cutDests_pairs t ws hw, List.map_cons, List.zip_cons_cons]

theorem hexText_length (b : Bytes) : (hexText b).length = 2 * b.length := by
  induction b with
  | nil => rfl
  | cons x b ih => rw [hexText, List.flatMap_cons, List.length_append, ← hexText, ih]; simp; omega

theorem hexDigit_facts : ∀ d < 16, Alnum ("0123456789abcdef".toList.getD d '0') ∧ ("0123456789abcdef".toList.getD d '0').toNat < 128 ∧
    UInt8.ofNat ("0123456789abcdef".toList.getD d '0').toNat = Hd.hexChar d := by
  unfold Alnum Amount.Digit
  decide

theorem hexText_chars (b : Bytes) : ∀ c ∈ hexText b, ∃ d < 16, c = "0123456789abcdef".toList.getD d '0' := by
  intro c hc
  obtain ⟨x, _, hx⟩ := List.mem_flatMap.1 hc
  have := x.toNat_lt
  simp only [List.mem_cons, List.not_mem_nil, or_false] at hx
  rcases hx with rfl | rfl
  · exact ⟨x.toNat / 16, by omega, rfl⟩
  · exact ⟨x.toNat % 16, by omega, rfl⟩

theorem hexText_alnum (b : Bytes) : ∀ c ∈ hexText b, Alnum c := by
  intro c hc
  obtain ⟨d, hd, rfl⟩ := hexText_chars b c hc
  exact (hexDigit_facts d hd).1

theorem unhex_hexText (b : Bytes) : unhex (hexText b) = some b := by
  have h1 : (hexText b).all (·.toNat < 128) = true := by
    rw [List.all_eq_true]
    intro c hc
    obtain ⟨d, hd, rfl⟩ := hexText_chars b c hc
    exact decide_eq_true (hexDigit_facts d hd).2.1
  have h2 : ((hexText b).map fun c => UInt8.ofNat c.toNat) = (Mnemonic.hexlify b).map Hd.hexChar := by
    clear h1
    induction b with
    | nil => rfl
    | cons x b ih =>
      have := x.toNat_lt
      have e : Mnemonic.hexlify (x :: b) = [x.toNat / 16, x.toNat % 16] ++ Mnemonic.hexlify b := rfl
      rw [hexText, List.flatMap_cons, List.map_append, ← hexText, ih, e, List.map_append, List.map_cons, List.map_cons, List.map_nil,
        (hexDigit_facts _ (by omega : x.toNat / 16 < 16)).2.2, (hexDigit_facts _ (by omega : x.toNat % 16 < 16)).2.2]
      rfl
  rw [unhex, if_pos h1, h2, Hd.unhexText_text]

theorem cutPaymentId_ok {pid : Option Bytes} (h : PidOk pid) : cutPaymentId (pid.map hexText).toList = some (pid.map hexText, []) := by
  cases pid with
  | none => rfl
  | some p =>
    have := h p rfl
    rw [Option.map_some, Option.toList_some, cutPaymentId, hexText_length, if_neg]
    omega

/-- A word without white space that is not empty. -/
def Plain (t : Text) : Prop := t ≠ [] ∧ Seed.solid t

theorem number_plain {t : Text} (h : Number t) : Plain t := ⟨h.1, solid_alnum fun c hc => digit_alnum (h.2 c hc)⟩

theorem AddressLike.plain {t : Text} (h : AddressLike t) : Plain t := by
  refine ⟨?_, solid_alnum h.2.1⟩
  rintro rfl
  exact absurd h.1 (by decide)

theorem denotes_plain {t : Text} {a : ℕ} (h : Amount.Denotes t a) : Plain t := by
  obtain ⟨h0, hc⟩ := Amount.denotes_chars h
  exact ⟨h0, fun c hx => (Amount.plain_char (hc c hx)).1⟩

theorem hexText_plain {pid : Option Bytes} (h : PidOk pid) : ∀ t ∈ (pid.map hexText).toList, Plain t := by
  intro t ht
  cases pid with
  | none => cases ht
  | some p =>
    simp only [Option.map_some, Option.toList_some, List.mem_singleton] at ht
    subst ht
    refine ⟨?_, solid_alnum (hexText_alnum p)⟩
    intro e
    have := hexText_length p
    have := h p rfl
    rw [e] at *
    simp only [List.length_nil] at *
    omega

theorem sepBy_chars {l : List Text} {p : Char → Prop} {s : Char} (hs : p s) (h : ∀ t ∈ l, ∀ c ∈ t, p c) : ∀ c ∈ sepBy s l, p c := by
  induction l with
  | nil => intro c hc; cases hc
  | cons t l ih =>
    cases l with
    | nil => exact h t List.mem_cons_self
    | cons u us =>
      intro c hc
      rw [sepBy] at hc
      · rcases List.mem_append.1 hc with hc | hc
        · exact h t List.mem_cons_self c hc
        · rcases List.mem_cons.1 hc with rfl | hc
          · exact hs
          · exact ih (fun x hx => h x (List.mem_cons_of_mem _ hx)) c hc
      · intro he; cases he

theorem options_plain {o : Options} (ho : o.Ok) : ∀ t ∈ o.words, Plain t := by
  intro t ht
  simp only [Options.words, List.mem_append] at ht
  rcases ht with (ht | ht) | ht
  · by_cases hi : o.indices = []
    · simp [hi] at ht
    · simp only [if_neg hi, List.mem_singleton] at ht
      subst ht
      refine ⟨(fun e => by cases e), ?_⟩
      intro c hc
      rcases List.mem_append.1 hc with hc | hc
      · exact (by decide : ∀ c ∈ "index=".toList, Hd.isSpace c = false) c hc
      · exact sepBy_chars (p := fun c => Hd.isSpace c = false) (by decide)
          (fun u hu c hc => alnum_not_space (digit_alnum ((ho.indices u hu).2 c hc))) c hc
  · cases hp : o.priority with
    | none => simp [hp] at ht
    | some n =>
      simp only [hp, Option.map_some, Option.toList_some, List.mem_singleton] at ht
      subst ht
      have := ho.priority n hp
      refine ⟨?_, solid_alnum (priority_alnum this)⟩
      interval_cases n <;> decide
  · cases hr : o.ring with
    | none => simp [hr] at ht
    | some r =>
      simp only [hr, Option.toList_some, List.mem_singleton] at ht
      subst ht
      exact number_plain (ho.ring _ hr)

theorem words_plain {ws : List Text} (hne : ws ≠ []) (h : ∀ w ∈ ws, Plain w) : words (sepBy ' ' ws) = ws :=
  words_sep hne (fun w hw => (h w hw).2) fun w hw => (h w hw).1

end Verif.Cmd
