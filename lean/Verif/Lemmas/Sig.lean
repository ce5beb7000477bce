import Verif.Spec.Sig
import Verif.Lemmas.Ring
import Mathlib.Tactic.Module
import Mathlib.Tactic.Abel

/-! Verifiers in terms of the group; closing equations. -/

namespace Verif.Sig
open Verif Ed Key Edwards

abbrev Reps := List.Forall₂ Rep

theorem rep_addKeys2 {P : Ext} {p : Point} (h : Rep P p) (a : ℤ) {b : ℤ} (hb : 0 ≤ b) : Rep (addKeys2 a b P) (a • base + b • p) :=
  rep_add (rep_B a) (rep_smul h hb)

theorem rep_addKeys3 {A P : Ext} {q p : Point} (hA : Rep A q) (h : Rep P p) {a b : ℤ} (ha : 0 ≤ a) (hb : 0 ≤ b) :
    Rep (addKeys3 a A b P) (a • q + b • p) := rep_add (rep_smul hA ha) (rep_smul h hb)

theorem scSub_zero {a b : ℤ} (ha : 0 ≤ a ∧ a < l) (hb : 0 ≤ b ∧ b < l) : (scSub a b == 0) = true ↔ a = b := by
  rw [beq_iff_eq, scSub]
  rw [← Int.emod_eq_emod_iff_emod_sub_eq_zero, Int.emod_eq_of_lt ha.1 ha.2, Int.emod_eq_of_lt hb.1 hb.2]

/-- The closing answer: `(al - c x) G + c (x G) = al G`, for the base and for every point of order dividing `l`. -/
theorem closing_eq {g : Point} (hg : lN • g = 0) (c x al : ℤ) : scMulsub c x al • g + c • x • g = al • g := by
  rw [scMulsub, mod_smul hg]
  module

theorem closing_eq' {g : Point} (hg : lN • g = 0) (c x al : ℤ) : scMulsub x c al • g + c • x • g = al • g := by
  rw [scMulsub, mul_comm, ← scMulsub, closing_eq hg]

/-! ## MLSAG -/

theorem dsPart_rep (H : Bytes → Bytes) {c : ℤ} (hc : 0 ≤ c) {ps : List Ext} {ps' : List Point} (hp : Reps ps ps') :
    ∀ {ss : List ℤ} {is : List Ext} {is' : List Point}, (∀ s ∈ ss, 0 ≤ s) → Reps is is' → dsPart H c ps ss is = colDs H c ps' ss is' := by
  induction hp with
  | nil => intros; rw [dsPart.eq_def, colDs.eq_def]
  | cons hP _ ih =>
    intro ss is is' hss hi
    cases ss with
    | nil => rw [dsPart.eq_def, colDs.eq_def]
    | cons s ss =>
      cases hi with
      | nil => rw [dsPart.eq_def, colDs.eq_def]
      | cons hI hi =>
        have hs0 := hss s (by simp)
        simp only [dsPart, colDs]
        rw [ih (fun x hx => hss x (by simp [hx])) hi, encodePoint_rep hP, encodePoint_rep (rep_addKeys2 hP s hc),
          encodePoint_rep (rep_addKeys3 (hpt_rep H _) hI hs0 hc)]

theorem plainPart_rep {c : ℤ} (hc : 0 ≤ c) {ps : List Ext} {ps' : List Point} (hp : Reps ps ps') :
    ∀ {ss : List ℤ}, plainPart c ps ss = colPlain c ps' ss := by
  induction hp with
  | nil => intros; rw [plainPart.eq_def, colPlain.eq_def]
  | cons hP _ ih =>
    intro ss
    cases ss with
    | nil => rw [plainPart.eq_def, colPlain.eq_def]
    | cons s ss =>
      simp only [plainPart, colPlain]
      rw [ih, encodePoint_rep hP, encodePoint_rep (rep_addKeys2 hP s hc)]

theorem column_rep (H : Bytes → Bytes) (m : Bytes) (ds : ℕ) {II col : List Ext} {II' col' : List Point} (hI : Reps II II') (hcol : Reps col col')
    {s : List ℤ} (hs : ∀ x ∈ s, 0 ≤ x) {c : ℤ} (hc : 0 ≤ c) : column H m ds II col s c = colHash H m ds II' col' s c := by
  rw [column, colHash, dsPart_rep H hc (List.forall₂_take ds hcol) (fun x hx => hs x (List.mem_of_mem_take hx)) hI, plainPart_rep hc (List.forall₂_drop ds hcol)]

theorem closing_length (c : ℤ) : ∀ (xs als : List ℤ), xs.length = als.length → (closing c xs als).length = xs.length
  | [], [], _ => rfl
  | _ :: xs, _ :: als, h => by simp [closing, closing_length c xs als (by simpa using h)]

theorem closing_take (c : ℤ) : ∀ (n : ℕ) (xs als : List ℤ), (closing c xs als).take n = closing c (xs.take n) (als.take n)
  | 0, _, _ => by simp [closing]
  | n + 1, [], als => by simp [closing]
  | n + 1, _ :: _, [] => by simp [closing]
  | n + 1, x :: xs, al :: als => by simp [closing, closing_take c n xs als]

theorem closing_drop (c : ℤ) : ∀ (n : ℕ) (xs als : List ℤ), (closing c xs als).drop n = closing c (xs.drop n) (als.drop n)
  | 0, _, _ => by simp
  | n + 1, [], als => by simp [closing]
  | n + 1, x :: xs, [] => by rw [closing.eq_def, closing.eq_def]; simp
  | n + 1, x :: xs, al :: als => by simp [closing, closing_drop c n xs als]

theorem closing_range (c : ℤ) : ∀ (xs als : List ℤ), ∀ s ∈ closing c xs als, 0 ≤ s ∧ s < l
  | [], _ => by simp [closing]
  | _ :: _, [] => by simp [closing]
  | x :: xs, al :: als => by
    intro s hs
    simp only [closing, List.mem_cons] at hs
    rcases hs with rfl | hs
    · exact emod_l_range _
    · exact closing_range c xs als s hs

/-- The secret opens the point. -/
def Opens (P : Ext) (x : ℤ) : Prop := 0 ≤ x ∧ Rep P (x • base)

theorem secretDs_rep (H : Bytes → Bytes) {ps : List Ext} {xs : List ℤ} (h : List.Forall₂ Opens ps xs) :
    ∀ (als : List ℤ), als.length = xs.length → ∃ is', Reps (secretDs H ps xs als).2 is' := by
  induction h with
  | nil => intro als _; exact ⟨[], by rw [secretDs.eq_def]; exact .nil⟩
  | cons hP _ ih =>
    intro als hl
    cases als with
    | nil => simp at hl
    | cons al als =>
      obtain ⟨is', hi⟩ := ih als (by simpa using hl)
      exact ⟨_ :: is', .cons (rep_smul (hpt_rep H _) hP.1) hi⟩

theorem secretDs_length (H : Bytes → Bytes) : ∀ (ps : List Ext) (xs als : List ℤ), ps.length = xs.length → als.length = xs.length →
    (secretDs H ps xs als).2.length = ps.length
  | [], [], [], _, _ => rfl
  | _ :: ps, _ :: xs, _ :: als, h1, h2 => by
    simp [secretDs, secretDs_length H ps xs als (by simpa using h1) (by simpa using h2)]

theorem secretDs_closes (H : Bytes → Bytes) {c : ℤ} (hc : 0 ≤ c) {ps : List Ext} {xs : List ℤ} (h : List.Forall₂ Opens ps xs) :
    ∀ (als : List ℤ), als.length = xs.length → (∀ a ∈ als, 0 ≤ a) →
      dsPart H c ps (closing c xs als) (secretDs H ps xs als).2 = (secretDs H ps xs als).1 := by
  induction h with
  | nil => intro als _ _; rw [dsPart.eq_def, secretDs.eq_def]
  | @cons P x ps xs hP _ ih =>
    intro als hl ha
    cases als with
    | nil => simp at hl
    | cons al als =>
      have hal := ha al (by simp)
      simp only [closing, secretDs, dsPart]
      rw [ih als (by simpa using hl) (fun a h => ha a (by simp [h]))]
      have h1 : encodePoint (addKeys2 (scMulsub c x al) c P) = encodePoint (scalarmultB al) := by
        rw [encodePoint_rep (rep_addKeys2 hP.2 _ hc), encodePoint_rep (rep_B al), closing_eq l_base]
      have hH := hpt_rep H (encodePoint P)
      have h2 : encodePoint (addKeys3 (scMulsub c x al) (hp H (encodePoint P)) c (smul (hp H (encodePoint P)) x)) =
          encodePoint (smul (hp H (encodePoint P)) al) := by
        rw [encodePoint_rep (rep_addKeys3 hH (rep_smul hH hP.1) (show 0 ≤ scMulsub c x al from (emod_l_range _).1) hc), encodePoint_rep (rep_smul hH hal),
          closing_eq (hpt_order H _)]
      rw [h1, h2]

theorem secretPlain_closes {c : ℤ} (hc : 0 ≤ c) {ps : List Ext} {xs : List ℤ} (h : List.Forall₂ Opens ps xs) :
    ∀ (als : List ℤ), als.length = xs.length → plainPart c ps (closing c xs als) = secretPlain ps als := by
  induction h with
  | nil => intro als _; rw [plainPart.eq_def, secretPlain.eq_def]
  | @cons P x ps xs hP _ ih =>
    intro als hl
    cases als with
    | nil => simp at hl
    | cons al als =>
      simp only [closing, secretPlain, plainPart]
      rw [ih als (by simpa using hl), encodePoint_rep (rep_addKeys2 hP.2 _ hc), encodePoint_rep (rep_B al), closing_eq l_base]

theorem mlsagAssert_some {pk : List (List Ext)} {xx : List ℤ} {idx ds rows : ℕ} (h1 : 2 ≤ pk.length) (h2 : idx < pk.length) (h3 : 0 < rows)
    (h4 : ∀ col ∈ pk, col.length = rows) (h5 : xx.length = rows) (h6 : ds ≤ rows) : mlsagAssert pk xx idx ds = some (rows, pk.length) := by
  have h7 : (pk.headD []).length = rows := by
    cases pk with
    | nil => simp at h1
    | cons c pk => exact h4 c (by simp)
  unfold mlsagAssert
  simp only [h7]
  rw [if_neg (by omega), if_neg (by omega), if_neg (by omega), if_neg (by simpa using h4), if_neg (by omega), if_neg (by omega)]

theorem verAssert_iff {pk : List (List Ext)} {rv : MgSig} {ds r c : ℕ} : verMlsagAssert pk rv ds = some (r, c) ↔
    (0 < r ∧ 2 ≤ pk.length ∧ (∀ col ∈ pk, col.length = r) ∧ ds ≤ r ∧ rv.II.length = ds ∧ rv.ss.length = pk.length ∧
      (∀ s ∈ rv.ss, s.length = r)) ∧ c = pk.length := by
  constructor
  · intro h
    unfold verMlsagAssert at h
    dsimp only at h
    split at h
    · simp at h
    split at h
    · simp at h
    split at h
    · simp at h
    split at h
    · simp at h
    split at h
    · simp at h
    split at h
    · simp at h
    split at h
    · simp at h
    rename_i h1 h2 h3 h4 h5 h6 h7
    simp only [Option.some.injEq, Prod.mk.injEq] at h
    obtain ⟨rfl, rfl⟩ := h
    refine ⟨⟨by omega, by omega, ?_, by omega, by omega, by omega, ?_⟩, rfl⟩
    · simpa using h3
    · simpa using h6
  · rintro ⟨⟨h1, h2, h3, h4, h5, h6, h7⟩, rfl⟩
    have h8 : (pk.headD []).length = r := by
      cases pk with
      | nil => simp at h2
      | cons c pk => exact h3 c (by simp)
    unfold verMlsagAssert
    simp only [h8]
    rw [if_neg (by omega), if_neg (by omega), if_neg (by simpa using h3), if_neg (by omega), if_neg (by omega), if_neg (by simpa using h7),
      if_neg (by omega)]

end Verif.Sig
