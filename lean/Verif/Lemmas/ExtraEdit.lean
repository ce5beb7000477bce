import Verif.Lemmas.Extra
import Verif.Spec.ExtraEdit

/-! Reading of several fields. -/

namespace Verif.ExtraEdit
open Verif Ed Key

/-- Successive reads of fields. -/
inductive Reads : Bytes → List Field → Prop
  | nil : Reads [] []
  | cons {b rest : Bytes} {f : Field} {fs : List Field} : readField b = some (f, rest) → Reads rest fs → Reads b (f :: fs)

theorem loadAux_append (c : Bytes) : ∀ (b : Bytes) (r s n : Nat) (rest : Bytes), Varint.loadAux r s b = some (n, rest) →
    Varint.loadAux r s (b ++ c) = some (n, rest ++ c) ∧ rest.length < b.length := by
  intro b
  induction b with
  | nil => intro r s n rest h; simp [Varint.loadAux] at h
  | cons x b ih =>
    intro r s n rest h
    rw [List.cons_append, Varint.loadAux_cons] at *
    split
    · rename_i hx
      rw [if_pos hx] at h
      obtain ⟨h1, h2⟩ := ih _ _ _ _ h
      exact ⟨h1, by simp; omega⟩
    · rename_i hx
      rw [if_neg hx] at h
      cases h
      exact ⟨rfl, by simp⟩

theorem readKeys_append (c : Bytes) : ∀ (n : Nat) (b : Bytes) (ks : List Bytes) (rest : Bytes), readKeys n b = some (ks, rest) →
    readKeys n (b ++ c) = some (ks, rest ++ c) ∧ rest.length ≤ b.length ∧ (∀ k ∈ ks, k.length = 32) := by
  intro n
  induction n with
  | zero => intro b ks rest h; cases h; exact ⟨rfl, le_refl _, by simp⟩
  | succ n ih =>
    intro b ks rest h
    rw [readKeys] at h
    split at h
    · cases h
    rename_i hb
    obtain ⟨⟨ks', rest'⟩, h1, h2⟩ := Option.map_eq_some_iff.mp h
    cases h2
    obtain ⟨h3, h4, h5⟩ := ih _ _ _ h1
    refine ⟨?_, ?_, ?_⟩
    · rw [readKeys, if_neg (by simp; omega), List.drop_append_of_le_length (by omega), h3, List.take_append_of_le_length (by omega)]
      rfl
    · simp at h4; dsimp only; omega
    · intro k hk
      rcases List.mem_cons.mp hk with rfl | hk
      · simp; omega
      · exact h5 k hk

/-- A field read, whatever follows; it has the shape the library writes. -/
theorem readField_append (b c : Bytes) (f : Field) (rest : Bytes) (h : readField b = some (f, rest)) :
    readField (b ++ c) = some (f, rest ++ c) ∧ rest.length < b.length ∧
      (match f with | .pubKey k => k.length = 32 | .nonce _ => True | .additional ks => ∀ k ∈ ks, k.length = 32) := by
  cases b with
  | nil => cases h
  | cons t b =>
    rw [List.cons_append]
    simp only [readField] at h ⊢
    split at h
    · rename_i ht
      split at h
      · cases h
      rename_i hb
      cases h
      rw [if_pos ht, if_neg (by simp; omega), List.drop_append_of_le_length (by omega), List.take_append_of_le_length (by omega)]
      exact ⟨rfl, by simp, by simp; omega⟩
    rename_i ht
    split at h
    · rename_i ht2
      obtain ⟨v, hl⟩ : ∃ v, Varint.load b = v := ⟨_, rfl⟩
      rw [hl] at h
      rcases v with _ | ⟨n, b'⟩
      · cases h
      dsimp only at h
      split at h
      · cases h
      rename_i hb
      cases h
      obtain ⟨h1, h2⟩ := loadAux_append c _ _ _ _ _ hl
      rw [if_neg ht, if_pos ht2, Varint.load, h1]
      dsimp only
      rw [if_neg (by simp; omega), List.drop_append_of_le_length (by omega), List.take_append_of_le_length (by omega)]
      exact ⟨rfl, by simp; omega, trivial⟩
    rename_i ht2
    split at h
    · rename_i ht4
      obtain ⟨v, hl⟩ : ∃ v, Varint.load b = v := ⟨_, rfl⟩
      rw [hl] at h
      rcases v with _ | ⟨n, b'⟩
      · cases h
      dsimp only at h
      obtain ⟨⟨ks, r⟩, h3, h4⟩ := Option.map_eq_some_iff.mp h
      cases h4
      obtain ⟨h1, h2⟩ := loadAux_append c _ _ _ _ _ hl
      obtain ⟨h5, h6, h7⟩ := readKeys_append c _ _ _ _ h3
      rw [if_neg ht, if_neg ht2, if_pos ht4, Varint.load, h1]
      dsimp only
      rw [h5]
      exact ⟨rfl, by simp; omega, h7⟩
    · cases h

theorem reads_of_parse : ∀ (fuel : Nat) (b : Bytes) (fs : List Field), parseExtra fuel b = some fs → Reads b fs := by
  intro fuel
  induction fuel with
  | zero =>
    intro b fs h
    cases b with
    | nil => cases h; exact .nil
    | cons => cases h
  | succ n ih =>
    intro b fs h
    cases b with
    | nil => cases h; exact .nil
    | cons x b =>
      rw [parse_step] at h
      split at h
      · cases h
      · rename_i f rest hr
        obtain ⟨fs', h1, rfl⟩ := Option.map_eq_some_iff.mp h
        exact .cons hr (ih _ _ h1)

theorem parse_of_reads {b : Bytes} {fs : List Field} (h : Reads b fs) : ∀ fuel, b.length ≤ fuel → parseExtra fuel b = some fs := by
  induction h with
  | nil => intro fuel _; cases fuel <;> rfl
  | @cons b rest f fs h1 h2 ih =>
    intro fuel hf
    have hl := (readField_append b [] f rest h1).2.1
    cases b with
    | nil => cases h1
    | cons x b =>
      cases fuel with
      | zero => simp at hf
      | succ fuel =>
        rw [parse_step, h1]
        dsimp only
        rw [ih fuel (by simp at hl hf; omega)]
        rfl

theorem holds_iff {b : Bytes} {fs : List Field} : Holds b fs ↔ Reads b fs :=
  ⟨reads_of_parse _ _ _, fun h => parse_of_reads h _ (le_refl _)⟩

theorem reads_append {b c : Bytes} {fs gs : List Field} (h : Reads b fs) (h' : Reads c gs) : Reads (b ++ c) (fs ++ gs) := by
  induction h with
  | nil => exact h'
  | cons h1 _ ih => exact .cons (readField_append _ c _ _ h1).1 ih

theorem reads_one {b : Bytes} {f : Field} (h : readField b = some (f, [])) : Reads b [f] := .cons h .nil

/-- Fields that were read can be written. -/
def Fit : Field → Prop
  | .pubKey k => k.length = 32
  | .nonce _ => True
  | .additional ks => ∀ k ∈ ks, k.length = 32

theorem reads_fit {b : Bytes} {fs : List Field} (h : Reads b fs) : ∀ f ∈ fs, Fit f := by
  induction h with
  | nil => simp
  | @cons b rest f fs h1 _ ih =>
    intro g hg
    rcases List.mem_cons.mp hg with rfl | hg
    · have := (readField_append b [] g rest h1).2.2
      cases g <;> exact this
    · exact ih g hg

theorem readField_write (f : Field) (h : Fit f) : readField (writeField f) = some (f, []) := by
  cases f with
  | pubKey k => have := readField_key k [] h; rwa [List.append_nil] at this
  | nonce n =>
    rw [writeField, readField, if_neg (by decide), if_pos rfl, Varint.load_dumpNat]
    dsimp only
    rw [if_neg (by omega)]
    simp
  | additional ks => have := readField_additional ks h []; rwa [List.append_nil] at this

theorem removeLoop_spec (kind : Kind) {b : Bytes} {fs : List Field} (h : Reads b fs) : ∀ (fuel : Nat) (out : Bytes) (gs : List Field), b.length ≤ fuel →
    Reads out gs → ∃ r, removeLoop kind fuel out b = some r ∧ Reads r (gs ++ fs.filter fun f => !isKind kind f) := by
  induction h with
  | nil =>
    intro fuel out gs _ ho
    refine ⟨out, by cases fuel <;> rfl, by simpa using ho⟩
  | @cons b rest f fs h1 h2 ih =>
    intro fuel out gs hf ho
    obtain ⟨-, hl, hfit⟩ := readField_append b [] f rest h1
    have hf' : Fit f := by cases f <;> exact hfit
    cases b with
    | nil => cases h1
    | cons x b =>
      cases fuel with
      | zero => simp at hf
      | succ fuel =>
        have hle : rest.length ≤ fuel := by simp at hl hf; omega
        rw [removeLoop, h1]
        dsimp only
        cases hk : isKind kind f with
        | true =>
          obtain ⟨r, h3, h4⟩ := ih fuel out gs hle ho
          exact ⟨r, by simpa using h3, by simpa [List.filter_cons, hk] using h4⟩
        | false =>
          obtain ⟨r, h3, h4⟩ := ih fuel (out ++ writeField f) (gs ++ [f]) hle (reads_append ho (reads_one (readField_write f hf')))
          exact ⟨r, by simpa using h3, by simpa [List.filter_cons, hk] using h4⟩
        · intro h; cases h

theorem parse_of_remove (kind : Kind) : ∀ (fuel : Nat) (out b r : Bytes), removeLoop kind fuel out b = some r → ∃ fs, Reads b fs := by
  intro fuel
  induction fuel with
  | zero =>
    intro out b r h
    cases b with
    | nil => exact ⟨[], .nil⟩
    | cons => simp [removeLoop] at h
  | succ n ih =>
    intro out b r h
    cases b with
    | nil => exact ⟨[], .nil⟩
    | cons x b =>
      rw [removeLoop] at h
      · split at h
        · cases h
        · rename_i f rest hr
          obtain ⟨fs, h1⟩ := ih _ _ _ h
          exact ⟨f :: fs, .cons hr h1⟩
      · intro h; cases h

theorem findLoop_spec (kind : Kind) (idx : Nat) : ∀ (fs : List Field) (cur : Nat), cur ≤ idx → findLoop kind idx fs cur = (fs.filter (isKind kind))[idx - cur]? := by
  intro fs
  induction fs with
  | nil => intro cur _; rfl
  | cons f fs ih =>
    intro cur hc
    rw [findLoop]
    by_cases hk : isKind kind f = true
    · rw [if_pos hk, List.filter_cons, if_pos hk]
      by_cases he : cur = idx
      · rw [if_pos he, he, Nat.sub_self]; rfl
      · rw [if_neg he, ih _ (by omega), show idx - cur = idx - (cur + 1) + 1 by omega]; rfl
    · rw [if_neg hk, List.filter_cons, if_neg hk, ih _ hc]

/-- A number with every byte marked as continued never ends. -/
theorem load_endless : ∀ (b : Bytes) (r s : Nat), (∀ x ∈ b, 128 ≤ x.toNat) → Varint.loadAux r s b = none := by
  intro b
  induction b with
  | nil => intro r s _; rfl
  | cons x b ih =>
    intro r s h
    rw [Varint.loadAux_cons, if_pos (h x List.mem_cons_self)]
    exact ih _ _ fun y hy => h y (List.mem_cons_of_mem _ hy)

theorem reads_split {b c : Bytes} {fs gs : List Field} (h : Reads b fs) (h' : Reads (b ++ c) gs) : ∃ hs, Reads c hs := by
  induction h generalizing gs with
  | nil => exact ⟨gs, h'⟩
  | @cons b rest f fs h1 _ ih =>
    have h2 := (readField_append _ c _ _ h1).1
    generalize hb : b ++ c = d at h' h2
    cases h' with
    | nil => cases h2
    | cons h3 h4 =>
      rw [h2] at h3
      cases h3
      exact ih h4

end Verif.ExtraEdit
