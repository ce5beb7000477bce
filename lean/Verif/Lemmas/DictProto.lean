import Verif.Spec.DictProto
import Verif.Lemmas.Protobuf
import Verif.Lemmas.HdHex

/-! Dictionaries that spell a message are read as that message. -/

namespace Verif.Pb
open Verif

/-- The `function` of protobuf.py 444-447. -/
def conv (S : Schema) (names : Nat → Nat → Bytes) (L : PyLib) (fuel : Nat) (t : FType) (x : Py) : Option Value :=
  match t with
  | .msg n => dictToProto S names L fuel n x
  | t => valueToProto L t x

theorem dictToProto_nil {S : Schema} {names : Nat → Nat → Bytes} {L : PyLib} {fuel name : Nat} {v : Py} (h : S name = []) :
    dictToProto S names L (fuel + 1) name v = some (.msg []) := by
  unfold dictToProto
  rw [h]

theorem dictToProto_dict (S : Schema) (names : Nat → Nat → Bytes) (L : PyLib) (fuel name : Nat) (d : List (Bytes × Py)) :
    dictToProto S names L (fuel + 1) name (.dict d) =
      ((S name).mapM fun f => dictField L (conv S names L fuel f.ty) f.rep (Py.get d (names name f.tag))).map .msg := by
  unfold dictToProto
  cases S name with
  | nil => rfl
  | cons f fs => rfl

theorem dictToProto_other {S : Schema} {names : Nat → Nat → Bytes} {L : PyLib} {fuel name : Nat} {v : Py} (h : S name ≠ [])
    (hv : ∀ d, v ≠ .dict d) : dictToProto S names L (fuel + 1) name v = none := by
  unfold dictToProto
  cases hs : S name with
  | nil => exact absurd hs h
  | cons f fs => cases v with
    | dict d => exact absurd rfl (hv d)
    | _ => rfl

theorem spells_ne_none {S : Schema} {names : Nat → Nat → Bytes} {t : FType} {v : Value} (h : Spells S names t v .none) : False := by
  cases t <;> cases v <;> simp [Spells] at h

mutual
theorem reads_value {S : Schema} {names : Nat → Nat → Bytes} (L : PyLib) (fuel : Nat) : ∀ (v : Value) (t : FType) (p : Py),
    Spells S names t v p → depth v ≤ fuel → conv S names L fuel t p = some v
  | .uint n, t, p, h, _ => by
    cases t <;> simp only [Spells] at h
    subst h; rfl
  | .sint n, t, p, h, _ => by
    cases t <;> simp only [Spells] at h
    subst h; rfl
  | .bool n, t, p, h, _ => by
    cases t <;> simp only [Spells] at h
    subst h; rfl
  | .bytes b, t, p, h, _ => by
    cases t <;> simp only [Spells] at h
    rcases h with rfl | ⟨t, rfl, h⟩
    · rfl
    · simp only [conv, valueToProto, h, Option.map_some]
  | .str b, t, p, h, _ => by
    cases t <;> simp only [Spells] at h
    subst h; rfl
  | .msg slots, t, p, h, hd => by
    cases t <;> simp only [Spells] at h
    rename_i name
    obtain ⟨d, rfl, h⟩ := h
    simp only [depth] at hd
    cases fuel with
    | zero => omega
    | succ k =>
      show dictToProto S names L (k + 1) name (.dict d) = _
      rw [dictToProto_dict, reads_slots L k name slots (S name) d h (by omega)]
      rfl

theorem reads_slots {S : Schema} {names : Nat → Nat → Bytes} (L : PyLib) (fuel : Nat) (name : Nat) : ∀ (slots : List (List Value)) (fs : List Field)
    (d : List (Bytes × Py)), SpellsSlots S names name fs slots d → depthSlots slots ≤ fuel →
    (fs.mapM fun f => dictField L (conv S names L fuel f.ty) f.rep (Py.get d (names name f.tag))) = some slots
  | [], fs, d, h, _ => by
    cases fs with
    | nil => rfl
    | cons f fs => simp [SpellsSlots] at h
  | vs :: slots, fs, d, h, hd => by
    cases fs with
    | nil => simp [SpellsSlots] at h
    | cons f fs =>
      simp only [SpellsSlots] at h
      simp only [depthSlots] at hd
      have h2 := reads_slots L fuel name slots fs d h.2 (by omega)
      have h1 : dictField L (conv S names L fuel f.ty) f.rep (Py.get d (names name f.tag)) = some vs := by
        rcases h.1 with ⟨rfl, hl | hl⟩ | ⟨hr, l, hl, ha⟩ | ⟨hr, p, hl, ha⟩
        · rw [Py.get, hl]; rfl
        · rw [Py.get, hl]; rfl
        · have := reads_all L fuel vs f.ty l ha (by omega)
          rw [Py.get, hl, hr]
          simp [dictField, Py.items, this]
        · have h3 := reads_all L fuel vs f.ty [p] ha (by omega)
          have hp : p ≠ .none := by
            rintro rfl
            cases vs with
            | nil => simp [SpellsAll] at ha
            | cons v vs => simp only [SpellsAll] at ha; exact spells_ne_none ha.1
          rw [Py.get, hl, hr, Option.getD_some]
          rw [List.mapM_cons] at h3
          cases hc : conv S names L fuel f.ty p with
          | none => rw [hc] at h3; simp at h3
          | some v =>
            rw [hc] at h3
            have h3 : [v] = vs := by simpa using h3
            subst h3
            cases p <;> first | exact absurd rfl hp | simp [dictField, hc]
      rw [List.mapM_cons, h1, h2]
      rfl

theorem reads_all {S : Schema} {names : Nat → Nat → Bytes} (L : PyLib) (fuel : Nat) : ∀ (vs : List Value) (t : FType) (l : List Py),
    SpellsAll S names t vs l → depthVals vs ≤ fuel → l.mapM (conv S names L fuel t) = some vs
  | [], t, l, h, _ => by
    cases l with
    | nil => rfl
    | cons p l => simp [SpellsAll] at h
  | v :: vs, t, l, h, hd => by
    cases l with
    | nil => simp [SpellsAll] at h
    | cons p l =>
      simp only [SpellsAll] at h
      simp only [depthVals] at hd
      rw [List.mapM_cons, reads_value L fuel v t p h.1 (by omega), reads_all L fuel vs t l h.2 (by omega)]
      rfl
end

/-! ### The dictionary of a message spells it -/

theorem toDict_lookup {S : Schema} {names : Nat → Nat → Bytes} {name : Nat} : ∀ (fs : List Field) (slots : List (List Value)) (k : Bytes),
    (∀ f ∈ fs, names name f.tag ≠ k) → (toDict S names name fs slots).lookup k = none
  | [], _, _, _ => by simp [toDict]
  | _ :: _, [], _, _ => by simp [toDict]
  | f :: fs, vs :: slots, k, h => by
    rw [toDict, List.lookup_cons]
    have : (k == names name f.tag) = false := by simpa using (h f (by simp)).symm
    rw [this]
    exact toDict_lookup fs slots k fun g hg => h g (by simp [hg])

/-- An entry in front of a dictionary under a name that is not among the fields does not matter. -/
theorem spells_cons {S : Schema} {names : Nat → Nat → Bytes} {name : Nat} {k : Bytes} {p : Py} {d : List (Bytes × Py)} :
    ∀ (fs : List Field) (slots : List (List Value)), (∀ f ∈ fs, names name f.tag ≠ k) → SpellsSlots S names name fs slots d →
    SpellsSlots S names name fs slots ((k, p) :: d)
  | [], [], _, _ => by simp [SpellsSlots]
  | [], _ :: _, _, h => by simp [SpellsSlots] at h
  | _ :: _, [], _, h => by simp [SpellsSlots] at h
  | f :: fs, vs :: slots, hk, h => by
    simp only [SpellsSlots] at h ⊢
    have : (names name f.tag == k) = false := by simpa using hk f (by simp)
    rw [List.lookup_cons, this]
    exact ⟨h.1, spells_cons fs slots (fun g hg => hk g (by simp [hg])) h.2⟩

mutual
theorem toPy_spells {S : Schema} {names : Nat → Nat → Bytes} (hn : ∀ name, ((S name).map fun f => names name f.tag).Nodup) :
    ∀ (v : Value) (t : FType), Fits S t v → Spells S names t v (toPy S names t v)
  | .uint n, t, h => by cases t <;> simp_all [Fits, Spells, toPy]
  | .sint n, t, h => by cases t <;> simp_all [Fits, Spells, toPy]
  | .bool n, t, h => by cases t <;> simp_all [Fits, Spells, toPy]
  | .bytes n, t, h => by cases t <;> simp_all [Fits, Spells, toPy, Hd.unhexText_text]
  | .str n, t, h => by cases t <;> simp_all [Fits, Spells, toPy]
  | .msg slots, t, h => by
    cases t <;> simp only [Fits] at h
    rename_i name
    rw [Spells, toPy]
    exact ⟨_, rfl, toDict_spells hn name slots (S name) (hn name) h⟩

theorem toDict_spells {S : Schema} {names : Nat → Nat → Bytes} (hn : ∀ name, ((S name).map fun f => names name f.tag).Nodup) (name : Nat) :
    ∀ (slots : List (List Value)) (fs : List Field), (fs.map fun f => names name f.tag).Nodup → FitsSlots S fs slots →
    SpellsSlots S names name fs slots (toDict S names name fs slots)
  | [], fs, _, h => by cases fs <;> simp [FitsSlots, SpellsSlots] at h ⊢
  | vs :: slots, fs, hd, h => by
    cases fs with
    | nil => simp [FitsSlots] at h
    | cons f fs =>
      simp only [FitsSlots] at h
      rw [List.map_cons, List.nodup_cons] at hd
      have ih := toDict_spells hn name slots fs hd.2 h.2.2
      have ha := allPy_spells hn vs f.ty h.2.1
      rw [SpellsSlots, toDict]
      refine ⟨?_, spells_cons fs slots (fun g hg e => hd.1 (e ▸ List.mem_map.mpr ⟨g, hg, rfl⟩)) ih⟩
      rw [List.lookup_cons, beq_self_eq_true]
      by_cases hr : f.rep = true
      · exact Or.inr (Or.inl ⟨hr, allPy S names f.ty vs, by simp [hr], ha⟩)
      · have hr' : f.rep = false := by simpa using hr
        have hl := h.1.resolve_left hr
        cases vs with
        | nil => exact Or.inl ⟨rfl, Or.inr (by simp [hr', allPy])⟩
        | cons v vs =>
          have : vs = [] := by simpa using hl
          subst this
          refine Or.inr (Or.inr ⟨hr', toPy S names f.ty v, by simp [hr', allPy], ?_⟩)
          simpa [allPy] using ha

theorem allPy_spells {S : Schema} {names : Nat → Nat → Bytes} (hn : ∀ name, ((S name).map fun f => names name f.tag).Nodup) :
    ∀ (vs : List Value) (t : FType), FitsVals S t vs → SpellsAll S names t vs (allPy S names t vs)
  | [], t, _ => by simp [SpellsAll, allPy]
  | v :: vs, t, h => by
    simp only [FitsVals] at h
    rw [allPy, SpellsAll]
    exact ⟨toPy_spells hn v t h.1, allPy_spells hn vs t h.2⟩
end

/-! ### What comes out has the types of the class -/

theorem fitsVals_mapM {S : Schema} {t : FType} {g : Py → Option Value} (hg : ∀ x v, g x = some v → Fits S t v) :
    ∀ (l : List Py) (vs : List Value), l.mapM g = some vs → FitsVals S t vs
  | [], vs, h => by
    have : vs = [] := by simpa using h.symm
    subst this; simp [FitsVals]
  | x :: l, vs, h => by
    rw [List.mapM_cons] at h
    cases hx : g x with
    | none => rw [hx] at h; simp at h
    | some v =>
      rw [hx] at h
      cases hl : l.mapM g with
      | none => rw [hl] at h; simp at h
      | some ws =>
        rw [hl] at h
        have : v :: ws = vs := by simpa using h
        subst this
        rw [FitsVals]
        exact ⟨hg x v hx, fitsVals_mapM hg l ws hl⟩

theorem fits_value (S : Schema) (L : PyLib) (t : FType) (x : Py) (v : Value) (h : valueToProto L t x = some v) : Fits S t v := by
  unfold valueToProto at h
  split at h
  · simp at h
  · obtain ⟨n, -, rfl⟩ := Option.map_eq_some_iff.mp h; simp [Fits]
  · obtain ⟨n, -, rfl⟩ := Option.map_eq_some_iff.mp h; simp [Fits]
  · cases h; simp [Fits]
  · cases h; simp [Fits]
  · cases h; simp [Fits]
  · obtain ⟨n, -, rfl⟩ := Option.map_eq_some_iff.mp h; simp [Fits]
  · cases h; simp [Fits]
  · simp at h

theorem fits_field {S : Schema} {L : PyLib} {t : FType} {g : Py → Option Value} (hg : ∀ x v, g x = some v → Fits S t v) (rep : Bool) (p : Py)
    (vs : List Value) (h : dictField L g rep p = some vs) : (rep = true ∨ vs.length ≤ 1) ∧ FitsVals S t vs := by
  unfold dictField at h
  split at h
  · cases h; simp [FitsVals]
  split at h
  · rename_i hr
    cases hi : p.items L with
    | none => rw [hi] at h; simp at h
    | some l => rw [hi, Option.bind_some] at h; exact ⟨Or.inl hr, fitsVals_mapM hg l vs h⟩
  · obtain ⟨v, hv, rfl⟩ := Option.map_eq_some_iff.mp h
    exact ⟨Or.inr (by simp), by simpa [FitsVals] using hg p v hv⟩

theorem fits_slots {S : Schema} {L : PyLib} {g : Field → Py → Option Value} {get : Field → Py} (hg : ∀ f x v, g f x = some v → Fits S f.ty v) :
    ∀ (fs : List Field) (slots : List (List Value)), (fs.mapM fun f => dictField L (g f) f.rep (get f)) = some slots → FitsSlots S fs slots
  | [], slots, h => by
    have : slots = [] := by simpa using h.symm
    subst this; simp [FitsSlots]
  | f :: fs, slots, h => by
    rw [List.mapM_cons] at h
    cases hx : dictField L (g f) f.rep (get f) with
    | none => rw [hx] at h; simp at h
    | some vs =>
      rw [hx] at h
      cases hl : (fs.mapM fun f => dictField L (g f) f.rep (get f)) with
      | none => rw [hl] at h; simp at h
      | some ws =>
        rw [hl] at h
        have : vs :: ws = slots := by simpa using h
        subst this
        rw [FitsSlots]
        obtain ⟨h1, h2⟩ := fits_field (hg f) f.rep (get f) vs hx
        exact ⟨h1, h2, fits_slots hg fs ws hl⟩

theorem fits_dict (S : Schema) (names : Nat → Nat → Bytes) (L : PyLib) : ∀ (fuel name : Nat) (p : Py) (v : Value),
    dictToProto S names L fuel name p = some v → Fits S (.msg name) v
  | 0, _, _, _, h => by simp [dictToProto] at h
  | fuel + 1, name, p, v, h => by
    by_cases hs : S name = []
    · rw [dictToProto_nil hs] at h
      cases h
      simp [Fits, hs, FitsSlots]
    by_cases hd : ∃ d, p = .dict d
    · obtain ⟨d, rfl⟩ := hd
      rw [dictToProto_dict] at h
      obtain ⟨slots, hm, rfl⟩ := Option.map_eq_some_iff.mp h
      rw [Fits]
      refine fits_slots (g := fun f => conv S names L fuel f.ty) ?_ (S name) slots hm
      intro f x v hv
      unfold conv at hv
      split at hv
      · rename_i n hn
        rw [hn]; exact fits_dict S names L fuel n x v hv
      · exact fits_value S L _ x v hv
    · push Not at hd
      rw [dictToProto_other hs hd] at h
      simp at h

end Verif.Pb
