import Verif.Spec.Protobuf
import Verif.Props.Varint
import Mathlib.Data.List.Nodup
import Mathlib.Data.List.Basic
import Mathlib.Order.Basic

namespace Verif.Pb
open Verif

/-- There is room for `k` more bytes. -/
def fits (lim : Option Nat) (k : Nat) : Prop := ∀ l, lim = some l → k ≤ l

theorem vis_append {a rest : Bytes} {lim : Option Nat} (h : fits lim a.length) :
    ∃ rest', (⟨a ++ rest, lim⟩ : Reader).vis = a ++ rest' := by
  cases lim with
  | none => exact ⟨rest, rfl⟩
  | some l =>
    refine ⟨rest.take (l - a.length), ?_⟩
    have := h l rfl
    simp only [Reader.vis]
    rw [List.take_append, List.take_of_length_le this]

theorem uvarint_dump (n : Nat) (rest : Bytes) {lim : Option Nat} (h : fits lim (Varint.dumpNat n).length) :
    (⟨Varint.dumpNat n ++ rest, lim⟩ : Reader).uvarint = some (n, ⟨rest, lim.map (· - (Varint.dumpNat n).length)⟩) := by
  obtain ⟨rest', hv⟩ := vis_append (rest := rest) h
  unfold Reader.uvarint
  rw [hv, Varint.load_dumpNat]
  simp [Reader.skip]

theorem bytes_append (a rest : Bytes) {lim : Option Nat} (h : fits lim a.length) :
    (⟨a ++ rest, lim⟩ : Reader).bytes a.length = some (a, ⟨rest, lim.map (· - a.length)⟩) := by
  unfold Reader.bytes
  rw [if_neg]
  · simp [Reader.skip]
  · cases lim with
    | none => simp
    | some l => have := h l rfl; simp; omega

theorem fits_sub {lim : Option Nat} {a b : Nat} (h : fits lim (a + b)) : fits lim a ∧ fits (lim.map (· - a)) b := by
  cases lim with
  | none => exact ⟨fun l h => by simp at h, fun l h => by simp at h⟩
  | some l =>
    have := h l rfl
    refine ⟨fun l' h' => ?_, fun l' h' => ?_⟩
    · simp at h'; omega
    · simp at h'; omega

theorem map_sub {lim : Option Nat} {a b : Nat} : (lim.map (· - a)).map (· - b) = lim.map (· - (a + b)) := by
  cases lim <;> simp [Nat.sub_sub]

theorem key_eq (f : Field) : f.key = f.tag * 8 + f.ty.wire := by
  unfold Field.key
  have h : f.ty.wire < 2 ^ 3 := by cases f.ty <;> simp [FType.wire]
  rw [← Nat.shiftLeft_add_eq_or_of_lt h, Nat.shiftLeft_eq]

theorem key_tag (f : Field) : f.key >>> 3 = f.tag := by
  rw [key_eq, Nat.shiftRight_eq_div_pow]
  have h : f.ty.wire < 8 := by cases f.ty <;> simp [FType.wire]
  omega

theorem key_wire (f : Field) : f.key &&& 7 = f.ty.wire := by
  rw [key_eq, Nat.and_two_pow_sub_one_eq_mod _ 3]
  have h : f.ty.wire < 8 := by cases f.ty <;> simp [FType.wire]
  omega

theorem findIdx_tag : ∀ (pre : List Field) (f : Field) (post : List Field), ((pre ++ f :: post).map (·.tag)).Nodup →
    (pre ++ f :: post).findIdx? (·.tag == f.tag) = some pre.length := by
  intro pre
  induction pre with
  | nil => intro f post _; simp [List.findIdx?_cons]
  | cons p pre ih =>
    intro f post h
    rw [List.cons_append, List.map_cons, List.nodup_cons] at h
    have hne : (p.tag == f.tag) = false := by
      rw [beq_eq_false_iff_ne]
      intro he
      exact h.1 (he ▸ List.mem_map_of_mem (by simp))
    rw [List.cons_append, List.findIdx?_cons, hne]
    simp [ih f post h.2]

theorem dumpNat_len_pos (n : Nat) : 0 < (Varint.dumpNat n).length := List.length_pos_iff.2 (Varint.dumpNat_ne_nil n)

/-- One iteration of the loop on a known field. -/
theorem loadLoop_known {S : Schema} {utf8 : Bytes → Bool} {pre post : List Field} {f : Field}
    (hnd : ((pre ++ f :: post).map (·.tag)).Nodup) {fuel iv : Nat} {slots : List (List Value)} {bs : Bytes} {lim : Option Nat}
    {r r' : Reader} {v : Value} (hfit : fits lim (Varint.dumpNat f.key).length)
    (h1 : (⟨bs, lim.map (· - (Varint.dumpNat f.key).length)⟩ : Reader).uvarint = some (iv, r))
    (h2 : loadValue S utf8 fuel f.ty iv r = some (v, r')) :
    loadLoop S utf8 (fuel + 1) (pre ++ f :: post) slots ⟨Varint.dumpNat f.key ++ bs, lim⟩ =
      loadLoop S utf8 fuel (pre ++ f :: post) (setSlot slots pre.length f.rep v) r' := by
  rw [loadLoop]
  rw [uvarint_dump _ _ hfit]
  simp only [key_tag, key_wire, findIdx_tag pre f post hnd]
  have hg : (pre ++ f :: post)[pre.length]? = some f := by simp
  simp only [hg, ne_eq, not_true_eq_false, if_false, h1, h2]

theorem setSlot_append (done tl : List (List Value)) (cur : List Value) (rep : Bool) (v : Value) :
    setSlot (done ++ cur :: tl) done.length rep v = done ++ (if rep then cur ++ [v] else [v]) :: tl := by
  unfold setSlot
  induction done with
  | nil => rfl
  | cons d done ih => simpa using ih

mutual
/-- A dumped value is read back, leaving exactly what follows. -/
theorem load_value {S : Schema} {utf8 : Bytes → Bool} (hS : SchemaOk S) : ∀ (v : Value) (t : FType) (enc rest : Bytes)
    (lim : Option Nat) (fuel : Nat), WTValue S utf8 t v → dumpValue S t v = some enc → fits lim enc.length →
    enc.length + rest.length < fuel →
    ∃ iv r, (⟨enc ++ rest, lim⟩ : Reader).uvarint = some (iv, r) ∧
      loadValue S utf8 fuel t iv r = some (v, ⟨rest, lim.map (· - enc.length)⟩)
  | .uint n, t, enc, rest, lim, fuel, hw, hd, hf, hl => by
    cases t <;> simp only [WTValue] at hw
    simp only [dumpValue, Varint.dump] at hd
    rw [if_neg (by omega)] at hd
    simp at hd; subst hd
    refine ⟨_, _, uvarint_dump _ _ hf, ?_⟩
    simp only [loadValue, Int.toNat_of_nonneg hw]
  | .sint n, t, enc, rest, lim, fuel, hw, hd, hf, hl => by
    cases t <;> simp only [WTValue] at hw
    simp only [dumpValue, Varint.dump] at hd
    have hnn := (Varint.C20_sint_roundtrip n).1
    rw [if_neg (by omega)] at hd
    simp at hd; subst hd
    refine ⟨_, _, uvarint_dump _ _ hf, ?_⟩
    have : ((Varint.sintToUint n).toNat : Int) = Varint.sintToUint n := by omega
    simp only [loadValue, this, (Varint.C20_sint_roundtrip n).2]
  | .bool b, t, enc, rest, lim, fuel, hw, hd, hf, hl => by
    cases t <;> simp only [WTValue] at hw
    cases b <;>
    · simp [dumpValue, Varint.dump] at hd
      subst hd
      refine ⟨_, _, uvarint_dump _ _ hf, ?_⟩
      simp [loadValue]
  | .bytes b, t, enc, rest, lim, fuel, hw, hd, hf, hl => by
    cases t <;> simp only [WTValue] at hw
    simp only [dumpValue, Option.some.injEq] at hd
    subst hd
    unfold lenPrefixed at hf ⊢
    rw [List.length_append] at hf
    obtain ⟨h1, h2⟩ := fits_sub hf
    refine ⟨_, _, by rw [List.append_assoc]; exact uvarint_dump _ _ h1, ?_⟩
    rw [loadValue, bytes_append _ _ h2]
    rw [map_sub, ← List.length_append]; rfl
  | .str b, t, enc, rest, lim, fuel, hw, hd, hf, hl => by
    cases t <;> simp only [WTValue] at hw
    simp only [dumpValue, Option.some.injEq] at hd
    subst hd
    unfold lenPrefixed at hf ⊢
    rw [List.length_append] at hf
    obtain ⟨h1, h2⟩ := fits_sub hf
    refine ⟨_, _, by rw [List.append_assoc]; exact uvarint_dump _ _ h1, ?_⟩
    rw [loadValue, bytes_append _ _ h2]
    rw [map_sub, ← List.length_append]; simp [hw]
  | .msg slots, t, enc, rest, lim, fuel, hw, hd, hf, hl => by
    cases t <;> simp only [WTValue] at hw
    rename_i name
    simp only [dumpValue] at hd
    cases hb : dumpSlots S (S name) slots with
    | none => rw [hb] at hd; simp at hd
    | some body =>
      rw [hb] at hd
      simp only [Option.map_some, Option.some.injEq] at hd
      subst hd
      unfold lenPrefixed at hf hl ⊢
      rw [List.length_append] at hf hl
      obtain ⟨h1, h2⟩ := fits_sub hf
      refine ⟨_, _, by rw [List.append_assoc]; exact uvarint_dump _ _ h1, ?_⟩
      have hp := dumpNat_len_pos body.length
      obtain ⟨fuel, rfl⟩ : ∃ k, fuel = k + 1 := ⟨fuel - 1, by omega⟩
      rw [loadValue]
      have hlim : nestLimit body.length (lim.map (· - (Varint.dumpNat body.length).length)) = body.length := by
        cases hc : lim.map (· - (Varint.dumpNat body.length).length) with
        | none => rfl
        | some l => exact Nat.min_eq_left (h2 l hc)
      obtain ⟨fuel', hf', he⟩ := load_slots hS slots [] (S name) [] [] [] body rest (some body.length) fuel (by simpa using hS name) hw hb rfl
        (fun l h => by simp at h; omega) (by omega)
      simp only [List.nil_append, List.append_nil] at he
      simp only [hlim]
      rw [he]
      have hpos : 0 < fuel' := by omega
      obtain ⟨k, rfl⟩ : ∃ k, fuel' = k + 1 := ⟨fuel' - 1, by omega⟩
      rw [loadLoop]
      have hu : (⟨rest, (some body.length).map (· - body.length)⟩ : Reader).uvarint = none := by
        simp [Reader.uvarint, Reader.vis, Varint.load, Varint.loadAux]
      rw [hu]
      simp only [Option.map_some, Nat.sub_self, Reader.vis, List.take_zero, List.length_nil, Reader.skip, List.drop_zero]
      rw [map_sub, List.length_append, List.length_append]
      simp

theorem load_vals {S : Schema} {utf8 : Bytes → Bool} (hS : SchemaOk S) : ∀ (vs : List Value) (pre : List Field) (f : Field)
    (post : List Field) (done tl : List (List Value)) (cur : List Value) (enc rest : Bytes) (lim : Option Nat) (fuel : Nat),
    ((pre ++ f :: post).map (·.tag)).Nodup → done.length = pre.length → (f.rep = true ∨ vs = [] ∨ (cur = [] ∧ vs.length ≤ 1)) →
    WTVals S utf8 f.ty vs → dumpVals S f vs = some enc → fits lim enc.length → enc.length + rest.length < fuel →
    ∃ fuel', rest.length < fuel' ∧
      loadLoop S utf8 fuel (pre ++ f :: post) (done ++ cur :: tl) ⟨enc ++ rest, lim⟩ =
        loadLoop S utf8 fuel' (pre ++ f :: post) (done ++ (cur ++ vs) :: tl) ⟨rest, lim.map (· - enc.length)⟩
  | [], pre, f, post, done, tl, cur, enc, rest, lim, fuel, hnd, hdl, hrep, hw, hd, hf, hl => by
    simp only [dumpVals, Option.some.injEq] at hd
    subst hd
    refine ⟨fuel, by simpa using hl, ?_⟩
    cases lim <;> simp
  | v :: vs, pre, f, post, done, tl, cur, enc, rest, lim, fuel, hnd, hdl, hrep, hw, hd, hf, hl => by
    simp only [dumpVals] at hd
    simp only [WTVals] at hw
    cases ha : dumpValue S f.ty v with
    | none => rw [ha] at hd; simp at hd
    | some a =>
      cases hb : dumpVals S f vs with
      | none => rw [ha, hb] at hd; simp at hd
      | some b =>
        rw [ha, hb] at hd
        simp only [Option.some.injEq] at hd
        subst hd
        rw [List.length_append, List.length_append] at hf hl
        obtain ⟨f1, f2⟩ := fits_sub hf
        obtain ⟨f3, f4⟩ := fits_sub f2
        have hp := dumpNat_len_pos f.key
        obtain ⟨fuel, rfl⟩ : ∃ k, fuel = k + 1 := ⟨fuel - 1, by omega⟩
        obtain ⟨iv, r, e1, e2⟩ := load_value hS v f.ty a (b ++ rest) _ fuel hw.1 ha f3 (by rw [List.length_append]; omega)
        have hloop := loadLoop_known (slots := done ++ cur :: tl) hnd f1 e1 e2
        rw [← hdl, setSlot_append] at hloop
        obtain ⟨fuel', g1, g2⟩ := load_vals hS vs pre f post done tl (cur ++ [v]) b rest _ fuel hnd hdl
          (by
            rcases hrep with h | h | ⟨h, h'⟩
            · exact Or.inl h
            · simp at h
            · exact Or.inr (Or.inl (by simpa using h'))) hw.2 hb f4 (by omega)
        have hcur : (if f.rep = true then cur ++ [v] else [v]) = cur ++ [v] := by
          rcases hrep with h | h | ⟨h, h'⟩
          · rw [if_pos h]
          · simp at h
          · subst h; simp
        refine ⟨fuel', g1, ?_⟩
        rw [List.append_assoc, List.append_assoc, hloop, hcur, g2, map_sub, map_sub]
        simp [Nat.add_assoc]

theorem load_slots {S : Schema} {utf8 : Bytes → Bool} (hS : SchemaOk S) : ∀ (slots : List (List Value)) (pre fs post : List Field)
    (done tl : List (List Value)) (enc rest : Bytes) (lim : Option Nat) (fuel : Nat),
    ((pre ++ (fs ++ post)).map (·.tag)).Nodup → WTSlots S utf8 fs slots → dumpSlots S fs slots = some enc → done.length = pre.length →
    fits lim enc.length → enc.length + rest.length < fuel →
    ∃ fuel', rest.length < fuel' ∧
      loadLoop S utf8 fuel (pre ++ (fs ++ post)) (done ++ ((fs.map fun _ => []) ++ tl)) ⟨enc ++ rest, lim⟩ =
        loadLoop S utf8 fuel' (pre ++ (fs ++ post)) (done ++ (slots ++ tl)) ⟨rest, lim.map (· - enc.length)⟩
  | [], pre, fs, post, done, tl, enc, rest, lim, fuel, hnd, hw, hd, hdl, hf, hl => by
    cases fs with
    | cons f fs => simp [WTSlots] at hw
    | nil =>
      simp only [dumpSlots, Option.some.injEq] at hd
      subst hd
      refine ⟨fuel, by simpa using hl, ?_⟩
      cases lim <;> simp
  | vs :: slots, pre, fs, post, done, tl, enc, rest, lim, fuel, hnd, hw, hd, hdl, hf, hl => by
    cases fs with
    | nil => simp [WTSlots] at hw
    | cons f fs =>
      simp only [WTSlots] at hw
      simp only [dumpSlots] at hd
      cases ha : dumpVals S f vs with
      | none => rw [ha] at hd; simp at hd
      | some a =>
        cases hb : dumpSlots S fs slots with
        | none => rw [ha, hb] at hd; simp at hd
        | some b =>
          rw [ha, hb] at hd
          simp only [Option.some.injEq] at hd
          subst hd
          rw [List.length_append] at hf hl
          obtain ⟨f1, f2⟩ := fits_sub hf
          obtain ⟨fuel1, g1, g2⟩ := load_vals hS vs pre f (fs ++ post) done ((fs.map fun _ => []) ++ tl) [] a (b ++ rest) lim fuel hnd hdl
            (by rcases hw.1 with h | h; exacts [Or.inl h, Or.inr (Or.inr ⟨rfl, h⟩)]) hw.2.1 ha f1 (by rw [List.length_append]; omega)
          obtain ⟨fuel2, g3, g4⟩ := load_slots hS slots (pre ++ [f]) fs post (done ++ [vs]) tl b rest _ fuel1 (by simpa using hnd) hw.2.2 hb
            (by simp [hdl]) f2 (by rw [List.length_append] at g1; omega)
          refine ⟨fuel2, g3, ?_⟩
          simp only [List.append_assoc, List.singleton_append] at g4
          rw [List.append_assoc, List.map_cons, List.cons_append, List.cons_append, g2, List.nil_append, g4, map_sub, List.length_append,
            List.cons_append]
end

mutual
/-- Well-typed values can be dumped. -/
theorem dump_value {S : Schema} {utf8 : Bytes → Bool} : ∀ (v : Value) (t : FType), WTValue S utf8 t v →
    ∃ enc, dumpValue S t v = some enc
  | .uint n, t, hw => by
    cases t <;> simp only [WTValue] at hw
    exact ⟨_, by rw [dumpValue, Varint.dump, if_neg (by omega)]⟩
  | .sint n, t, hw => by
    cases t <;> simp only [WTValue] at hw
    have := (Varint.C20_sint_roundtrip n).1
    exact ⟨_, by rw [dumpValue, Varint.dump, if_neg (by omega)]⟩
  | .bool b, t, hw => by
    cases t <;> simp only [WTValue] at hw
    exact ⟨_, by rw [dumpValue, Varint.dump, if_neg (by split <;> decide)]⟩
  | .bytes b, t, hw => by
    cases t <;> simp only [WTValue] at hw
    exact ⟨_, by rw [dumpValue]⟩
  | .str b, t, hw => by
    cases t <;> simp only [WTValue] at hw
    exact ⟨_, by rw [dumpValue]⟩
  | .msg slots, t, hw => by
    cases t <;> simp only [WTValue] at hw
    obtain ⟨e, he⟩ := dump_slots slots _ hw
    exact ⟨_, by rw [dumpValue, he]; rfl⟩

theorem dump_vals {S : Schema} {utf8 : Bytes → Bool} : ∀ (vs : List Value) (f : Field), WTVals S utf8 f.ty vs →
    ∃ enc, dumpVals S f vs = some enc
  | [], f, _ => ⟨_, by rw [dumpVals]⟩
  | v :: vs, f, hw => by
    simp only [WTVals] at hw
    obtain ⟨a, ha⟩ := dump_value v _ hw.1
    obtain ⟨b, hb⟩ := dump_vals vs f hw.2
    exact ⟨_, by rw [dumpVals, ha, hb]⟩

theorem dump_slots {S : Schema} {utf8 : Bytes → Bool} : ∀ (slots : List (List Value)) (fs : List Field),
    WTSlots S utf8 fs slots → ∃ enc, dumpSlots S fs slots = some enc
  | [], fs, _ => ⟨_, by rw [dumpSlots]⟩
  | vs :: slots, fs, hw => by
    cases fs with
    | nil => simp [WTSlots] at hw
    | cons f fs =>
      simp only [WTSlots] at hw
      obtain ⟨a, ha⟩ := dump_vals vs f hw.2.1
      obtain ⟨b, hb⟩ := dump_slots slots fs hw.2.2
      exact ⟨_, by rw [dumpSlots, ha, hb]⟩
end

/-! ### The iteration bound never decides the result -/

theorem uvarint_shrinks {r r' : Reader} {n : Nat} (h : r.uvarint = some (n, r')) : r'.bs.length < r.bs.length := by
  have key : ∀ (q : Bytes) (a b : Nat) v rest, Varint.loadAux a b q = some (v, rest) → rest.length < q.length := by
    intro q
    induction q with
    | nil => intro a b v rest h; simp [Varint.loadAux] at h
    | cons c q ih =>
      intro a b v rest h
      rw [Varint.loadAux_cons] at h
      split at h
      · have := ih _ _ _ _ h; simp; omega
      · simp at h; rw [← h.2]; simp
  unfold Reader.uvarint at h
  split at h
  · rename_i v rest hl
    have := key _ _ _ _ _ hl
    simp at h
    obtain ⟨_, rfl⟩ := h
    have hv : r.vis.length ≤ r.bs.length := by
      unfold Reader.vis; split
      · exact Nat.le_refl _
      · simp only [List.length_take]; omega
    simp [Reader.skip]; omega
  · simp at h

theorem bytes_shrinks {r r' : Reader} {n : Nat} {b : Bytes} (h : r.bytes n = some (b, r')) : r'.bs.length ≤ r.bs.length := by
  have h' : ∀ c : Bool, (if c = true then none else some (r.bs.take n ++ List.replicate (n - r.bs.length) 0, r.skip n)) = some (b, r') →
      r'.bs.length ≤ r.bs.length := by
    intro c h
    cases c with
    | true => simp at h
    | false => simp at h; rw [← h.2]; simp [Reader.skip]
  exact h' _ h

theorem load_shrinks (S : Schema) (utf8 : Bytes → Bool) : ∀ (fuel : Nat),
    (∀ fs slots r s' r', loadLoop S utf8 fuel fs slots r = some (s', r') → r'.bs.length ≤ r.bs.length) ∧
    (∀ t n r v r', loadValue S utf8 fuel t n r = some (v, r') → r'.bs.length ≤ r.bs.length) := by
  intro fuel
  induction fuel using Nat.strongRecOn with
  | _ fuel ih =>
    refine ⟨?_, ?_⟩
    · intro fs slots r s' r' h
      cases fuel with
      | zero => simp [loadLoop] at h
      | succ fuel =>
        rw [loadLoop] at h
        split at h
        · simp at h; rw [← h.2]; simp [Reader.skip]
        · rename_i fkey r1 h1
          have q1 := uvarint_shrinks h1
          simp only at h
          split at h
          · split at h
            · split at h
              · simp at h
              · rename_i _ r2 h2
                have q2 := uvarint_shrinks h2
                have := (ih fuel (by omega)).1 _ _ _ _ _ h
                omega
            · split at h
              · split at h
                · simp at h
                · rename_i _ r2 h2
                  have q2 := uvarint_shrinks h2
                  split at h
                  · simp at h
                  · rename_i _ r3 h3
                    have q3 := bytes_shrinks h3
                    have := (ih fuel (by omega)).1 _ _ _ _ _ h
                    omega
              · simp at h
          · split at h
            · simp at h
            · split at h
              · simp at h
              · split at h
                · simp at h
                · rename_i _ r2 h2
                  have q2 := uvarint_shrinks h2
                  split at h
                  · simp at h
                  · rename_i _ r3 h3
                    have q3 := (ih fuel (by omega)).2 _ _ _ _ _ h3
                    have := (ih fuel (by omega)).1 _ _ _ _ _ h
                    omega
    · intro t n r v r' h
      cases t with
      | uvarint => simp [loadValue] at h; exact Nat.le_of_eq (by rw [h.2])
      | svarint => simp [loadValue] at h; exact Nat.le_of_eq (by rw [h.2])
      | bool => simp [loadValue] at h; exact Nat.le_of_eq (by rw [h.2])
      | bytes =>
        simp only [loadValue] at h
        cases hb : r.bytes n with
        | none => rw [hb] at h; simp at h
        | some x => rw [hb] at h; simp at h; rw [← h.2]; exact bytes_shrinks (b := x.1) hb
      | unicode =>
        simp only [loadValue] at h
        split at h
        · simp at h
        · rename_i b r2 hb
          split at h
          · simp at h; rw [← h.2]; exact bytes_shrinks hb
          · simp at h
      | msg name =>
        cases fuel with
        | zero => simp [loadValue] at h
        | succ fuel =>
          simp only [loadValue] at h
          split at h
          · simp at h
          · rename_i slots r2 h2
            simp at h
            rw [← h.2]
            have := (ih fuel (by omega)).1 _ _ _ _ _ h2
            exact this

/-- With a bound above the number of bytes, the result does not depend on the bound. -/
theorem load_fuel (S : Schema) (utf8 : Bytes → Bool) : ∀ (f1 f2 : Nat),
    (∀ fs slots r, r.bs.length < f1 → r.bs.length < f2 → loadLoop S utf8 f1 fs slots r = loadLoop S utf8 f2 fs slots r) ∧
    (∀ t n r, r.bs.length + 1 < f1 → r.bs.length + 1 < f2 → loadValue S utf8 f1 t n r = loadValue S utf8 f2 t n r) := by
  intro f1
  induction f1 using Nat.strongRecOn with
  | _ f1 ih =>
    intro f2
    refine ⟨?_, ?_⟩
    · intro fs slots r h1 h2
      obtain ⟨f1, rfl⟩ : ∃ k, f1 = k + 1 := ⟨f1 - 1, by omega⟩
      obtain ⟨f2, rfl⟩ : ∃ k, f2 = k + 1 := ⟨f2 - 1, by omega⟩
      rw [loadLoop, loadLoop]
      cases hu : r.uvarint with
      | none => rfl
      | some x =>
        obtain ⟨fkey, r1⟩ := x
        have q1 := uvarint_shrinks hu
        simp only
        cases fs.findIdx? (·.tag == fkey >>> 3) with
        | none =>
          simp only
          split
          · cases hu2 : r1.uvarint with
            | none => rfl
            | some y =>
              have q2 := uvarint_shrinks (r' := y.2) (n := y.1) hu2
              exact (ih f1 (by omega) f2).1 _ _ _ (by omega) (by omega)
          · split
            · cases hu2 : r1.uvarint with
              | none => rfl
              | some y =>
                obtain ⟨n, r2⟩ := y
                have q2 := uvarint_shrinks hu2
                simp only
                cases hb : r2.bytes n with
                | none => rfl
                | some z =>
                  have q3 := bytes_shrinks (b := z.1) (r' := z.2) hb
                  exact (ih f1 (by omega) f2).1 _ _ _ (by omega) (by omega)
            · rfl
        | some i =>
          simp only
          cases fs[i]? with
          | none => rfl
          | some f =>
            simp only
            split
            · rfl
            · cases hu2 : r1.uvarint with
              | none => rfl
              | some y =>
                obtain ⟨n, r2⟩ := y
                have q2 := uvarint_shrinks hu2
                simp only
                rw [(ih f1 (by omega) f2).2 f.ty n r2 (by omega) (by omega)]
                cases hv : loadValue S utf8 f2 f.ty n r2 with
                | none => rfl
                | some z =>
                  have q3 := (load_shrinks S utf8 f2).2 _ _ _ z.1 z.2 hv
                  exact (ih f1 (by omega) f2).1 _ _ _ (by omega) (by omega)
    · intro t n r h1 h2
      cases t
      case msg name =>
        obtain ⟨f1, rfl⟩ : ∃ k, f1 = k + 1 := ⟨f1 - 1, by omega⟩
        obtain ⟨f2, rfl⟩ : ∃ k, f2 = k + 1 := ⟨f2 - 1, by omega⟩
        simp only [loadValue]
        rw [(ih f1 (by omega) f2).1 _ _ _ (by simp only; omega) (by simp only; omega)]
      all_goals simp only [loadValue]

/-- One iteration on a field the class does not know. -/
theorem loadLoop_unknown {S : Schema} {utf8 : Bytes → Bool} {fs : List Field} {tag : Nat} (hn : ∀ f ∈ fs, f.tag ≠ tag)
    {fuel : Nat} {slots : List (List Value)} {bs : Bytes} {lim : Option Nat} {enc : Bytes}
    (henc : (∃ n, enc = Varint.dumpNat (tag * 8) ++ Varint.dumpNat n) ∨ ∃ b, enc = Varint.dumpNat (tag * 8 + 2) ++ lenPrefixed b)
    (hf : fits lim enc.length) :
    loadLoop S utf8 (fuel + 1) fs slots ⟨enc ++ bs, lim⟩ = loadLoop S utf8 fuel fs slots ⟨bs, lim.map (· - enc.length)⟩ := by
  have hfi : fs.findIdx? (·.tag == tag) = none := by
    rw [List.findIdx?_eq_none_iff]
    intro f hf
    simpa using hn f hf
  rw [loadLoop]
  rcases henc with ⟨n, rfl⟩ | ⟨b, rfl⟩
  · rw [List.length_append] at hf
    obtain ⟨h1, h2⟩ := fits_sub hf
    rw [List.append_assoc, uvarint_dump _ _ h1]
    have ht : (tag * 8) >>> 3 = tag := by rw [Nat.shiftRight_eq_div_pow]; omega
    have hw : (tag * 8) &&& 7 = 0 := by rw [Nat.and_two_pow_sub_one_eq_mod _ 3]; omega
    simp only [ht, hw, hfi, if_true]
    rw [uvarint_dump _ _ h2]
    simp only [map_sub, List.length_append]
  · unfold lenPrefixed at hf ⊢
    rw [List.length_append, List.length_append] at hf
    obtain ⟨h1, h2⟩ := fits_sub hf
    obtain ⟨h3, h4⟩ := fits_sub h2
    rw [List.append_assoc, List.append_assoc, uvarint_dump _ _ h1]
    have ht : (tag * 8 + 2) >>> 3 = tag := by rw [Nat.shiftRight_eq_div_pow]; omega
    have hw : (tag * 8 + 2) &&& 7 = 2 := by rw [Nat.and_two_pow_sub_one_eq_mod _ 3]; omega
    simp only [ht, hw, hfi, show ¬ ((2:Nat) = 0) by decide, if_false, if_true]
    rw [uvarint_dump _ _ h3]
    simp only
    rw [bytes_append _ _ h4]
    simp only [map_sub, List.length_append, Nat.add_assoc]

end Verif.Pb
