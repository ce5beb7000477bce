import Verif.Spec.Transport
import Verif.Props.Protobuf
import Verif.Lemmas.HdHex

/-! Helper lemmas for C101. -/

namespace Verif.Msgs
open Verif Pb

theorem tags_nodup : ∀ c ∈ classes, (((c.fields).getD []).map (·.tag)).Nodup := by
  have h : (classes.all fun c => decide ((((c.fields).getD []).map (·.tag)).Nodup)) = true := by decide +kernel
  intro c hc
  simpa using List.all_eq_true.1 h c hc

theorem schema_ok : SchemaOk schema := by
  intro n
  unfold schema
  cases h : classes[n]? with
  | none => simp
  | some c => simpa using tags_nodup c (List.mem_of_getElem? h)

theorem wires_nodup : (classes.filterMap (·.wire)).Nodup := by decide +kernel

theorem findIdx_wire : ∀ (l : List Class) (c : Nat) (t : Nat), (l.filterMap (·.wire)).Nodup → (l[c]?).bind (·.wire) = some t →
    l.findIdx? (·.wire == some t) = some c
  | [], c, t, _, h => by simp at h
  | k :: l, 0, t, _, h => by
    simp only [List.getElem?_cons_zero, Option.bind_some] at h
    simp [List.findIdx?_cons, h]
  | k :: l, c + 1, t, hn, h => by
    simp only [List.getElem?_cons_succ] at h
    have hmem : t ∈ l.filterMap (·.wire) := by
      cases hx : l[c]? with
      | none => rw [hx] at h; simp at h
      | some x =>
        rw [hx] at h
        exact List.mem_filterMap.2 ⟨x, List.mem_of_getElem? hx, h⟩
    have hk : k.wire ≠ some t := by
      intro e
      rw [List.filterMap_cons, e] at hn
      exact (List.nodup_cons.1 hn).1 hmem
    have hn' : (l.filterMap (·.wire)).Nodup := by
      rw [List.filterMap_cons] at hn
      cases hw : k.wire with
      | none => rw [hw] at hn; exact hn
      | some w => rw [hw] at hn; exact (List.nodup_cons.1 hn).2
    have ih := findIdx_wire l c t hn' h
    simp [List.findIdx?_cons, hk, ih]

theorem classOf_typeOf {c t : Nat} (h : typeOf c = some t) : classOf t = some c := findIdx_wire _ _ _ wires_nodup h

theorem pack_unpack {utf8 : Bytes → Bool} {m : Msg} (h : Sendable utf8 m) : ∃ p, pack m = some p ∧ unpack utf8 p = some m := by
  obtain ⟨h1, ⟨t, h2⟩, h3⟩ := h
  obtain ⟨b, hb, hl⟩ := C21_roundtrip schema_ok utf8 m.cls m.slots h3
  refine ⟨⟨Acct.hexOf b, t⟩, ?_, ?_⟩
  · unfold pack; rw [if_pos h1, hb, h2]
  · unfold unpack
    have hx : Hd.unhexText (Acct.hexOf b) = some b := Hd.unhexText_text b
    simp only [hx, classOf_typeOf h2, if_pos h1, hl, Option.map_some]

end Verif.Msgs
