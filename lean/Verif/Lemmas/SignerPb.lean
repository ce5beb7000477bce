import Verif.Model.SignerPb
import Verif.Lemmas.Transport

/-! The encodings of source and destination entries. -/

namespace Verif.Signer
open Verif Pb

theorem schema_src : Msgs.schema Msgs.srcEntry = [⟨1, .msg 150, true⟩, ⟨2, .uvarint, false⟩, ⟨3, .bytes, false⟩, ⟨4, .bytes, true⟩,
    ⟨5, .uvarint, false⟩, ⟨6, .uvarint, false⟩, ⟨7, .bool, false⟩, ⟨8, .bytes, false⟩, ⟨9, .msg 149, false⟩, ⟨10, .uvarint, false⟩] := by
  decide +kernel

theorem schema_out : Msgs.schema 150 = [⟨1, .uvarint, false⟩, ⟨2, .msg 151, false⟩] := by decide +kernel
theorem schema_rct : Msgs.schema 151 = [⟨1, .bytes, false⟩, ⟨2, .bytes, false⟩] := by decide +kernel
theorem schema_addr : Msgs.schema 130 = [⟨1, .bytes, false⟩, ⟨2, .bytes, false⟩] := by decide +kernel
theorem schema_dst : Msgs.schema Msgs.dstEntry = [⟨1, .uvarint, false⟩, ⟨2, .msg 130, false⟩, ⟨3, .bool, false⟩, ⟨4, .bytes, false⟩,
    ⟨5, .bool, false⟩] := by decide +kernel

def anyText : Bytes → Bool := fun _ => true

theorem wt_dst (d : Dst) : WTMessage Msgs.schema anyText Msgs.dstEntry d.slots := by
  unfold WTMessage Dst.slots
  rw [schema_dst]
  simp [WTSlots, WTVals, WTValue, schema_addr]

theorem wt_member (m : RingMember) : WTValue Msgs.schema anyText (.msg 150) m.value := by
  simp [RingMember.value, WTSlots, WTVals, WTValue, schema_out, schema_rct]

theorem wtVals_of {S : Schema} {u : Bytes → Bool} {t : FType} : ∀ (vs : List Value), (∀ v ∈ vs, WTValue S u t v) → WTVals S u t vs
  | [], _ => trivial
  | v :: vs, h => ⟨h v (List.mem_cons_self ..), wtVals_of vs fun x hx => h x (List.mem_cons_of_mem _ hx)⟩

theorem wt_src (s : Src) : WTMessage Msgs.schema anyText Msgs.srcEntry s.slots := by
  unfold WTMessage Src.slots
  rw [schema_src]
  have h1 : WTVals Msgs.schema anyText (.msg 150) (s.outputs.map RingMember.value) := wtVals_of _ (by
    intro v hv; obtain ⟨m, _, rfl⟩ := List.mem_map.1 hv; exact wt_member m)
  have h2 : WTVals Msgs.schema anyText .bytes (s.addKeys.map .bytes) := wtVals_of _ (by
    intro v hv; obtain ⟨m, _, rfl⟩ := List.mem_map.1 hv; trivial)
  cases hm : s.subaddrMinor <;> simp [WTSlots, WTVals, WTValue, h1, h2]

theorem Dst.pb_inj {a b : Dst} (h : a.pb = b.pb) : a = b := by
  obtain ⟨x, hx, _⟩ := C21_roundtrip Msgs.schema_ok anyText _ _ (wt_dst a)
  obtain ⟨y, hy, _⟩ := C21_roundtrip Msgs.schema_ok anyText _ _ (wt_dst b)
  unfold Dst.pb at h
  rw [hx, hy] at h
  have he := C21_injective Msgs.schema_ok anyText _ _ _ (wt_dst a) (wt_dst b) (by rw [hx, hy]; exact congrArg some h)
  rcases a with ⟨a1, ⟨a2, a3⟩, a4⟩
  rcases b with ⟨b1, ⟨b2, b3⟩, b4⟩
  simp [Dst.slots] at he
  obtain ⟨e1, ⟨e2, e3⟩, e4⟩ := he
  subst e1 e2 e3 e4
  rfl

theorem RingMember.value_inj {a b : RingMember} (h : a.value = b.value) : a = b := by
  rcases a with ⟨a1, a2, a3⟩
  rcases b with ⟨b1, b2, b3⟩
  simp [RingMember.value] at h
  obtain ⟨e1, e2, e3⟩ := h
  subst e1 e2 e3
  rfl

/-- One value marks its own end. -/
theorem dumpValue_prefix {t : FType} (ht : t ≠ .svarint) {v w : Value} {e f x y : Bytes} (hv : WTValue Msgs.schema anyText t v) (hw : WTValue Msgs.schema anyText t w)
    (he : dumpValue Msgs.schema t v = some e) (hf : dumpValue Msgs.schema t w = some f) (h : e ++ x = f ++ y) : v = w ∧ x = y := by
  have lp : ∀ a b : Bytes, lenPrefixed a ++ x = lenPrefixed b ++ y → a = b ∧ x = y := by
    intro a b h
    unfold lenPrefixed at h
    rw [List.append_assoc, List.append_assoc] at h
    obtain ⟨h1, h2⟩ := Varint.dumpNat_append_inj h
    exact List.append_inj h2 h1
  cases t with
  | uvarint =>
    cases v <;> simp only [WTValue] at hv
    cases w <;> simp only [WTValue] at hw
    rename_i m n
    obtain ⟨m, rfl⟩ := Int.eq_ofNat_of_zero_le hv
    obtain ⟨n, rfl⟩ := Int.eq_ofNat_of_zero_le hw
    simp [dumpValue, Varint.dump] at he hf
    subst he hf
    obtain ⟨h1, h2⟩ := Varint.dumpNat_append_inj h
    subst h1; exact ⟨rfl, h2⟩
  | svarint => exact absurd rfl ht
  | bool =>
    cases v <;> simp only [WTValue] at hv
    cases w <;> simp only [WTValue] at hw
    rename_i m n
    cases m <;> cases n <;> simp [dumpValue, Varint.dump] at he hf <;> subst he hf <;> have := Varint.dumpNat_append_inj h <;> simp_all
  | bytes =>
    cases v <;> simp only [WTValue] at hv
    cases w <;> simp only [WTValue] at hw
    simp [dumpValue] at he hf
    subst he hf
    obtain ⟨h1, h2⟩ := lp _ _ h
    subst h1; exact ⟨rfl, h2⟩
  | unicode =>
    cases v <;> simp only [WTValue] at hv
    cases w <;> simp only [WTValue] at hw
    simp [dumpValue] at he hf
    subst he hf
    obtain ⟨h1, h2⟩ := lp _ _ h
    subst h1; exact ⟨rfl, h2⟩
  | msg n =>
    cases v <;> simp only [WTValue] at hv
    cases w <;> simp only [WTValue] at hw
    rename_i a b
    simp only [dumpValue, Option.map_eq_some_iff] at he hf
    obtain ⟨e, he, rfl⟩ := he
    obtain ⟨f, hf, rfl⟩ := hf
    obtain ⟨h1, h2⟩ := lp _ _ h
    subst h1
    have := C21_injective Msgs.schema_ok anyText n a b hv hw (by unfold dumpMessage; rw [he, hf])
    exact ⟨by rw [this], h2⟩

/-- `x` begins with the key of another field. -/
def Other (k : Nat) (x : Bytes) : Prop := ∃ k' x', k' ≠ k ∧ x = Varint.dumpNat k' ++ x'

/-- The values of a field, followed by another field, are determined. -/
theorem dumpVals_prefix {f : Field} (ht : f.ty ≠ .svarint) : ∀ (vs ws : List Value) {e e' x y : Bytes},
    WTVals Msgs.schema anyText f.ty vs → WTVals Msgs.schema anyText f.ty ws →
    dumpVals Msgs.schema f vs = some e → dumpVals Msgs.schema f ws = some e' → Other f.key x → Other f.key y → e ++ x = e' ++ y →
    vs = ws ∧ x = y
  | [], [], e, e', x, y, _, _, he, he', _, _, h => by
    simp only [dumpVals, Option.some.injEq] at he he'
    subst he he'
    exact ⟨rfl, h⟩
  | [], w :: ws, e, e', x, y, _, _, he, he', ⟨k, x', hk, hx⟩, _, h => by
    simp only [dumpVals, Option.some.injEq] at he he'
    subst he
    split at he'
    · simp only [Option.some.injEq] at he'
      subst he'
      rw [hx, List.nil_append, List.append_assoc] at h
      exact absurd (Varint.dumpNat_append_inj h).1 hk
    · exact absurd he' (by simp)
  | v :: vs, [], e, e', x, y, _, _, he, he', _, ⟨k, y', hk, hy⟩, h => by
    simp only [dumpVals, Option.some.injEq] at he he'
    subst he'
    split at he
    · simp only [Option.some.injEq] at he
      subst he
      rw [hy, List.nil_append, List.append_assoc] at h
      exact absurd (Varint.dumpNat_append_inj h).1.symm hk
    · exact absurd he (by simp)
  | v :: vs, w :: ws, e, e', x, y, hv, hw, he, he', hx, hy, h => by
    simp only [dumpVals] at he he'
    split at he
    · rename_i a b ha hb
      split at he'
      · rename_i a' b' ha' hb'
        simp only [Option.some.injEq] at he he'
        subst he he'
        rw [List.append_assoc, List.append_assoc, List.append_assoc, List.append_assoc] at h
        obtain ⟨_, h2⟩ := Varint.dumpNat_append_inj h
        obtain ⟨h3, h4⟩ := dumpValue_prefix ht hv.1 hw.1 ha ha' h2
        obtain ⟨h5, h6⟩ := dumpVals_prefix ht vs ws hv.2 hw.2 hb hb' hx hy h4
        exact ⟨by rw [h3, h5], h6⟩
      · exact absurd he' (by simp)
    · exact absurd he (by simp)

theorem dumpVals_other {f : Field} {v : Value} {e z : Bytes} {k : Nat} (hk : f.key ≠ k) (h : dumpVals Msgs.schema f [v] = some e) :
    Other k (e ++ z) := by
  simp only [dumpVals] at h
  split at h
  · simp only [Option.some.injEq] at h
    subst h
    exact ⟨f.key, _, hk, by rw [List.append_assoc]⟩
  · exact absurd h (by simp)

/-- A field with exactly one value marks its end. -/
theorem dumpOne_prefix {f : Field} (ht : f.ty ≠ .svarint) {v w : Value} {e e' x y : Bytes} (hv : WTValue Msgs.schema anyText f.ty v)
    (hw : WTValue Msgs.schema anyText f.ty w) (he : dumpVals Msgs.schema f [v] = some e) (he' : dumpVals Msgs.schema f [w] = some e')
    (h : e ++ x = e' ++ y) : v = w ∧ x = y := by
  simp only [dumpVals] at he he'
  split at he
  · rename_i a b ha hb
    split at he'
    · rename_i a' b' ha' hb'
      simp only [Option.some.injEq] at he he' hb hb'
      subst he he' hb hb'
      simp only [List.append_assoc, List.nil_append] at h
      obtain ⟨_, h2⟩ := Varint.dumpNat_append_inj h
      exact dumpValue_prefix ht hv hw ha ha' h2
    · exact absurd he' (by simp)
  · exact absurd he (by simp)

/-- The last field of an entry, `subaddr_minor`. -/
def minor (s : Src) : Bytes := match s.subaddrMinor with | none => [] | some n => 80 :: Varint.dumpNat n

/-- The parts of an encoded source entry. -/
theorem src_parts (s : Src) : ∃ b1 b2 b3 b4 b5 b6 b7 b8,
    dumpVals Msgs.schema ⟨1, .msg 150, true⟩ (s.outputs.map RingMember.value) = some b1 ∧
    dumpVals Msgs.schema ⟨2, .uvarint, false⟩ [.uint s.realOutput] = some b2 ∧
    dumpVals Msgs.schema ⟨3, .bytes, false⟩ [.bytes s.txKey] = some b3 ∧
    dumpVals Msgs.schema ⟨4, .bytes, true⟩ (s.addKeys.map .bytes) = some b4 ∧
    dumpVals Msgs.schema ⟨5, .uvarint, false⟩ [.uint s.inTxIndex] = some b5 ∧
    dumpVals Msgs.schema ⟨6, .uvarint, false⟩ [.uint s.amount] = some b6 ∧
    dumpVals Msgs.schema ⟨7, .bool, false⟩ [.bool s.rct] = some b7 ∧
    dumpVals Msgs.schema ⟨8, .bytes, false⟩ [.bytes s.mask] = some b8 ∧
    ∀ z, s.pb ++ z = b1 ++ (b2 ++ (b3 ++ (b4 ++ (b5 ++ (b6 ++ (b7 ++ (b8 ++ (minor s ++ z)))))))) := by
  have w1 : WTVals Msgs.schema anyText (.msg 150) (s.outputs.map RingMember.value) := wtVals_of _ (by
    intro v hv; obtain ⟨m, _, rfl⟩ := List.mem_map.1 hv; exact wt_member m)
  have w4 : WTVals Msgs.schema anyText .bytes (s.addKeys.map .bytes) := wtVals_of _ (by
    intro v hv; obtain ⟨m, _, rfl⟩ := List.mem_map.1 hv; trivial)
  obtain ⟨b1, h1⟩ := dump_vals _ ⟨1, .msg 150, true⟩ w1
  obtain ⟨b2, h2⟩ := dump_vals (S := Msgs.schema) (utf8 := anyText) [.uint s.realOutput] ⟨2, .uvarint, false⟩ (by simp [WTVals, WTValue])
  obtain ⟨b3, h3⟩ := dump_vals (S := Msgs.schema) (utf8 := anyText) [.bytes s.txKey] ⟨3, .bytes, false⟩ (by simp [WTVals, WTValue])
  obtain ⟨b4, h4⟩ := dump_vals _ ⟨4, .bytes, true⟩ w4
  obtain ⟨b5, h5⟩ := dump_vals (S := Msgs.schema) (utf8 := anyText) [.uint s.inTxIndex] ⟨5, .uvarint, false⟩ (by simp [WTVals, WTValue])
  obtain ⟨b6, h6⟩ := dump_vals (S := Msgs.schema) (utf8 := anyText) [.uint s.amount] ⟨6, .uvarint, false⟩ (by simp [WTVals, WTValue])
  obtain ⟨b7, h7⟩ := dump_vals (S := Msgs.schema) (utf8 := anyText) [.bool s.rct] ⟨7, .bool, false⟩ (by simp [WTVals, WTValue])
  obtain ⟨b8, h8⟩ := dump_vals (S := Msgs.schema) (utf8 := anyText) [.bytes s.mask] ⟨8, .bytes, false⟩ (by simp [WTVals, WTValue])
  refine ⟨b1, b2, b3, b4, b5, b6, b7, b8, h1, h2, h3, h4, h5, h6, h7, h8, fun z => ?_⟩
  have h9 : dumpVals Msgs.schema ⟨9, .msg 149, false⟩ [] = some [] := by rw [dumpVals]
  have h10 : dumpVals Msgs.schema ⟨10, .uvarint, false⟩ (s.subaddrMinor.map fun n : Nat => Value.uint n).toList = some (minor s) := by
    unfold minor
    cases s.subaddrMinor with
    | none => simp only [Option.map_none, Option.toList_none, dumpVals]
    | some n =>
      have hk : Varint.dumpNat (Field.key ⟨10, .uvarint, false⟩) = [80] := by decide +kernel
      have hd : Varint.dump (n : Int) = some (Varint.dumpNat n) := by
        unfold Varint.dump; rw [if_neg (by omega), Int.toNat_natCast]
      simp only [Option.map_some, Option.toList_some, dumpVals, dumpValue, hd, hk, List.append_nil, List.cons_append, List.nil_append]
  have hpb : dumpMessage Msgs.schema Msgs.srcEntry s.slots =
      some (b1 ++ (b2 ++ (b3 ++ (b4 ++ (b5 ++ (b6 ++ (b7 ++ (b8 ++ ([] ++ (minor s ++ [])))))))))) := by
    unfold dumpMessage Src.slots
    rw [schema_src]
    simp only [dumpSlots, h1, h2, h3, h4, h5, h6, h7, h8, h9, h10]
  unfold Src.pb
  rw [hpb]
  simp only [Option.getD_some, List.append_assoc, List.nil_append]

/-- What equal bytes say about two source entries followed by something. -/
theorem Src.pb_prefix {a b : Src} {x y : Bytes} (h : a.pb ++ x = b.pb ++ y) :
    { a with subaddrMinor := none } = { b with subaddrMinor := none } ∧ minor a ++ x = minor b ++ y := by
  obtain ⟨a1, a2, a3, a4, a5, a6, a7, a8, p1, p2, p3, p4, p5, p6, p7, p8, pz⟩ := src_parts a
  obtain ⟨b1, b2, b3, b4, b5, b6, b7, b8, q1, q2, q3, q4, q5, q6, q7, q8, qz⟩ := src_parts b
  rw [pz, qz] at h
  have w1 : ∀ s : Src, WTVals Msgs.schema anyText (.msg 150) (s.outputs.map RingMember.value) := fun s => wtVals_of _ (by
    intro v hv; obtain ⟨m, _, rfl⟩ := List.mem_map.1 hv; exact wt_member m)
  have w4 : ∀ s : Src, WTVals Msgs.schema anyText .bytes (s.addKeys.map .bytes) := fun s => wtVals_of _ (by
    intro v hv; obtain ⟨m, _, rfl⟩ := List.mem_map.1 hv; trivial)
  obtain ⟨e1, h⟩ := dumpVals_prefix (by decide) _ _ (w1 a) (w1 b) p1 q1 (dumpVals_other (by decide) p2) (dumpVals_other (by decide) q2) h
  obtain ⟨e2, h⟩ := dumpOne_prefix (by decide) (by simp [WTValue]) (by simp [WTValue]) p2 q2 h
  obtain ⟨e3, h⟩ := dumpOne_prefix (by decide) (by simp [WTValue]) (by simp [WTValue]) p3 q3 h
  obtain ⟨e4, h⟩ := dumpVals_prefix (by decide) _ _ (w4 a) (w4 b) p4 q4 (dumpVals_other (by decide) p5) (dumpVals_other (by decide) q5) h
  obtain ⟨e5, h⟩ := dumpOne_prefix (by decide) (by simp [WTValue]) (by simp [WTValue]) p5 q5 h
  obtain ⟨e6, h⟩ := dumpOne_prefix (by decide) (by simp [WTValue]) (by simp [WTValue]) p6 q6 h
  obtain ⟨e7, h⟩ := dumpOne_prefix (by decide) (by simp [WTValue]) (by simp [WTValue]) p7 q7 h
  obtain ⟨e8, h⟩ := dumpOne_prefix (by decide) (by simp [WTValue]) (by simp [WTValue]) p8 q8 h
  have e1' : a.outputs = b.outputs := (List.map_injective_iff.2 fun _ _ => RingMember.value_inj) e1
  have e4' : a.addKeys = b.addKeys := (List.map_injective_iff.2 fun _ _ h => by injection h) e4
  simp only [Value.uint.injEq, Int.natCast_inj, Value.bytes.injEq, Value.bool.injEq] at e2 e3 e5 e6 e7 e8
  refine ⟨?_, h⟩
  rcases a with ⟨A1, A2, A3, A4, A5, A6, A7, A8, A9⟩
  rcases b with ⟨B1, B2, B3, B4, B5, B6, B7, B8, B9⟩
  dsimp only at *
  subst e1' e2 e3 e4' e5 e6 e7 e8
  rfl

end Verif.Signer
