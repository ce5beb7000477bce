import Verif.Lemmas.Protobuf

/-! C21, C22: wire messages. -/

namespace Verif.Pb
open Verif

theorem loadLoop_end (S : Schema) (utf8 : Bytes → Bool) (fuel : Nat) (fs : List Field) (slots : List (List Value)) :
    loadLoop S utf8 (fuel + 1) fs slots ⟨[], none⟩ = some (slots, ⟨[], none⟩) := by
  rw [loadLoop]
  simp [Reader.uvarint, Reader.vis, Varint.load, Varint.loadAux, Reader.skip]

theorem wt_length (S : Schema) (utf8 : Bytes → Bool) (fs : List Field) (s : List (List Value)) (h : WTSlots S utf8 fs s) :
    s.length = fs.length := by
  induction fs generalizing s with
  | nil => cases s with
    | nil => rfl
    | cons _ _ => simp [WTSlots] at h
  | cons f fs ih => cases s with
    | nil => simp [WTSlots] at h
    | cons v s => simp only [WTSlots] at h; simp [ih s h.2.2]

/-- The model's bound on loop iterations is no restriction: any larger bound gives the same result. -/
theorem loadMessage_bound (S : Schema) (utf8 : Bytes → Bool) (name : Nat) (bs : Bytes) (fuel : Nat) (h : bs.length < fuel) :
    loadMessage S utf8 name bs = (loadLoop S utf8 fuel (S name) ((S name).map fun _ => []) ⟨bs, none⟩).map (·.1) := by
  unfold loadMessage
  rw [(load_fuel S utf8 (2 * bs.length + 2) fuel).1 _ _ _ (by simp only; omega) h]

/-- C21. For every schema and every well-typed message (missing values are empty entries): it can be serialised, and
parsing the result gives the same message back. -/
theorem C21_roundtrip {S : Schema} (hS : SchemaOk S) (utf8 : Bytes → Bool) (name : Nat) (slots : List (List Value))
    (hw : WTMessage S utf8 name slots) :
    ∃ bs, dumpMessage S name slots = some bs ∧ loadMessage S utf8 name bs = some slots := by
  obtain ⟨bs, hb⟩ := dump_slots slots (S name) hw
  refine ⟨bs, hb, ?_⟩
  obtain ⟨fuel, h1, h2⟩ := load_slots hS slots [] (S name) [] [] [] bs [] none (bs.length + 1) (by simpa using hS name) hw hb rfl
    (fun l h => by simp at h) (by simp)
  rw [loadMessage_bound S utf8 name bs (bs.length + 1) (by omega)]
  simp only [List.nil_append, List.append_nil, Option.map_none] at h2
  rw [h2]
  obtain ⟨k, rfl⟩ : ∃ k, fuel = k + 1 := ⟨fuel - 1, by omega⟩
  rw [loadLoop_end]; rfl

/-- C21. Different well-typed messages have different serialisations. -/
theorem C21_injective {S : Schema} (hS : SchemaOk S) (utf8 : Bytes → Bool) (name : Nat) (a b : List (List Value))
    (ha : WTMessage S utf8 name a) (hb : WTMessage S utf8 name b) (h : dumpMessage S name a = dumpMessage S name b) : a = b := by
  obtain ⟨x, h1, h2⟩ := C21_roundtrip hS utf8 name a ha
  obtain ⟨y, h3, h4⟩ := C21_roundtrip hS utf8 name b hb
  rw [h1, h3] at h
  simp at h; subst h
  rw [h2] at h4
  simpa using h4

/-- Serialised field that a class does not know: an integer or a length-prefixed value under a tag that is not in use. -/
def UnknownField (fs : List Field) (enc : Bytes) : Prop :=
  ∃ tag, (∀ f ∈ fs, f.tag ≠ tag) ∧
    ((∃ n, enc = Varint.dumpNat (tag * 8) ++ Varint.dumpNat n) ∨ ∃ b, enc = Varint.dumpNat (tag * 8 + 2) ++ lenPrefixed b)

/-- C21. Unknown fields between the known ones are skipped. -/
theorem C21_unknown_skipped {S : Schema} (hS : SchemaOk S) (utf8 : Bytes → Bool) (name : Nat) (f1 f2 : List Field)
    (hfs : S name = f1 ++ f2) (s1 s2 : List (List Value)) (h1 : WTSlots S utf8 f1 s1) (h2 : WTSlots S utf8 f2 s2)
    (b1 b2 : Bytes) (hb1 : dumpSlots S f1 s1 = some b1) (hb2 : dumpSlots S f2 s2 = some b2)
    (us : List Bytes) (hu : ∀ u ∈ us, UnknownField (S name) u) :
    loadMessage S utf8 name (b1 ++ us.flatten ++ b2) = some (s1 ++ s2) := by
  have hnd : ((f1 ++ f2).map (·.tag)).Nodup := hfs ▸ hS name
  rw [loadMessage_bound S utf8 name _ ((b1 ++ us.flatten ++ b2).length + 1) (by omega), hfs, List.append_assoc]
  obtain ⟨fuel, q1, q2⟩ := load_slots hS s1 [] f1 f2 [] (f2.map fun _ => []) b1 (us.flatten ++ b2) none
    ((b1 ++ (us.flatten ++ b2)).length + 1) (by simpa using hnd) h1 hb1 rfl (fun l h => by simp at h) (by simp)
  simp only [List.nil_append, Option.map_none, ← List.map_append] at q2
  rw [q2]
  have skip : ∀ (us : List Bytes), (∀ u ∈ us, UnknownField (f1 ++ f2) u) → ∀ (fuel : Nat) (slots : List (List Value)),
      (us.flatten ++ b2).length < fuel → ∃ fuel', b2.length < fuel' ∧
        loadLoop S utf8 fuel (f1 ++ f2) slots ⟨us.flatten ++ b2, none⟩ = loadLoop S utf8 fuel' (f1 ++ f2) slots ⟨b2, none⟩ := by
    intro us
    induction us with
    | nil => intro _ fuel slots hl; exact ⟨fuel, by simpa using hl, by simp⟩
    | cons u us ih =>
      intro hu fuel slots hl
      obtain ⟨tag, ht, henc⟩ := hu u (List.mem_cons_self ..)
      have hpos : 0 < u.length := by
        rcases henc with ⟨n, rfl⟩ | ⟨b, rfl⟩
        · have := dumpNat_len_pos (tag * 8); simp; omega
        · have := dumpNat_len_pos (tag * 8 + 2); simp; omega
      rw [List.flatten_cons, List.append_assoc, List.length_append] at hl
      obtain ⟨k, rfl⟩ : ∃ k, fuel = k + 1 := ⟨fuel - 1, by omega⟩
      obtain ⟨fuel', g1, g2⟩ := ih (fun u h => hu u (List.mem_cons_of_mem _ h)) k slots (by omega)
      refine ⟨fuel', g1, ?_⟩
      rw [List.flatten_cons, List.append_assoc, loadLoop_unknown ht henc (fun l h => by simp at h), Option.map_none, g2]
  obtain ⟨fuel2, q3, q4⟩ := skip us (hfs ▸ hu) fuel (s1 ++ f2.map fun _ => []) q1
  rw [q4]
  have hlen := wt_length S utf8 f1 s1 h1
  obtain ⟨fuel3, q5, q6⟩ := load_slots hS s2 f1 f2 [] s1 [] b2 [] none fuel2 (by simpa using hnd) h2 hb2 hlen
    (fun l h => by simp at h) (by simpa using q3)
  simp only [List.append_nil, Option.map_none] at q6
  rw [q6]
  obtain ⟨k, rfl⟩ : ∃ k, fuel3 = k + 1 := ⟨fuel3 - 1, by omega⟩
  rw [loadLoop_end]; rfl

/-- C22, partial: a message cut inside the integer behind a field key (a scalar value or the length of a bytes, text or nested value) is
rejected. Missing: cuts elsewhere, which are accepted (`C22_false`, `C22_false_key`). -/
theorem C22_truncated_partial {S : Schema} (hS : SchemaOk S) (utf8 : Bytes → Bool) (name : Nat) (f1 f2 : List Field) (f : Field)
    (hfs : S name = f1 ++ f :: f2) (s1 : List (List Value)) (h1 : WTSlots S utf8 f1 s1) (b1 : Bytes)
    (hb1 : dumpSlots S f1 s1 = some b1) (n : Nat) (p s : Bytes) (hp : Varint.dumpNat n = p ++ s) (hs : s ≠ []) :
    loadMessage S utf8 name (b1 ++ (Varint.dumpNat f.key ++ p)) = none := by
  have hnd : ((f1 ++ f :: f2).map (·.tag)).Nodup := hfs ▸ hS name
  rw [loadMessage_bound S utf8 name _ ((b1 ++ (Varint.dumpNat f.key ++ p)).length + 1) (by omega), hfs]
  obtain ⟨fuel, q1, q2⟩ := load_slots hS s1 [] f1 (f :: f2) [] ((f :: f2).map fun _ => []) b1 (Varint.dumpNat f.key ++ p) none
    ((b1 ++ (Varint.dumpNat f.key ++ p)).length + 1) (by simpa using hnd) h1 hb1 rfl (fun l h => by simp at h) (by simp)
  simp only [List.nil_append, Option.map_none, ← List.map_append] at q2
  rw [q2]
  obtain ⟨k, rfl⟩ : ∃ k, fuel = k + 1 := ⟨fuel - 1, by omega⟩
  rw [loadLoop, uvarint_dump _ _ (fun l h => by simp at h)]
  have hu : (⟨p, none⟩ : Reader).uvarint = none := by
    have := Varint.C19_uvarint_truncated_rejected (n : Int) (Varint.dumpNat n) p s (by simp [Varint.dump]) hp hs
    simp [Reader.uvarint, Reader.vis, this]
  simp only [key_tag, key_wire, findIdx_tag f1 f f2 hnd, Option.map_none, hu]
  simp

/-- Example schema: class 0 has an integer, a repeated bytes field and a nested message of class 1; class 1 has an integer. -/
def demoS : Schema
  | 0 => [⟨1, .uvarint, false⟩, ⟨3, .bytes, true⟩, ⟨20, .msg 1, false⟩]
  | 1 => [⟨2, .svarint, false⟩, ⟨5, .unicode, true⟩]
  | _ => []

theorem demoS_ok : SchemaOk demoS := by
  intro name
  match name with
  | 0 => decide
  | 1 => decide
  | n + 2 => exact List.nodup_nil

def demoMsg : List (List Value) := [[], [.bytes [1, 2, 3], .bytes []], [.msg [[.sint (-3)], [.str [0x61]]]]]

example : WTMessage demoS (fun _ => true) 0 demoMsg := by simp [WTMessage, demoMsg, demoS, WTSlots, WTVals, WTValue]

/-- C22 is false: cutting a serialised message inside a bytes value is accepted, the missing bytes are read as zeros. -/
theorem C22_false : ∃ (S : Schema) (utf8 : Bytes → Bool) (a b : List (List Value)) (bs : Bytes) (k : Nat), SchemaOk S ∧
    WTMessage S utf8 0 a ∧ dumpMessage S 0 a = some bs ∧ k < bs.length ∧ loadMessage S utf8 0 (bs.take k) = some b ∧
    a = [[], [.bytes [1, 2, 3]], []] ∧ b = [[], [.bytes [1, 0, 0]], []] := by
  refine ⟨demoS, fun _ => true, [[], [.bytes [1, 2, 3]], []], _, [26, 3, 1, 2, 3], 3, demoS_ok, ?_, ?_, by decide, ?_, rfl, rfl⟩
  · simp [WTMessage, demoS, WTSlots, WTVals, WTValue]
  · decide +kernel
  · rfl

/-- Cutting inside a field key of more than one byte is accepted too: the field is missing from the result, without an error. -/
theorem C22_false_key : ∃ bs, dumpMessage demoS 0 [[.uint 7], [], [.msg [[], []]]] = some bs ∧
    loadMessage demoS (fun _ => true) 0 (bs.take 3) = some [[.uint 7], [], []] ∧ 3 < bs.length :=
  ⟨[8, 7, 162, 1, 0], by decide +kernel, by rfl, by decide⟩

/-- A nested message that announces more bytes than the stream has is accepted. -/
theorem C22_false_nested : loadMessage demoS (fun _ => true) 0 [162, 1, 100, 16, 5] = some [[], [], [.msg [[.sint (-3)], []]]] := by
  rfl

/-- But inside a nested message a bytes value cannot reach beyond the announced end of that message. -/
theorem C22_nested_limit (S : Schema) (utf8 : Bytes → Bool) (fuel : Nat) (r : Reader) (l n : Nat) (hl : r.lim = some l) (hn : l < n) :
    loadValue S utf8 fuel .bytes n r = none := by
  cases fuel <;> simp [loadValue, Reader.bytes, hl, hn]

/-! The authentication tag for an input covers `serialised source entry ++ input`, without a length in between (see C05). With the
real message class the boundary between the two is not determined by the bytes: -/

/-- `MoneroOutputEntry` (1), `MoneroTransactionSourceEntry` (2), `MoneroMultisigKLRki` (3), `MoneroRctKeyPublic` (4), monero_glue/messages/. -/
def sourceS : Schema
  | 1 => [⟨1, .uvarint, false⟩, ⟨2, .msg 4, false⟩]
  | 2 => [⟨1, .msg 1, true⟩, ⟨2, .uvarint, false⟩, ⟨3, .bytes, false⟩, ⟨4, .bytes, true⟩, ⟨5, .uvarint, false⟩,
      ⟨6, .uvarint, false⟩, ⟨7, .bool, false⟩, ⟨8, .bytes, false⟩, ⟨9, .msg 3, false⟩, ⟨10, .uvarint, false⟩]
  | 3 => [⟨1, .bytes, false⟩, ⟨2, .bytes, false⟩, ⟨3, .bytes, false⟩, ⟨4, .bytes, false⟩]
  | 4 => [⟨1, .bytes, false⟩, ⟨2, .bytes, false⟩]
  | _ => []

/-- For every source entry with a sub-address index there is another source entry and another input with the same bytes: the last field moves
over to the input. -/
theorem C05_boundary_not_unique (utf8 : Bytes → Bool) (slots : List (List Value)) (n : Nat) (vini : Bytes)
    (hw : WTMessage sourceS utf8 2 (slots ++ [[.uint n]])) :
    ∃ e e' vini', dumpMessage sourceS 2 (slots ++ [[.uint n]]) = some e ∧ WTMessage sourceS utf8 2 (slots ++ [[]]) ∧
      dumpMessage sourceS 2 (slots ++ [[]]) = some e' ∧ vini' ≠ vini ∧ e ++ vini = e' ++ vini' := by
  have key : ∀ (fs : List Field) (f : Field) (s : List (List Value)), f.ty = .uvarint → s.length = fs.length →
      WTSlots sourceS utf8 (fs ++ [f]) (s ++ [[.uint n]]) →
      WTSlots sourceS utf8 (fs ++ [f]) (s ++ [[]]) ∧ ∃ e', dumpSlots sourceS (fs ++ [f]) (s ++ [[]]) = some e' ∧
        dumpSlots sourceS (fs ++ [f]) (s ++ [[.uint n]]) = some (e' ++ (Varint.dumpNat f.key ++ Varint.dumpNat n)) := by
    intro fs f
    induction fs with
    | nil =>
      intro s hf hl h
      simp at hl; subst hl
      refine ⟨by simp [WTSlots, WTVals], [], by simp [dumpSlots, dumpVals], ?_⟩
      obtain ⟨tag, ty, rep⟩ := f
      simp only at hf; subst hf
      have hd : Varint.dump (n : Int) = some (Varint.dumpNat n) := by
        have hn : ¬ (n : Int) < 0 := by omega
        simp [Varint.dump, hn]
      simp [dumpSlots, dumpVals, dumpValue, hd]
    | cons g fs ih =>
      intro s hf hl h
      cases s with
      | nil => simp at hl
      | cons v s =>
        simp only [List.cons_append, WTSlots] at h
        obtain ⟨w, e', h1, h2⟩ := ih s hf (by simpa using hl) h.2.2
        obtain ⟨a, ha⟩ := dump_vals v g h.2.1
        refine ⟨by simp only [List.cons_append, WTSlots]; exact ⟨h.1, h.2.1, w⟩, a ++ e', ?_, ?_⟩
        · simp [dumpSlots, ha, h1]
        · simp [dumpSlots, ha, h2]
  have hl := wt_length _ _ _ _ hw
  obtain ⟨w, e', h1, h2⟩ := key [⟨1, .msg 1, true⟩, ⟨2, .uvarint, false⟩, ⟨3, .bytes, false⟩, ⟨4, .bytes, true⟩, ⟨5, .uvarint, false⟩,
      ⟨6, .uvarint, false⟩, ⟨7, .bool, false⟩, ⟨8, .bytes, false⟩, ⟨9, .msg 3, false⟩] ⟨10, .uvarint, false⟩ slots rfl
      (by simpa [sourceS] using hl) hw
  refine ⟨_, e', Varint.dumpNat (Field.key ⟨10, .uvarint, false⟩) ++ Varint.dumpNat n ++ vini, h2, w, h1, ?_, by simp⟩
  intro h
  have := congrArg List.length h
  have hp := dumpNat_len_pos n
  simp at this
  omega

end Verif.Pb
