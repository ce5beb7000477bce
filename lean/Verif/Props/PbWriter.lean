import Verif.Model.PbWriter
import Verif.Props.Protobuf

/-!
C131: the writer writes the encoding, the counter counts it.
-/

namespace Verif.Pb
open Verif

mutual
/-- The value meant: parts of bytes are put together. -/
def Item.value : Item → Value
  | .uint n => .uint n
  | .sint n => .sint n
  | .bool b => .bool b
  | .bytes b => .bytes b
  | .parts l => .bytes l.flatten
  | .str b => .str b
  | .msg slots => .msg (slotValues slots)
def itemValues : List Item → List Value
  | [] => []
  | v :: vs => v.value :: itemValues vs
def slotValues : List (List Item) → List (List Value)
  | [] => []
  | vs :: slots => itemValues vs :: slotValues slots
end

theorem write_write (w : Out) (a b : Bytes) : (w.write a).write b = w.write (a ++ b) := by
  cases w with
  | count n => simp only [Out.write, List.length_append, Nat.add_assoc]
  | stream s => simp only [Out.write, List.append_assoc]

theorem write_nil (w : Out) : w.write [] = w := by cases w <;> simp [Out.write]

theorem varintLoop_eq (n : Nat) : ∀ w, varintLoop n w = w.write (Varint.dumpNat n) := by
  induction n using Nat.strongRecOn with
  | _ n ih =>
    intro w
    rw [varintLoop, Varint.dumpNat]
    split
    · rfl
    · rename_i h
      rw [ih _ (by simp only [Nat.shiftRight_eq_div_pow] at h ⊢; omega), write_write]
      rfl

theorem writeVarint_eq (n : Int) (w : Out) : writeVarint n w = (Varint.dump n).map w.write := by
  unfold writeVarint Varint.dump
  split
  · rfl
  · rw [varintLoop_eq]; rfl

theorem writeVarint_nat (n : Nat) (w : Out) : writeVarint (n : Int) w = some (w.write (Varint.dumpNat n)) := by
  rw [writeVarint, if_neg (by omega), varintLoop_eq]; rfl

theorem foldl_write : ∀ (l : List Bytes) (w : Out), l.foldl Out.write w = w.write l.flatten := by
  intro l
  induction l with
  | nil => intro w; exact (write_nil w).symm
  | cons a l ih => intro w; rw [List.foldl_cons, ih, write_write]; rfl

theorem countParts_eq (l : List Bytes) : countParts l = l.flatten.length := by
  have : ∀ (l : List Bytes) (k : Nat), l.foldl (fun res x => res + x.length) k = k + l.flatten.length := by
    intro l
    induction l with
    | nil => intro k; rfl
    | cons a l ih => intro k; rw [List.foldl_cons, ih, List.flatten_cons, List.length_append]; omega
  rw [countParts, this]; omega

mutual
theorem writeValue_eq (S : Schema) : ∀ (v : Item) (t : FType) (w : Out), writeValue S t v w = (dumpValue S t v.value).map w.write
  | .uint n, t, w => by
    cases t <;> simp only [writeValue, Item.value, dumpValue, Option.map_none]
    exact writeVarint_eq _ _
  | .sint n, t, w => by
    cases t <;> simp only [writeValue, Item.value, dumpValue, Option.map_none]
    exact writeVarint_eq _ _
  | .bool b, t, w => by
    cases t <;> simp only [writeValue, Item.value, dumpValue, Option.map_none]
    exact writeVarint_eq _ _
  | .bytes b, t, w => by
    cases t <;> simp only [writeValue, Item.value, dumpValue, Option.map_none, writeVarint_nat, Option.map_some, write_write, lenPrefixed]
  | .parts l, t, w => by
    cases t <;> simp only [writeValue, Item.value, dumpValue, Option.map_none, writeVarint_nat, Option.map_some, foldl_write, write_write, lenPrefixed,
      countParts_eq]
  | .str b, t, w => by
    cases t <;> simp only [writeValue, Item.value, dumpValue, Option.map_none, writeVarint_nat, Option.map_some, write_write, lenPrefixed]
  | .msg slots, t, w => by
    cases t <;> simp only [writeValue, Item.value, dumpValue, Option.map_none]
    rw [writeSlots_eq S slots]
    rcases h : dumpSlots S (S _) (slotValues slots) with _ | b
    · rfl
    · have hs : ((Out.count 0).write b).size = b.length := Nat.zero_add _
      simp only [Option.map_some, Option.bind_some, hs, writeVarint_nat]
      rw [writeSlots_eq S slots, h]
      simp only [Option.map_some, lenPrefixed, write_write]
theorem writeVals_eq (S : Schema) : ∀ (vs : List Item) (f : Field) (w : Out), writeVals S f vs w = (dumpVals S f (itemValues vs)).map w.write
  | [], f, w => by simp only [writeVals, itemValues, dumpVals, Option.map_some, write_nil]
  | v :: vs, f, w => by
    simp only [writeVals, itemValues, dumpVals, writeVarint_nat, Option.bind_some]
    rw [writeValue_eq S v]
    rcases dumpValue S f.ty v.value with _ | a
    · rfl
    · simp only [Option.map_some, Option.bind_some]
      rw [writeVals_eq S vs]
      rcases dumpVals S f (itemValues vs) with _ | b
      · rfl
      · simp only [Option.map_some, write_write, List.append_assoc]
theorem writeSlots_eq (S : Schema) : ∀ (slots : List (List Item)) (fs : List Field) (w : Out),
    writeSlots S fs slots w = (dumpSlots S fs (slotValues slots)).map w.write
  | [], fs, w => by simp only [writeSlots, slotValues, dumpSlots, Option.map_some, write_nil]
  | vs :: slots, [], w => by simp only [writeSlots, slotValues, dumpSlots, Option.map_none]
  | vs :: slots, f :: fs, w => by
    simp only [writeSlots, slotValues, dumpSlots]
    rw [writeVals_eq S vs]
    rcases dumpVals S f (itemValues vs) with _ | a
    · rfl
    · simp only [Option.map_some, Option.bind_some]
      rw [writeSlots_eq S slots]
      rcases dumpSlots S fs (slotValues slots) with _ | b
      · rfl
      · simp only [Option.map_some, write_write]
end

/-- C131. What is written to a stream is what was there before and then the encoding of the message, of whatever parts its bytes values are made; nothing
is written for a message that has none. -/
theorem C131_stream (S : Schema) (name : Nat) (slots : List (List Item)) (before : Bytes) (w : Out) :
    writeMessage S name slots (.stream before) = some w ↔ ∃ b, dumpMessage S name (slotValues slots) = some b ∧ w = .stream (before ++ b) := by
  rw [writeMessage, writeSlots_eq, dumpMessage, Option.map_eq_some_iff]
  exact exists_congr fun b => and_congr_right fun _ => eq_comm

/-- C131. The counter counts the bytes that a stream would get, through all levels of nesting. -/
theorem C131_count (S : Schema) (name : Nat) (slots : List (List Item)) (b : Bytes) (h : writeMessage S name slots (.stream []) = some (.stream b)) (n : Nat) :
    writeMessage S name slots (.count n) = some (.count (n + b.length)) := by
  obtain ⟨b', h1, h2⟩ := (C131_stream S name slots [] _).1 h
  cases h2
  rw [writeMessage, writeSlots_eq, ← dumpMessage, h1]
  rfl

/-- C131. A message written in parts is read back as the message with the parts put together. -/
theorem C131_read_back {S : Schema} (hS : SchemaOk S) (utf8 : Bytes → Bool) (name : Nat) (slots : List (List Item))
    (hw : WTMessage S utf8 name (slotValues slots)) :
    ∃ b, writeMessage S name slots (.stream []) = some (.stream b) ∧ loadMessage S utf8 name b = some (slotValues slots) := by
  obtain ⟨b, h1, h2⟩ := C21_roundtrip hS utf8 name _ hw
  exact ⟨b, (C131_stream S name slots [] _).2 ⟨b, h1, rfl⟩, h2⟩

/-- Two classes: a number with a nested message, and bytes. -/
def Demo.nested : Schema := fun n => if n = 0 then [⟨1, .uvarint, false⟩, ⟨2, .msg 1, true⟩] else [⟨3, .bytes, false⟩]

example : ∃ b, writeMessage Demo.nested 0 [[.uint 300], [.msg [[.parts [[1, 2], [], [3]]]], .msg [[]]]] (.stream [7]) = some (.stream (7 :: b)) ∧
    b = [8, 172, 2, 18, 5, 26, 3, 1, 2, 3, 18, 0] := ⟨_, by decide +kernel, rfl⟩

/-- C131 is false of the size that a message reports: it is 0 for every message, so it is right only for those without any value. -/
theorem C131_false_size : ∃ (S : Schema) (name : Nat) (slots : List (List Item)) (b : Bytes),
    writeMessage S name slots (.stream []) = some (.stream b) ∧ b.length = 12 ∧ byteSize slots = 0 :=
  ⟨Demo.nested, 0, [[.uint 300], [.msg [[.parts [[1, 2], [], [3]]]], .msg [[]]]], [8, 172, 2, 18, 5, 26, 3, 1, 2, 3, 18, 0], by decide +kernel, rfl, rfl⟩

end Verif.Pb
