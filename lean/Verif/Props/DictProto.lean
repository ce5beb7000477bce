import Verif.Lemmas.DictProto
import Mathlib.Tactic.IntervalCases

/-! C118: messages from dictionaries. -/

namespace Verif.Pb
open Verif

/-- C118. A dictionary that spells a message is read as that message, whatever else it contains and however Python converts other values, if the
message is not nested deeper than Python's recursion limit allows. -/
theorem C118_reads (S : Schema) (names : Nat → Nat → Bytes) (L : PyLib) (fuel name : Nat) (slots : List (List Value)) (p : Py)
    (h : Spells S names (.msg name) (.msg slots) p) (hd : depth (.msg slots) ≤ fuel) : dictToProto S names L fuel name p = some (.msg slots) :=
  reads_value L fuel (.msg slots) (.msg name) p h hd

/-- C118. The dictionary of a message is read as the message, so it has the same bytes. -/
theorem C118_roundtrip (S : Schema) (names : Nat → Nat → Bytes) (hn : ∀ name, ((S name).map fun f => names name f.tag).Nodup) (L : PyLib)
    (fuel name : Nat) (slots : List (List Value)) (h : FitsSlots S (S name) slots) (hd : depth (.msg slots) ≤ fuel) :
    dictToProto S names L fuel name (toPy S names (.msg name) (.msg slots)) = some (.msg slots) :=
  C118_reads S names L fuel name slots _ (toPy_spells hn (.msg slots) (.msg name) (by rw [Fits]; exact h)) hd

/-- C118. Two messages are never spelled by the same dictionary. -/
theorem C118_unambiguous (S : Schema) (names : Nat → Nat → Bytes) (name : Nat) (a b : List (List Value)) (p : Py)
    (ha : Spells S names (.msg name) (.msg a) p) (hb : Spells S names (.msg name) (.msg b) p) : a = b := by
  have h1 := C118_reads S names ⟨fun _ => none, fun _ => [], fun _ => []⟩ (max (depth (.msg a)) (depth (.msg b))) name a p ha (le_max_left _ _)
  have h2 := C118_reads S names ⟨fun _ => none, fun _ => [], fun _ => []⟩ (max (depth (.msg a)) (depth (.msg b))) name b p hb (le_max_right _ _)
  rw [h1] at h2
  simpa using h2

/-- C118. Whatever is accepted has the types of its class: every value is of the type of its field, and only repeated fields have several. -/
theorem C118_typed_partial (S : Schema) (names : Nat → Nat → Bytes) (L : PyLib) (fuel name : Nat) (p : Py) (v : Value)
    (h : dictToProto S names L fuel name p = some v) : ∃ slots, v = .msg slots ∧ FitsSlots S (S name) slots := by
  have := fits_dict S names L fuel name p v h
  cases v <;> simp only [Fits] at this
  exact ⟨_, rfl, this⟩

/-! ## Where it goes wrong -/

/-- A class with a number, a flag, text, bytes and messages of the same class. -/
def dictSchema : Schema := fun _ => [⟨1, .uvarint, false⟩, ⟨2, .bool, false⟩, ⟨3, .unicode, true⟩, ⟨4, .bytes, false⟩, ⟨5, .msg 0, true⟩]
def dictNames : Nat → Nat → Bytes := fun _ t => [0x66, UInt8.ofNat t]

/-- C118 is false of numbers: a negative one is accepted for an unsigned field, and the message cannot be written afterwards. -/
theorem C118_false_negative (L : PyLib) : ∃ p slots, dictToProto dictSchema dictNames L 1 0 p = some (.msg slots) ∧ dumpMessage dictSchema 0 slots = none :=
  ⟨.dict [([0x66, 1], .int (-1))], [[.uint (-1)], [], [], [], []], rfl, rfl⟩

/-- C118 is false of flags: every text but the empty one, the text `false` included, is read as true. -/
theorem C118_false_flag (L : PyLib) (t : Bytes) (ht : t ≠ []) :
    dictToProto dictSchema dictNames L 1 0 (.dict [([0x66, 2], .str t)]) = some (.msg [[], [.bool true], [], [], []]) := by
  cases t with
  | nil => exact absurd rfl ht
  | cons c t => rfl

/-- C118 is false of repeated text: a text given for a list of texts is taken apart into its characters. -/
theorem C118_false_characters (L : PyLib) (t : Bytes) :
    dictToProto dictSchema dictNames L 1 0 (.dict [([0x66, 3], .str t)]) = some (.msg [[], [], (L.chars t).map .str, [], []]) := by
  have h : ((L.chars t).map Py.str).mapM (valueToProto L .unicode) = some ((L.chars t).map Value.str) := by
    induction L.chars t with
    | nil => rfl
    | cons c cs ih => rw [List.map_cons, List.mapM_cons, ih]; rfl
  rw [dictToProto_dict]
  have e : ∀ n, n ≠ 3 → n < 6 → Py.get [([0x66, 3], Py.str t)] (dictNames 0 n) = .none := by
    intro n hn h6
    interval_cases n <;> first | rfl | exact absurd rfl hn
  have e3 : Py.get [([0x66, 3], Py.str t)] (dictNames 0 3) = .str t := rfl
  have e0 : ∀ g r, dictField L g r .none = some [] := fun _ _ => rfl
  simp only [dictSchema, List.mapM_cons, List.mapM_nil, e 1 (by omega) (by omega), e 2 (by omega) (by omega), e 4 (by omega) (by omega),
    e 5 (by omega) (by omega), e3, e0]
  have h3 : dictField L (conv dictSchema dictNames L 0 .unicode) true (.str t) = some ((L.chars t).map .str) := h
  rw [h3]
  rfl

/-- A nested message with every kind of field, as a dictionary with an entry too many. -/
def dictPy : Py := .dict [([0x7a], .int 3), ([0x66, 1], .int 77), ([0x66, 3], .list [.str [0x61], .str []]), ([0x66, 2], .none),
  ([0x66, 5], .list [.dict [([0x66, 4], .str [0x30, 0x66, 0x46, 0x31])], .dict []])]
def dictMsg : List (List Value) := [[.uint 77], [], [.str [0x61], .str []], [], [.msg [[], [], [], [.bytes [0x0f, 0xf1]], []], .msg [[], [], [], [], []]]]

theorem dict_spells : Spells dictSchema dictNames (.msg 0) (.msg dictMsg) dictPy := by
  have hx : Hd.unhexText [0x30, 0x66, 0x46, 0x31] = some [0x0f, 0xf1] := by decide +kernel
  simp [Spells, SpellsSlots, SpellsAll, dictSchema, dictNames, dictMsg, dictPy, List.lookup, hx]
  rintro a b (⟨rfl, -⟩ | ⟨rfl, -⟩ | ⟨rfl, -⟩ | ⟨rfl, -⟩ | ⟨rfl, -⟩) <;> decide

example (L : PyLib) : dictToProto dictSchema dictNames L 2 0 dictPy = some (.msg dictMsg) :=
  C118_reads dictSchema dictNames L 2 0 dictMsg dictPy dict_spells (by decide)

example : (∀ name, ((dictSchema name).map fun f => dictNames name f.tag).Nodup) ∧ FitsSlots dictSchema (dictSchema 0) dictMsg := by
  refine ⟨fun name => by simp [dictSchema, dictNames], ?_⟩
  simp [dictSchema, dictMsg, Fits, FitsSlots, FitsVals]

end Verif.Pb
