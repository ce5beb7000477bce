import Verif.Model.DictProto

/-! When a dictionary spells out a message. -/

namespace Verif.Pb
open Verif

mutual
/-- `p` spells the value `v` of a field of type `t`: numbers, truth values and text are themselves, bytes are bytes or hex text, a message is a
dictionary with its fields. -/
def Spells (S : Schema) (names : Nat → Nat → Bytes) : FType → Value → Py → Prop
  | .uvarint, .uint n, p => p = .int n
  | .svarint, .sint n, p => p = .int n
  | .bool, .bool b, p => p = .bool b
  | .unicode, .str t, p => p = .str t
  | .bytes, .bytes b, p => p = .bytes b ∨ ∃ t, p = .str t ∧ Hd.unhexText t = some b
  | .msg name, .msg slots, p => ∃ d, p = .dict d ∧ SpellsSlots S names name (S name) slots d
  | _, _, _ => False

/-- Every field of the class is spelled under its name: one without value is missing or `None`, the values of a repeated field are a list, a
single value is itself. Other entries of the dictionary do not matter. -/
def SpellsSlots (S : Schema) (names : Nat → Nat → Bytes) (name : Nat) : List Field → List (List Value) → List (Bytes × Py) → Prop
  | [], [], _ => True
  | f :: fs, vs :: slots, d =>
    ((vs = [] ∧ (d.lookup (names name f.tag) = none ∨ d.lookup (names name f.tag) = some .none)) ∨
      (f.rep = true ∧ ∃ l, d.lookup (names name f.tag) = some (.list l) ∧ SpellsAll S names f.ty vs l) ∨
      (f.rep = false ∧ ∃ p, d.lookup (names name f.tag) = some p ∧ SpellsAll S names f.ty vs [p])) ∧ SpellsSlots S names name fs slots d
  | _, _, _ => False

/-- Value by value. -/
def SpellsAll (S : Schema) (names : Nat → Nat → Bytes) : FType → List Value → List Py → Prop
  | _, [], [] => True
  | t, v :: vs, p :: ps => Spells S names t v p ∧ SpellsAll S names t vs ps
  | _, _, _ => False
end

mutual
/-- Nesting of messages. -/
def depth : Value → Nat
  | .msg slots => depthSlots slots + 1
  | _ => 0
def depthSlots : List (List Value) → Nat
  | [] => 0
  | vs :: slots => max (depthVals vs) (depthSlots slots)
def depthVals : List Value → Nat
  | [] => 0
  | v :: vs => max (depth v) (depthVals vs)
end

mutual
/-- The dictionary of a message, bytes as hex text, every field present. -/
def toPy (S : Schema) (names : Nat → Nat → Bytes) : FType → Value → Py
  | .msg name, .msg slots => .dict (toDict S names name (S name) slots)
  | _, .uint n => .int n
  | _, .sint n => .int n
  | _, .bool b => .bool b
  | _, .str t => .str t
  | _, .bytes b => .str ((Mnemonic.hexlify b).map Hd.hexChar)
  | _, .msg _ => .none
def toDict (S : Schema) (names : Nat → Nat → Bytes) (name : Nat) : List Field → List (List Value) → List (Bytes × Py)
  | f :: fs, vs :: slots =>
    (names name f.tag, if f.rep then .list (allPy S names f.ty vs) else (allPy S names f.ty vs).headD .none) :: toDict S names name fs slots
  | _, _ => []
def allPy (S : Schema) (names : Nat → Nat → Bytes) : FType → List Value → List Py
  | _, [] => []
  | t, v :: vs => toPy S names t v :: allPy S names t vs
end

mutual
/-- The value has the type of its field (its sign and the validity of its text aside). -/
def Fits (S : Schema) : FType → Value → Prop
  | .uvarint, .uint _ => True
  | .svarint, .sint _ => True
  | .bool, .bool _ => True
  | .bytes, .bytes _ => True
  | .unicode, .str _ => True
  | .msg name, .msg slots => FitsSlots S (S name) slots
  | _, _ => False
def FitsSlots (S : Schema) : List Field → List (List Value) → Prop
  | [], [] => True
  | f :: fs, vs :: slots => (f.rep = true ∨ vs.length ≤ 1) ∧ FitsVals S f.ty vs ∧ FitsSlots S fs slots
  | _, _ => False
def FitsVals (S : Schema) : FType → List Value → Prop
  | _, [] => True
  | t, v :: vs => Fits S t v ∧ FitsVals S t vs
end

end Verif.Pb
