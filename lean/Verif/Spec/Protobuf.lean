import Verif.Model.Protobuf

/-! Well-formed schemas and well-typed messages. -/

namespace Verif.Pb
open Verif

/-- Field tags of a class are the keys of a dictionary, hence different. -/
def SchemaOk (S : Schema) : Prop := ∀ name, ((S name).map (·.tag)).Nodup

mutual
/-- A value of a field type: unsigned integers are not negative, text is text. -/
def WTValue (S : Schema) (utf8 : Bytes → Bool) : FType → Value → Prop
  | .uvarint, .uint n => 0 ≤ n
  | .svarint, .sint _ => True
  | .bool, .bool _ => True
  | .bytes, .bytes _ => True
  | .unicode, .str b => utf8 b = true
  | .msg name, .msg slots => WTSlots S utf8 (S name) slots
  | _, _ => False

def WTVals (S : Schema) (utf8 : Bytes → Bool) : FType → List Value → Prop
  | _, [] => True
  | t, v :: vs => WTValue S utf8 t v ∧ WTVals S utf8 t vs

/-- One entry per field; at most one value in fields that are not repeated. -/
def WTSlots (S : Schema) (utf8 : Bytes → Bool) : List Field → List (List Value) → Prop
  | [], [] => True
  | f :: fs, vs :: slots => (f.rep = true ∨ vs.length ≤ 1) ∧ WTVals S utf8 f.ty vs ∧ WTSlots S utf8 fs slots
  | _, _ => False
end

/-- A well-typed message of class `name`. -/
def WTMessage (S : Schema) (utf8 : Bytes → Bool) (name : Nat) (slots : List (List Value)) : Prop :=
  WTSlots S utf8 (S name) slots

end Verif.Pb
