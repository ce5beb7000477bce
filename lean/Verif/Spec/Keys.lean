import Verif.Model.Key

/-! Vocabulary of the properties about one-time keys. -/

namespace Verif.Key
open Verif Ed

/-- Every entry of the recipient's table is right: it maps the encoded spend key of a sub-address to its index. -/
def Table.Valid (H : Bytes → Bytes) (a : Int) (S : Ext) (t : Table) : Prop :=
  ∀ (k : Bytes) (idx : Nat × Nat), t.get k = some idx → ∃ D, subSpendPub H a S idx.1 idx.2 = some D ∧ encodePoint D = k

/-- The additional public keys published with the transaction, in the order of the outputs. -/
def publishedKeys (os : List OutKeys) : List Bytes := os.filterMap fun o => o.additional.map encodePoint

/-- Decoding a list of published keys. -/
def decodeAll : List Bytes → Option (List Ext)
  | [] => some []
  | k :: ks => match decodePoint k, decodeAll ks with
    | some P, some Ps => some (P :: Ps)
    | _, _ => none

/-- Sum of shared-secret key and address key: what the recipient's secret has to open. -/
def Opens (x : Int) (P : Ext) : Prop := 0 ≤ x ∧ x < l ∧ pointEqual (scalarmultB x) P = true

end Verif.Key
