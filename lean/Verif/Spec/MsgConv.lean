import Verif.Model.MsgConv

/-!
C104: the same message in classes of another package.
-/

namespace Verif.MsgConv
open Verif

mutual
/-- The same content, with the classes taken from the packages `f` says and byte arrays made byte strings. -/
def relabel (f : Lib → Lib) : PyVal → PyVal
  | .bytearray b => .bytes b
  | .list l => .list (relabelList f l)
  | .msg lib c a => .msg (f lib) c (relabelAttrs f a)
  | .none => .none
  | .int n => .int n
  | .str s => .str s
  | .bytes b => .bytes b
def relabelList (f : Lib → Lib) : List PyVal → List PyVal
  | [] => []
  | v :: l => relabel f v :: relabelList f l
def relabelAttrs (f : Lib → Lib) : List (String × PyVal) → List (String × PyVal)
  | [] => []
  | (n, v) :: a => (n, relabel f v) :: relabelAttrs f a
end

/-- The message in classes of one package. -/
def inLib (lib : Lib) (v : PyVal) : PyVal := relabel (fun _ => lib) v

/-- What a reader of attributes sees, whatever the classes. -/
def content (v : PyVal) : PyVal := inLib .ours v

def IsBytes : PyVal → Prop
  | .bytes _ => True
  | .bytearray _ => True
  | _ => False

/-- Fields described as bytes hold bytes (or byte arrays), or are absent. -/
def Typed : Kind → PyVal → Prop
  | _, .none => True
  | .bytes, v => IsBytes v
  | .bytesList, .list l => ∀ x ∈ l, IsBytes x
  | .bytesList, _ => False
  | _, _ => True

/-- Values of nesting up to the limit, all messages of classes of one package, known with the same fields in both packages. -/
def Wf (sch : Schema) (lib : Lib) : Nat → PyVal → Prop
  | 0, .list _ => False
  | n + 1, .list l => ∀ x ∈ l, Wf sch lib n x
  | 0, .msg _ _ _ => False
  | n + 1, .msg lib' c a => lib' = lib ∧ ∃ fs : List (String × Kind), (∀ L, sch L c = some fs) ∧ (fs.map Prod.fst).Nodup ∧
      fs.map Prod.fst = a.map Prod.fst ∧ ∀ x ∈ fs.zip a, Typed x.1.2 x.2.2 ∧ Wf sch lib n x.2.2
  | _, _ => True

/-- No message inside. -/
def Leaf : PyVal → Prop
  | .msg _ _ _ => False
  | .list l => ∀ x ∈ l, match x with | .msg _ _ _ => False | .list _ => False | _ => True
  | _ => True

/-- A message without messages inside. -/
def Flat : PyVal → Prop
  | .msg _ _ a => ∀ x ∈ a, Leaf x.2
  | _ => False

end Verif.MsgConv
