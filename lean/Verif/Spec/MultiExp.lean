import Verif.Model.MultiExp
import Verif.Spec.Sig

/-!
C105: sums of multiples.
-/

namespace Verif.MultiExp
open Verif Ed Key Edwards

/-- The bytes stand for a number and a point of the curve. -/
def Denotes (x : Bytes × Bytes) (t : ℕ × Point) : Prop := decodeInt x.1 = some t.1 ∧ ∃ P, decodePoint x.2 = some P ∧ Rep P t.2

/-- The sum of the multiples. -/
noncomputable def total (ts : List (ℕ × Point)) : Point := (ts.map fun t => t.1 • t.2).sum

/-- Calls on a sequential holder. -/
inductive Step
  | pair (s P : Bytes)
  | scalar (s : Bytes)

def step (m : Seq) : Step → Option Seq
  | .pair s P => m.addPair s P
  | .scalar s => m.addScalar s

/-- The pair a call adds: `k` is the number of calls before. -/
def pairOf (points : List Bytes) (fn : Nat → Bytes) (k : Nat) : Step → Bytes × Bytes
  | .pair s P => (s, P)
  | .scalar s => (s, (points[k]?).getD (fn k))

/-- A holder made of two lists. -/
def ofLists (xs : List (Bytes × Bytes)) : MExp := MExp.new none (xs.map Prod.fst) (xs.map Prod.snd) none none

end Verif.MultiExp
