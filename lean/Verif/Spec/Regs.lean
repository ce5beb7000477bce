import Verif.Model.Regs
import Verif.Lemmas.Sig
import Verif.Lemmas.BpGens
import Verif.Lemmas.EdCodec

/-!
What programs over scalar and point objects should compute.
-/

namespace Verif.Regs
open Verif Ed Edwards Key Sig

/-- The values meant: elements of the field of scalars and points of the curve. -/
structure Vals where
  sc : List Fl
  pt : List Point

def SExp.spec (m : Vals) : SExp → Option Fl
  | .int x => if x < 2 ^ 64 then some (x : Fl) else none
  | .copy a => m.sc[a]?
  | .add a b => do some ((← m.sc[a]?) + (← m.sc[b]?))
  | .sub a b => do some ((← m.sc[a]?) - (← m.sc[b]?))
  | .mul a b => do some ((← m.sc[a]?) * (← m.sc[b]?))
  | .mulsub a b c => do
    let x ← m.sc[a]?
    let y ← m.sc[b]?
    some ((← m.sc[c]?) - x * y)
  | .muladd a b c => do
    let x ← m.sc[a]?
    let y ← m.sc[b]?
    some ((← m.sc[c]?) + x * y)
  | .inv a => do some (← m.sc[a]?)⁻¹
  | .dec b => if b.length < 32 then none else some ((bitSum b 256 : ℕ) : Fl)

noncomputable def PExp.spec (m : Vals) : PExp → Option Point
  | .ident => some 0
  | .base a => do some ((← m.sc[a]?).val • Ed.base)
  | .mul P a => do
    let p ← m.pt[P]?
    some ((← m.sc[a]?).val • p)
  | .add P Q => do some ((← m.pt[P]?) + (← m.pt[Q]?))
  | .sub P Q => do some ((← m.pt[P]?) - (← m.pt[Q]?))
  | .double P => do some (2 • (← m.pt[P]?))
  | .mul8 P => do some (8 • (← m.pt[P]?))
  | .keys2 a b P => do
    let x ← m.sc[a]?
    let y ← m.sc[b]?
    some (x.val • Ed.base + y.val • (← m.pt[P]?))
  | .keys3 a P b Q => do
    let x ← m.sc[a]?
    let p ← m.pt[P]?
    let y ← m.sc[b]?
    some (x.val • p + y.val • (← m.pt[Q]?))

/-- Only the destination changes, or a new object appears. -/
def store {α : Type} (r : Option Nat) (v : α) (l : List α) : Option (List α) :=
  match r with
  | none => some (l ++ [v])
  | some i => if i < l.length then some (l.mapIdx fun j x => if j = i then v else x) else none

/-- The specification of a call: decoding gives a scalar, inversion makes a new point. -/
noncomputable def Vals.step (m : Vals) : Op → Option Vals
  | .sc r e => do some { m with sc := ← store r (← e.spec m) m.sc }
  | .pt r e => do some { m with pt := ← store r (← e.spec m) m.pt }
  | .raw r b => if b.length < 32 then none else do some { m with sc := ← store r ((bitSum b 256 : ℕ) : Fl) m.sc }
  | .invert P => do some { m with pt := m.pt ++ [-(← m.pt[P]?)] }

noncomputable def Vals.run : List Op → Vals → Option Vals
  | [], m => some m
  | op :: ops, m => (m.step op).bind fun m => Vals.run ops m

/-- The object holds the value: reduced scalars. -/
def Holds (v : Int) (x : Fl) : Prop := 0 ≤ v ∧ v < l ∧ (v : Fl) = x

/-- The memory holds the values. -/
structure Good (m : Mem) (a : Vals) : Prop where
  sc : List.Forall₂ Holds m.sc a.sc
  pt : List.Forall₂ Rep m.pt a.pt

/-- Calls that keep to the rules: numbers read without reduction are below the order. -/
def Op.Plain : Op → Prop
  | .sc _ _ | .pt _ _ => True
  | .raw _ b => bitSum b 256 < lN
  | .invert _ => False

end Verif.Regs
