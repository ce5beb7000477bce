import Verif.Model.Sig

/-!
Scalars and points as objects that are written to: monero_glue/xmr/core/ec_py.py 36-165, 254-280, 358-364, 441-563, 607-674, 728-739, 944-974.

A memory holds the scalar and the point objects made so far. Every function comes with and without a destination; `r = r if r else new_scalar()` makes a new
object if there is none (the classes define neither `__bool__` nor `__len__`, so every object counts as true). The operands are read before the destination is
written.
-/

namespace Verif.Regs
open Verif Ed Key Sig

/-- The objects: `EdScalar.v` 36-38 and `EdPoint.v` 98-100. -/
structure Mem where
  sc : List Int
  pt : List Ext

/-- What is computed into a scalar. -/
inductive SExp
  | int (x : Int)
  | copy (a : Nat)
  | add (a b : Nat)
  | sub (a b : Nat)
  | mul (a b : Nat)
  | mulsub (a b c : Nat)
  | muladd (a b c : Nat)
  | inv (a : Nat)
  | dec (b : Bytes)

/-- What is computed into a point. -/
inductive PExp
  | ident
  | base (a : Nat)
  | mul (P a : Nat)
  | add (P Q : Nat)
  | sub (P Q : Nat)
  | double (P : Nat)
  | mul8 (P : Nat)
  | keys2 (a b P : Nat)
  | keys3 (a P b Q : Nat)

/-- 450-460 `sc_init`, 463-465 `sc_copy`, 498-554 the arithmetic (80-88, each new value reduced), 557-563 `sc_inv`: a copy is inverted, 73-75;
268-274 `decodeint` and `decodeint_into`. -/
def SExp.eval (m : Mem) : SExp → Option Int
  | .int x => if x ≥ 2 ^ 64 then none else some (x % l)
  | .copy a => m.sc[a]?
  | .add a b => (m.sc[a]?).bind fun x => (m.sc[b]?).map fun y => scAdd x y
  | .sub a b => (m.sc[a]?).bind fun x => (m.sc[b]?).map fun y => scSub x y
  | .mul a b => (m.sc[a]?).bind fun x => (m.sc[b]?).map fun y => scMul x y
  | .mulsub a b c => (m.sc[a]?).bind fun x => (m.sc[b]?).bind fun y => (m.sc[c]?).map fun z => scMulsub x y z
  | .muladd a b c => (m.sc[a]?).bind fun x => (m.sc[b]?).bind fun y => (m.sc[c]?).map fun z => scMuladd x y z
  | .inv a => (m.sc[a]?).map scInv
  | .dec b => decodeScalar b

/-- 728-739 `identity`, 607-674 the functions on points, 944-974 `add_keys2` and `add_keys3`. -/
def PExp.eval (m : Mem) : PExp → Option Ext
  | .ident => some Ed.ident
  | .base a => (m.sc[a]?).map scalarmultB
  | .mul P a => (m.pt[P]?).bind fun A => (m.sc[a]?).map fun x => smul A x
  | .add P Q => (m.pt[P]?).bind fun A => (m.pt[Q]?).map fun B => Ed.add A B
  | .sub P Q => (m.pt[P]?).bind fun A => (m.pt[Q]?).map fun B => Ed.sub A B
  | .double P => (m.pt[P]?).map fun A => Ed.add A A
  | .mul8 P => (m.pt[P]?).map fun A => Key.mul8 A
  | .keys2 a b P => (m.sc[a]?).bind fun x => (m.sc[b]?).bind fun y => (m.pt[P]?).map fun A => addKeys2 x y A
  | .keys3 a P b Q => (m.sc[a]?).bind fun x => (m.pt[P]?).bind fun A => (m.sc[b]?).bind fun y => (m.pt[Q]?).map fun B => addKeys3 x A y B

/-- The destination: a new object, or one that there is (`init`, 41-50 and 102-111). -/
def put {α : Type} (r : Option Nat) (v : α) (l : List α) : Option (List α) :=
  match r with
  | none => some (l ++ [v])
  | some i => if i < l.length then some (l.set i v) else none

/-- One call. `raw` is `decodeint_into_noreduce`, 277-280, and `invert` is `invert_ext`, 358-364, which changes its argument (138-140). -/
inductive Op
  | sc (r : Option Nat) (e : SExp)
  | pt (r : Option Nat) (e : PExp)
  | raw (r : Option Nat) (b : Bytes)
  | invert (P : Nat)

def step (m : Mem) : Op → Option Mem
  | .sc r e => (e.eval m).bind fun v => (put r v m.sc).map fun s => { m with sc := s }
  | .pt r e => (e.eval m).bind fun v => (put r v m.pt).map fun s => { m with pt := s }
  | .raw r b => (decodeInt b).bind fun v => (put r (v : Int) m.sc).map fun s => { m with sc := s }
  | .invert P => (m.pt[P]?).bind fun A => (put (some P) (neg A) m.pt).map fun s => { m with pt := s }

/-- A sequence of calls; `none`: one of them raises. -/
def run : List Op → Mem → Option Mem
  | [], m => some m
  | op :: ops, m => (step m op).bind fun m => run ops m

/-- 520-521 `sc_eq`, 66-68. -/
def scEq (m : Mem) (a b : Nat) : Option Bool := (m.sc[a]?).bind fun x => (m.sc[b]?).map fun y => x == y

end Verif.Regs
