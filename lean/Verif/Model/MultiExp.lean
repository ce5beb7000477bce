import Verif.Model.Key

/-!
bulletproof.py 1437-1635: holders of pairs of scalars and points that are evaluated to the sum of the multiples. `none` is an exception.
-/

namespace Verif.MultiExp
open Verif Ed Key

/-- bulletproof.py 1474-1495 `MultiExp`. The functions give values past the end of the lists. -/
structure MExp where
  size : Nat
  scalars : List Bytes
  points : List Bytes
  scalarFn : Option (Nat → Option Bytes)
  pointFn : Option (Nat → Option Bytes)

/-- bulletproof.py 1480-1495 `__init__`. -/
def MExp.new (size : Option Nat) (scalars points : List Bytes) (scalarFn pointFn : Option (Nat → Option Bytes)) : MExp :=
  { size := if (scalars ≠ [] ∨ points ≠ []) ∧ size = none then max scalars.length points.length else 0
    scalars, points, scalarFn, pointFn }

/-- bulletproof.py 1497-1500 `add_pair`. -/
def MExp.addPair (m : MExp) (s P : Bytes) : MExp := { m with scalars := m.scalars ++ [s], points := m.points ++ [P], size := (m.scalars ++ [s]).length }

/-- bulletproof.py 1502-1504 `add_scalar`. -/
def MExp.addScalar (m : MExp) (s : Bytes) : MExp := { m with scalars := m.scalars ++ [s], size := (m.scalars ++ [s]).length }

/-- `l[i]` of Python: negative indices count from the end. -/
def pyIndex (l : List Bytes) (i : Int) : Option Bytes :=
  if 0 ≤ i then l[i.toNat]? else if 0 ≤ i + l.length then l[(i + l.length).toNat]? else none

/-- bulletproof.py 1506-1516 `get_scalar`, `get_point`. -/
def pick (l : List Bytes) (fn : Option (Nat → Option Bytes)) (i : Int) : Option Bytes :=
  if (l.length : Int) ≤ i then fn.bind fun f => f i.toNat else pyIndex l i

/-- bulletproof.py 1518-1522 `get_idx`. -/
def MExp.getIdx (m : MExp) (i : Int) : Option (Bytes × Bytes) :=
  match pick m.scalars m.scalarFn i, pick m.points m.pointFn i with
  | some s, some P => some (s, P)
  | _, _ => none

/-- bulletproof.py 1463-1466 and 1563-1566: one pair added to the accumulator. -/
def accPair (acc : Ext) (x : Bytes × Bytes) : Option Ext :=
  match decodeInt x.1, decodePoint x.2 with
  | some s, some P => some (add acc (scalarmult P s))
  | _, _ => none

/-- bulletproof.py 1457-1468 `eval_data` for data of this length. -/
def evalData (size : Nat) (at_ : Nat → Option (Bytes × Bytes)) : Option Bytes :=
  ((List.range size).foldlM (fun acc i => (at_ i).bind (accPair acc)) ident).map encodePoint

/-- bulletproof.py 1470-1471 `eval`. -/
def MExp.eval (m : MExp) : Option Bytes := evalData m.size fun i => m.getIdx i

/-- bulletproof.py 1536-1554 `MultiExpSequential`: the lists, the next index and the accumulator. -/
structure Seq where
  points : List Bytes
  pointFn : Option (Nat → Option Bytes)
  current : Nat
  acc : Ext

/-- bulletproof.py 1541-1554 `__init__`. -/
def Seq.new (points : List Bytes) (pointFn : Option (Nat → Option Bytes)) : Seq := ⟨points, pointFn, 0, ident⟩

/-- bulletproof.py 1556-1557, 1562-1568 `add_pair`. -/
def Seq.addPair (m : Seq) (s P : Bytes) : Option Seq := (accPair m.acc (s, P)).map fun a => { m with acc := a, current := m.current + 1 }

/-- bulletproof.py 1559-1568 `add_scalar`. -/
def Seq.addScalar (m : Seq) (s : Bytes) : Option Seq := (pick m.points m.pointFn m.current).bind fun P => m.addPair s P

/-- bulletproof.py 1570-1572 `eval`. -/
def Seq.eval (m : Seq) : Bytes := encodePoint m.acc

/-- bulletproof.py 1576-1584 `MergedMultiExp(*args)`: the sizes before each part, and of all. -/
def bounds : List MExp → Nat → List Nat
  | [], n => [n]
  | e :: es, n => n :: bounds es (n + e.size)

/-- bulletproof.py 1595-1598: the loop of `_get_chunk`. -/
def chunkLoop (idx : Nat) : List Nat → Nat → Nat → Nat
  | b :: bs, k, x => if b < idx ∧ x < k then chunkLoop idx bs k (x + 1) else x
  | [], _, x => x

/-- bulletproof.py 1592-1603, 1605-1606 `merged[idx]`. Index -1 is the last part and the last bound. -/
def mergedAt (es : List MExp) (idx : Nat) : Option (Bytes × Bytes) :=
  if (es.map MExp.size).sum ≤ idx then none
  else
    let x := chunkLoop idx (bounds es 0) es.length 0
    if x = 0 then (es.getLast?).bind fun e => e.getIdx ((idx : Int) - (es.map MExp.size).sum)
    else (es[x - 1]?).bind fun e => e.getIdx ((idx : Int) - ((bounds es 0)[x - 1]?).getD 0)

end Verif.MultiExp
