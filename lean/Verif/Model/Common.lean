import Verif.Model.Basic
import Mathlib.Data.List.Basic
import Mathlib.Data.List.Sort

/-! Model of helpers in `monero_glue/xmr/common.py`. -/

namespace Verif.Common

/-- The loop of `chunk`, common.py:192-201: result so far, index, with a step bound (`none` = still running). -/
def chunkLoop {α : Type} (arr : List α) (size : Nat) : Nat → List (List α) → Nat → Option (List (List α))
  | 0, _, _ => none
  | fuel + 1, res, idx =>
    let c := (arr.drop idx).take size
    if c.length ≠ size then some (res ++ [c])
    else chunkLoop arr size fuel (res ++ [c]) (idx + size)

/-- `chunk(arr, size)` finishes with `res`. -/
def chunkRuns {α : Type} (arr : List α) (size : Nat) (res : List (List α)) : Prop :=
  ∃ fuel, chunkLoop arr size fuel [] 0 = some res

/-- `check_permutation`, common.py:79-87: `false` = raises. -/
def checkPermutation (perm : List Nat) : Bool :=
  (List.range perm.length).all fun n => perm.contains n

/-- Inner `while` of `apply_permutation`, common.py:101-106: the calls to the swapper and the rest of the
permutation; step bound. `perm[current]` out of range raises (`none`). -/
def cycle (i : Nat) : Nat → List Nat → Nat → List (Nat × Nat) → Option (List Nat × List (Nat × Nat))
  | 0, _, _, _ => none
  | fuel + 1, perm, current, calls =>
    match perm[current]? with
    | none => none
    | some nxt =>
      if i ≠ nxt then cycle i fuel (perm.set current current) nxt (calls ++ [(current, nxt)])
      else some (perm.set current current, calls)

/-- Outer `for` of `apply_permutation`, common.py:100-107. -/
def cycles (fuel : Nat) : List Nat → List Nat → List (Nat × Nat) → Option (List Nat × List (Nat × Nat))
  | [], perm, calls => some (perm, calls)
  | i :: is, perm, calls =>
    match cycle i fuel perm i calls with
    | none => none
    | some (perm, calls) => cycles fuel is perm calls

/-- `apply_permutation(permutation, swapper)`, common.py:90-107: the calls made to `swapper`, in order. -/
def applyPermutation (fuel : Nat) (perm : List Nat) : Option (List (Nat × Nat)) :=
  if checkPermutation perm then (cycles fuel (List.range perm.length) perm []).map (·.2) else none

/-- `l[x], l[y] = l[y], l[x]`, agent_lite.py:423-438 for each of the lists. -/
def swapAt {α : Type} (l : List α) (x y : Nat) : List α :=
  match l[x]?, l[y]? with
  | some a, some b => (l.set x b).set y a
  | _, _ => l

/-- The effect of the calls of the swapper on one of its lists. -/
def doSwaps {α : Type} (calls : List (Nat × Nat)) (l : List α) : List α := calls.foldl (fun l c => swapAt l c.1 c.2) l

/-- The permutation chosen by the host, agent_lite.py:418-421: `range(n)` sorted (stably) by descending key image. -/
def sortPermutation (kis : List Bytes) : List Nat :=
  (List.range kis.length).mergeSort fun a b => decide (kis.getD b [] ≤ kis.getD a [])

end Verif.Common
