import Verif.Model.KeyV
import Verif.Model.VecTables

/-!
Views of vectors, monero_glue/xmr/bulletproof.py 625-789 (`KeyVWrapped`, `KeyVSliced`) and 1948-1966 (`_two_aux`). `none` is an exception.
-/

namespace Verif.Bp
open Verif Ed Key Sig

/-- A vector of `n` elements, or `KeyVSliced(v, start, stop)` 755-763, as `slice_view` 382-383 makes it. -/
inductive View
  | base (n : Nat)
  | slice (v : View) (start stop : Nat)

/-- `len(v)`; 761. -/
def View.size : View → Nat
  | .base n => n
  | .slice _ start stop => stop - start

/-- 765-785: the index in the vector below; 343-348 `idxize` at every level. -/
def View.resolve : View → Int → Option Int
  | .base n, i => KeyV.idxize n i
  | .slice v start stop, i => (KeyV.idxize (stop - start) i).bind fun j => v.resolve (start + j)

/-- `v.to(i)` of a view of the list `d` (781-782). Negative indices of the list itself raise. -/
def View.get {α : Type} (v : View) (d : List α) (i : Int) : Option α := (v.resolve i).bind fun j => if j < 0 then none else d[j.toNat]?

/-- `v.read(i, x)` and `v[i] = x` (768-769, 784-785). -/
def View.put {α : Type} (v : View) (d : List α) (i : Int) (x : α) : Option (List α) :=
  (v.resolve i).bind fun j => if j < 0 then none else if j.toNat < d.length then some (d.set j.toNat x) else none

/-- A sequence of writes through views of the same list, exceptions caught. -/
def View.writes {α : Type} (d : List α) (ws : List (View × Int × α)) : List α := ws.foldl (fun d w => (w.1.put d w.2.1 w.2.2).getD d) d

/-- 691-698 `KeyVWrapped.read`: copies into what indexing the wrapped vector returns. -/
def wrappedRead {α : Type} (size : Nat) (t : Tbl α) (i : Int) (x : α) : Option (Tbl α) := (KeyV.idxize size i).bind fun j => if j < 0 then none else t.through j.toNat x

/-- 1955-1964 `pow_two`: 64 powers are precomputed. For even numbers it calls itself with the power instead of the index, which raises. -/
def powTwo (i : Nat) : Option Int :=
  if h : i < 64 then some (2 ^ i)
  else (powTwo (i / 2)).bind fun lw => if i / 2 * 2 = i then none else (powTwo (i / 2 + 1)).map fun rw => scMul lw rw
termination_by i
decreasing_by all_goals omega

end Verif.Bp
