import Verif.Model.Bulletproof

/-!
The vector functions that build tables, monero_glue/xmr/bulletproof.py 1286-1375 and 1395-1401, on vectors that are stored in chunks from 33 elements on
(423-503). Indices past the end raise (`none`). The bytes of an element are not modelled (Model/KeyV.lean does that).
-/

namespace Verif.Bp
open Verif Ed Key Sig

/-- `KeyV` 405-503. -/
structure Tbl (α : Type) where
  chunked : Bool
  items : List α

/-- `KeyV(elems)`, 446-455: sizes above 32 that are a multiple of 32 are chunked; the elements are zero. -/
def Tbl.new {α : Type} (zero : α) (n : Nat) : Tbl α := ⟨decide (n > 32 ∧ n % 32 = 0), List.replicate n zero⟩

/-- `v.read(i, x)` 495-500 and `v[i] = x` 476-483. -/
def Tbl.read {α : Type} (t : Tbl α) (i : Nat) (x : α) : Option (Tbl α) := if i < t.items.length then some { t with items := t.items.set i x } else none

/-- An operation with `v[i]` as its destination, 465-474: a view of the element, or for a chunked vector a copy in `v.cur`. -/
def Tbl.through {α : Type} (t : Tbl α) (i : Nat) (x : α) : Option (Tbl α) :=
  if i < t.items.length then some (if t.chunked then t else { t with items := t.items.set i x }) else none

/-- `for i in range(n)`. -/
def forRange {σ : Type} (step : Nat → σ → Option σ) : Nat → σ → Option σ
  | 0, s => some s
  | n + 1, s => (forRange step n s).bind (step n)

/-- 1296-1301 `_vector_dup` with a new destination. -/
def vectorDup {α : Type} (zero x : α) (n : Nat) : Option (Tbl α) := forRange (fun i t => t.read i x) n (Tbl.new zero n)

/-- 1304-1319 `_vector_add` and `_vector_subtract` (`op`) with a new destination. -/
def vectorOp (op : Int → Int → Int) (a b : List Int) : Option (Tbl Int) :=
  forRange (fun i t => a[i]?.bind fun x => b[i]?.bind fun y => t.read i (op x y)) a.length (Tbl.new 0 a.length)

/-- 1322-1335 `_vector_scalar` and `_vector_scalar2` (`f` multiplies with the scalar, `none` for bytes that are no point) with a new destination. -/
def vectorScaled {α : Type} (zero : α) (f : α → Option α) (a : List α) : Option (Tbl α) :=
  forRange (fun i t => a[i]?.bind fun x => (f x).bind fun y => t.through i y) a.length (Tbl.new zero a.length)

/-- 1338-1344 `_vector_sum`. -/
def vectorTotal (a : List Int) : Option Int := forRange (fun i s => a[i]?.map fun x => scAdd s x) a.length 0

/-- 1347-1358 `_vector_z_two_i`. -/
def zTwoAt (logN : Nat) (zpow twoN : List Int) (i : Nat) : Option Int :=
  zpow[(i >>> logN) + 2]?.bind fun a => twoN[i &&& (1 <<< logN - 1)]?.map fun b => scMul a b

/-- 1369-1373: the inner loop of `_vector_z_two`, `j = k + 1`. -/
def zTwoInner (N : Nat) (zpow twoN : List Int) (i k : Nat) (t : Tbl Int) : Option (Tbl Int) :=
  if k * N ≤ i ∧ i < (k + 1) * N then
    zpow[2 + k]?.bind fun a => twoN[i - k * N]?.bind fun b => t.items[i]?.bind fun c => t.through i (scMuladd a b c)
  else some t

/-- 1361-1375 `_vector_z_two` with `dynamic=False`. -/
def zTwoStatic (N M : Nat) (zpow twoN : List Int) : Option (Tbl Int) :=
  forRange (fun i t => (t.read i 0).bind fun t => forRange (zTwoInner N zpow twoN i) M t) (M * N) (Tbl.new 0 (M * N))

/-- 1395-1401 `_init_exponents`: the tables of generators `Gi` and `Hi`. -/
def initExponents (H : Bytes → Bytes) (n : Nat) : Option (Tbl Bytes × Tbl Bytes) :=
  forRange (fun i t => (t.2.through i (getExponent H (i * 2))).bind fun h => (t.1.through i (getExponent H (i * 2 + 1))).map fun g => (g, h)) n
    (Tbl.new (List.replicate 32 0) n, Tbl.new (List.replicate 32 0) n)

end Verif.Bp
