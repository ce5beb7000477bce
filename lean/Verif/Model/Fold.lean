import Verif.Model.Bulletproof

/-!
The vector operations of the prover as they work on memory, monero_glue/xmr/bulletproof.py 1071-1086, 1116-1137 and 1182-1257: folding in place, into another
vector, and with the upper half taken from a second vector. `none` is an exception.
-/

namespace Verif.Bp
open Verif Ed Key Sig

/-- The vector that is folded and the vector written to; `none` is the same vector. -/
structure Mem (α : Type) where
  v : List α
  into : Option (List α)

/-- `into.read(k, x)`. An index past the end raises. -/
def Mem.write {α : Type} (m : Mem α) (k : Nat) (x : α) : Option (Mem α) :=
  match m.into with
  | none => if k < m.v.length then some { m with v := m.v.set k x } else none
  | some w => if k < w.length then some { m with into := some (w.set k x) } else none

/-- `v.to(h + i) if not vR else vR.to(i + vRoff)`, 1196 and 1249; an empty `vR` counts as missing. -/
def upper {α : Type} (vR : Option (List α)) (vRoff h : Nat) (v : List α) (i : Nat) : Option α :=
  match vR with
  | none | some [] => v[h + i]?
  | some (r :: rs) => (r :: rs)[i + vRoff]?

/-- The loops 1194-1200 and 1247-1255: `k` elements from index `i`; `f` combines two elements. -/
def foldLoop {α : Type} (f : α → α → Option α) (h off : Nat) (vR : Option (List α)) (vRoff : Nat) : Nat → Nat → Mem α → Option (Mem α)
  | 0, _, m => some m
  | k + 1, i, m =>
    match m.v[i]?, upper vR vRoff h m.v i with
    | some x, some y => (f x y).bind fun z => (m.write (i + off) z).bind fun m => foldLoop f h off vR vRoff k (i + 1) m
    | _, _ => none

/-- `into if into else v`, 1192 and 1245. -/
def Mem.start {α : Type} (v : List α) (into : Option (List α)) : Mem α :=
  match into with
  | some (w :: ws) => ⟨v, some (w :: ws)⟩
  | _ => ⟨v, none⟩

/-- What is returned: `into`. -/
def Mem.result {α : Type} (m : Mem α) : List α := m.into.getD m.v

/-- 1182-1202 `_hadamard_fold` and 1237-1257 `_scalar_fold`, the element operation apart. -/
def foldMem {α : Type} (f : α → α → Option α) (v : List α) (into : Option (List α)) (off : Nat) (vR : Option (List α)) (vRoff : Nat) (fullV : Bool) :
    Option (Mem α) :=
  let h := if fullV then v.length else v.length / 2
  foldLoop f h off vR vRoff h 0 (Mem.start v into)

/-- 1250-1253. -/
def foldScalar (a b : Int) (lo hi : Int) : Option Int := some (scAdd (scMul lo a) (scMul hi b))

/-- 1217-1222: the first loop of `_hadamard_fold_linear`. -/
def linear1 (a : Int) (off : Nat) : Nat → Nat → Mem Bytes → Option (Mem Bytes)
  | 0, _, m => some m
  | k + 1, i, m => (m.v[i]?.bind fun x => decodePoint x).bind fun P => (m.write (i + off) (encodePoint (smul P a))).bind fun m => linear1 a off k (i + 1) m

/-- 1225-1233: the second loop. -/
def linear2 (b : Int) (h off : Nat) : Nat → Nat → Mem Bytes → Option (Mem Bytes)
  | 0, _, m => some m
  | k + 1, i, m => (m.v[i + h]?.bind fun x => decodePoint x).bind fun P => (m.result[i + off]?.bind fun x => decodePoint x).bind fun Q =>
    (m.write (i + off) (encodePoint (add (smul P b) Q))).bind fun m => linear2 b h off k (i + 1) m

/-- 1205-1234 `_hadamard_fold_linear`. -/
def foldLinear (v : List Bytes) (a b : Int) (into : Option (List Bytes)) (off : Nat) : Option (Mem Bytes) :=
  (linear1 a off (v.length / 2) 0 (Mem.start v into)).bind fun m => linear2 b (v.length / 2) off (v.length / 2) 0 m

/-- 1132-1136: the loop of `_vector_powers`, with the last power. -/
def powersLoop (x : Int) : Nat → Int → List Int
  | 0, _ => []
  | k + 1, cur => scMul cur x :: powersLoop x k (scMul cur x)

/-- 1116-1137 `_vector_powers` (static). -/
def vectorPowers (x : Int) (n : Nat) : List Int :=
  if n = 0 then [] else if n = 1 then [1] else 1 :: x :: powersLoop x (n - 2) x

/-- 1079-1080: the scalar of element `i`; without `a` it is whatever is in the temporary. -/
def scalarOf (stale : Int) (a : Option (List Int)) (i : Nat) : Option Int :=
  match a with
  | some l => l[i]?
  | none => some stale

/-- 1071-1086 `_vector_sum_aA`: with `a` missing (`none`) the scalar left by an earlier call, `stale`, is used for all of them; `len` is `|a_raw|`. -/
def vectorSum (stale : Int) (a : Option (List Int)) (rawLen : Nat) (A : List Bytes) : Option Bytes :=
  ((List.range ((a.map List.length).getD rawLen)).foldlM (fun (acc : Ext) (i : Nat) =>
    (scalarOf stale a i).bind fun s => (A[i]?.bind fun x => decodePoint x).map fun P => add acc (smul P s)) ident).map encodePoint

end Verif.Bp
