import Verif.Model.Bulletproof

/-!
The vector objects of xmr/bulletproof.py 332-1055. Buffers returned by reference are values here: a caller that keeps the buffer returned by one
access while making another one sees it change (`self.cur`, `self.res`), which is not modelled. Exceptions are `none`; an access that raises may
have changed the object, so each access returns the new state as well.
-/

namespace Verif.KeyV
open Verif Ed Key Sig

/-- bulletproof.py 343-348 `idxize`. -/
def idxize (size : Nat) (idx : Int) : Option Int :=
  let idx := if idx < 0 then (size : Int) + idx else idx
  if idx ≥ size then none else some idx

/-- A sequence of reads; the caller goes on after an exception. -/
def run {S : Type} (get : S → Int → S × Option Int) : S → List Int → List (Option Int)
  | _, [] => []
  | s, i :: is => (get s i).2 :: run get (get s i).1 is

/-- The state after a sequence of reads. -/
def after {S : Type} (get : S → Int → S × Option Int) : S → List Int → S
  | s, [] => s
  | s, i :: is => after get (get s i).1 is

/-! ## KeyVPowers -/

/-- The fields `cur` and `last_idx` of bulletproof.py 791-860 `KeyVPowers`. -/
structure Powers where
  cur : Int
  last : Int
deriving DecidableEq, Repr

/-- bulletproof.py 798-803. -/
def Powers.new : Powers := ⟨0, 0⟩

/-- bulletproof.py 805-831 `KeyVPowers.__getitem__`. -/
def Powers.get (size : Nat) (x : Int) (s : Powers) (idx : Int) : Powers × Option Int :=
  match idxize size idx with
  | none => (s, none)
  | some item =>
    if item = 0 then (⟨1, item⟩, some 1)
    else if item = 1 then (⟨x, item⟩, some x)
    else if item = s.last then (⟨s.cur, item⟩, some s.cur)
    else if item = s.last + 1 then (⟨scMul s.cur x, item⟩, some (scMul s.cur x))
    else (⟨s.cur, item⟩, none)

/-- bulletproof.py 836-843 `rewind(n)`. -/
def Powers.rewind (x : Int) : Nat → Powers → Powers
  | 0, s => s
  | n + 1, s => rewind x n ⟨scMul s.cur x, s.last + 1⟩

/-! ## KeyVPrngMask -/

/-- bulletproof.py 863-923 `KeyVPrngMask`: the number of blocks drawn from the generator, the current value and `last_idx`. -/
structure Prng where
  drawn : Nat
  cur : Int
  last : Int
deriving DecidableEq, Repr

/-- bulletproof.py 870-878. -/
def Prng.new : Prng := ⟨0, 0, 0⟩

/-- bulletproof.py 884-887 `_next`; `str i` is block `i` of the generator, reduced. -/
def Prng.next (str : Nat → Int) (s : Prng) : Prng := ⟨s.drawn + 1, str s.drawn, s.last⟩

/-- bulletproof.py 880-882 `reset`. -/
def Prng.reset (str : Nat → Int) (s : Prng) : Prng := Prng.next str { s with drawn := 0 }

/-- bulletproof.py 889-912 `KeyVPrngMask.__getitem__` with the generator of core/ec.py 34-72: `rewind(32 k)` draws `k` blocks, none for `k < 0`. -/
def Prng.get (size : Nat) (nonlinear : Bool) (str : Nat → Int) (s : Prng) (idx : Int) : Prng × Option Int :=
  match idxize size idx with
  | none => (s, none)
  | some item =>
    let prev := s.last
    let s := { s with last := item }
    if item = 0 then let s := s.reset str; (s, some s.cur)
    else if item = prev then (s, some s.cur)
    else if item = prev + 1 then let s := s.next str; (s, some s.cur)
    else if nonlinear then
      let s1 := if item < prev then s.reset str else s
      let prev1 := if item < prev then 0 else prev
      let s2 := Prng.next str { s1 with drawn := s1.drawn + (item - prev1 - 1).toNat }
      (s2, some s2.cur)
    else (s, none)

/-! ## KeyR0 -/

/-- The scalars of bulletproof.py 931-968 `KeyR0`. -/
structure R0 where
  yp : Int
  zt : Int
  p2 : Int
  res : Int
  last : Int
deriving DecidableEq, Repr

/-- bulletproof.py 970-973 `reset`. -/
def R0.reset (z : Int) (s : R0) : R0 := { s with yp := 1, p2 := 1, zt := scMul z z }

/-- bulletproof.py 954-968. -/
def R0.new (z : Int) : R0 := R0.reset z ⟨0, 0, 0, 0, 0⟩

/-- bulletproof.py 984-991: advancing by one. -/
def R0.advance (N : Nat) (y z item : Int) (s : R0) : R0 :=
  if item % (N : Int) = 0 then { s with yp := scMul s.yp y, zt := scMul s.zt z, p2 := 1 }
  else { s with yp := scMul s.yp y, p2 := scMul s.p2 2, res := 2 }

/-- bulletproof.py 1003-1008: evaluation. -/
def R0.eval (aR : Nat → Int) (z item : Int) (s : R0) : R0 :=
  { s with res := scMuladd s.zt s.p2 (scMul (scAdd (aR item.toNat) z) s.yp) }

/-- bulletproof.py 975-1014 `KeyR0.__getitem__`; `aR` is the wrapped vector. -/
def R0.get (size N : Nat) (aR : Nat → Int) (y z : Int) (s : R0) (idx : Int) : R0 × Option Int :=
  match idxize size idx with
  | none => (s, none)
  | some item =>
    let prev := s.last
    let s := { s with last := item }
    if item = 0 then let s := (s.reset z).eval aR z item; (s, some s.res)
    else if item = prev + 1 then let s := (s.advance N y z item).eval aR z item; (s, some s.res)
    else if item = prev then (s, some s.res)
    else (s, none)

/-- bulletproof.py 1022-1026: `sload` of a new object with what `sdump` returned; `res` is not part of it. -/
def R0.restored (s : R0) : R0 := { s with res := 0 }

/-! ## KeyV -/

/-- Indexing of a Python sequence of length `n`: negative indices count from the end. -/
def pyIdx (n : Nat) (i : Int) : Option Nat :=
  if 0 ≤ i then (if i < n then some i.toNat else none) else if 0 ≤ (n : Int) + i then some ((n : Int) + i).toNat else none

/-- compat/utils.py 8-11 `memcpy`; the flag is false if it raised, the bytes copied before remain. -/
def memcpy (dst : Bytes) (dOff : Int) (src : Bytes) (sOff : Int) : Nat → Bytes × Bool
  | 0 => (dst, true)
  | n + 1 =>
    match pyIdx src.length sOff with
    | none => (dst, false)
    | some j =>
      match pyIdx dst.length dOff with
      | none => (dst, false)
      | some i => memcpy (dst.set i (src.getD j 0)) (dOff + 1) src (sOff + 1) n

/-- The buffer `d` of bulletproof.py 407-593 `KeyV`. -/
inductive Data where
  | flat (d : Bytes)
  | chunks (d : List Bytes)
deriving DecidableEq, Repr

/-- `KeyV`; `chunked` tells the form of `d`. -/
structure Vec where
  size : Nat
  d : Data
deriving DecidableEq, Repr

/-- bulletproof.py 446-455 `_set_d`. -/
def setD (elems : Nat) : Data :=
  if elems > 32 ∧ elems % 32 = 0 then .chunks (List.replicate (elems / 32) (List.replicate (32 * 32) 0)) else .flat (List.replicate (32 * elems) 0)

/-- bulletproof.py 423-440 without a buffer. -/
def Vec.new (elems : Nat) : Vec := ⟨elems, setD elems⟩

/-- bulletproof.py 432-435: a plain buffer. -/
def Vec.ofBuffer (b : Bytes) : Vec := ⟨b.length / 32, .flat b⟩

/-- bulletproof.py 481-493 `to(idx)`. -/
def Vec.to (v : Vec) (idx : Int) : Option Bytes :=
  match idxize v.size idx with
  | none => none
  | some i =>
    match v.d with
    | .chunks cs =>
      match pyIdx cs.length (i / 32) with
      | none => none
      | some c => let r := memcpy (List.replicate 32 0) 0 (cs.getD c []) (i % 32 * 32) 32; if r.2 then some r.1 else none
    | .flat b => let r := memcpy (List.replicate 32 0) 0 b (i * 32) 32; if r.2 then some r.1 else none

/-- bulletproof.py 495-500 `read(idx, buff)` (also `__setitem__` 471-479): stores; the flag is false if it raised. -/
def Vec.read (v : Vec) (idx : Int) (buff : Bytes) : Vec × Bool :=
  match idxize v.size idx with
  | none => (v, false)
  | some i =>
    match v.d with
    | .chunks cs =>
      match pyIdx cs.length (i / 32) with
      | none => (v, false)
      | some c => let r := memcpy (cs.getD c []) (i % 32 * 32) buff 0 32; ({ v with d := .chunks (cs.set c r.1) }, r.2)
    | .flat b => let r := memcpy b (i * 32) buff 0 32; ({ v with d := .flat r.1 }, r.2)

/-- bulletproof.py 502-545 `resize(nsize, chop, realloc)`. -/
def Vec.resize (v : Vec) (n : Nat) (chop realloc : Bool) : Option Vec :=
  if v.size = n then some v
  else match v.d with
    | .chunks cs =>
      if n ≤ 32 then
        if v.size > n ∧ realloc = true then some ⟨n, .flat ((cs.getD 0 []).take (32 * n))⟩
        else if v.size > n ∧ chop = false then some ⟨n, .flat ((cs.getD 0 []).take (32 * n))⟩
        else some ⟨n, .flat (List.replicate (32 * n) 0)⟩
      else if v.size < n then
        if n % 32 ≠ 0 ∨ realloc = true ∨ chop = true then none
        else some ⟨n, .chunks (cs ++ List.replicate ((n - v.size) / 32) (List.replicate (32 * 32) 0))⟩
      else if n % 32 ≠ 0 then none
      else some ⟨n, .chunks (cs.take (cs.length - (v.size - n) / 32))⟩
    | .flat b =>
      if v.size > n ∧ realloc = true then some ⟨n, .flat (b.take (32 * n))⟩
      else if v.size > n ∧ chop = false then some ⟨n, .flat (b.take (32 * n))⟩
      else some ⟨n, .flat (List.replicate (32 * n) 0)⟩

/-- bulletproof.py 566-567: copying element by element. -/
def copyLoop (src : Vec) (offset : Nat) : List Nat → Vec → Vec × Bool
  | [], v => (v, true)
  | i :: is, v =>
    match src.to ((i + offset : Nat) : Int) with
    | none => (v, false)
    | some b => let r := v.read (i : Int) b; if r.2 then copyLoop src offset is r.1 else r

/-- bulletproof.py 570-577: the loop for a chunked source and a plain destination. -/
def chunkCopyLoop (n : Nat) (cs : List Bytes) (offset : Nat) : List Nat → Bytes → Bytes × Bool
  | [], b => (b, true)
  | i :: is, b =>
    match cs[i + offset / 32]? with
    | none => (b, false)
    | some c =>
      let r := memcpy b ((i * 2048 : Nat) : Int) c (if i = 0 then ((offset % 32 * 32 : Nat) : Int) else 0) (if i ≤ n / 32 then 32 * n else (n &&& 32) * 32)
      if r.2 then chunkCopyLoop n cs offset is r.1 else r

/-- bulletproof.py 557-577 `realloc_init_from(nsize, src, offset)`. -/
def reallocInitFrom (n : Nat) (src : Vec) (offset : Nat) : Vec × Bool :=
  match setD n, src.d with
  | .flat b, .flat s => let r := memcpy b 0 s ((offset * 32 : Nat) : Int) (32 * n); (⟨n, .flat r.1⟩, r.2)
  | .chunks cs, _ => copyLoop src offset (List.range n) ⟨n, .chunks cs⟩
  | .flat b, .chunks cs => let r := chunkCopyLoop n cs offset (List.range (n / 32)) b; (⟨n, .flat r.1⟩, r.2)

/-- bulletproof.py 579-581 `sdump` and 583-587 `sload`: the packed size; `s & ~b` is `s - (s & b)`. -/
def pack (size : Nat) (chunked : Bool) : Option Nat := if size ≤ 2 ^ 60 then some (size ||| (if chunked then 2 ^ 60 else 0)) else none
def unpack (s : Nat) : Nat × Bool := (s - (s &&& 2 ^ 60), decide (s &&& 2 ^ 60 > 0))

end Verif.KeyV
