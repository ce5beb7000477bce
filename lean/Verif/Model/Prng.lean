import Verif.Model.Keccak

/-!
The pseudo random generator of xmr/core/ec.py 34-72. `H` is the hash `get_keccak` (C51, C62: Keccak-256). The attributes `leftover` and
`leftover_bytes` are set but never read and are left out.
-/

namespace Verif.Prng
open Verif

/-- core/ec.py 37-51: seed (the attributes `seed` and `state` are the same) and counter. -/
structure Prng where
  seed : Bytes
  ctr : Nat
deriving DecidableEq

/-- core/ec.py 37-43 `__init__`. -/
def new (seed : Bytes) : Prng := ⟨seed, 0⟩

/-- core/ec.py 45-52 `reset(seed)`. -/
def reset (p : Prng) (seed : Option Bytes) : Prng :=
  match seed with
  | some s => ⟨s, 0⟩
  | none => ⟨p.seed, 0⟩

/-- `n.to_bytes(32, 'big')`. -/
def be (n : Nat) : Bytes := (List.range 32).map fun i => UInt8.ofNat (n >>> (8 * (31 - i)))

/-- core/ec.py 54-58 `_gen`; `to_bytes` raises for a counter of more than 256 bits (the counter has moved). -/
def gen (H : Bytes → Bytes) (p : Prng) : Prng × Option Bytes :=
  let c := p.ctr + 1
  (⟨p.seed, c⟩, if c < 2 ^ 256 then some (H (p.seed ++ be c)) else none)

/-- core/ec.py 66-71: the loop of `next`; `left` is `num - off`, `acc` the buffer up to `off`. A digest has at least one byte, so the fuel `num`
suffices. -/
def nextLoop (H : Bytes → Bytes) : Nat → Nat → Bytes → Prng → Prng × Option Bytes
  | _, 0, acc, p => (p, some acc)
  | 0, _ + 1, _, p => (p, none)
  | fuel + 1, left + 1, acc, p =>
    match gen H p with
    | (p, none) => (p, none)
    | (p, some cur) => nextLoop H fuel (left + 1 - min cur.length (left + 1)) (acc ++ cur.take (min cur.length (left + 1))) p

/-- core/ec.py 63-72 `next(num)` without a buffer. -/
def next (H : Bytes → Bytes) (p : Prng) (num : Nat) : Prng × Option Bytes := nextLoop H num num [] p

/-- core/ec.py 60-61 `rewind(n)`. -/
def rewind (H : Bytes → Bytes) (p : Prng) (n : Nat) : Prng × Option Unit := ((next H p n).1, (next H p n).2.map fun _ => ())

/-- Calls on a generator. -/
inductive Call where
  | next (n : Nat)
  | rewind (n : Nat)
  | reset (seed : Option Bytes)
deriving DecidableEq

/-- The bytes returned by `next` in a sequence of calls, and an exception as `none`. -/
def run (H : Bytes → Bytes) : Prng → List Call → List (Option Bytes)
  | _, [] => []
  | p, .next n :: cs => (next H p n).2 :: run H (next H p n).1 cs
  | p, .rewind n :: cs => (rewind H p n).2.map (fun _ => []) :: run H (rewind H p n).1 cs
  | p, .reset s :: cs => some [] :: run H (reset p s) cs

end Verif.Prng
