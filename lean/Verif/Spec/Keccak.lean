import Verif.Model.Basic

/-!
Keccak as in its specification (FIPS 202, sections 3 and 4, with the padding of the original submission: no domain bits), on bits. A state is a function
of `x, y < 5` and `z < 64`; a message is a list of bits, the least significant bit of a byte first.
-/

namespace Verif.KeccakSpec
open Verif

abbrev State := Nat → Nat → Nat → Bool

/-- Parity of a column. -/
def parity (A : State) (x z : Nat) : Bool := A x 0 z ^^ A x 1 z ^^ A x 2 z ^^ A x 3 z ^^ A x 4 z

/-- Section 3.2.1. -/
def theta (A : State) : State := fun x y z => A x y z ^^ (parity A ((x + 4) % 5) z ^^ parity A ((x + 1) % 5) ((z + 63) % 64))

/-- Section 3.2.2: the positions visited, from (1, 0). -/
def walk : Nat → Nat × Nat
  | 0 => (1, 0)
  | t + 1 => ((walk t).2, (2 * (walk t).1 + 3 * (walk t).2) % 5)

/-- Section 3.2.2: the rotation of a lane; (0, 0) is not visited. -/
def offset (x y : Nat) : Nat :=
  match (List.range 24).find? fun t => walk t = (x, y) with
  | some t => (t + 1) * (t + 2) / 2
  | none => 0

/-- Section 3.2.2: `z - offset` modulo 64. -/
def rho (A : State) : State := fun x y z => A x y ((z + 64 - offset x y % 64) % 64)

/-- Section 3.2.3. -/
def pi (A : State) : State := fun x y z => A ((x + 3 * y) % 5) x z

/-- Section 3.2.4. -/
def chi (A : State) : State := fun x y z => A x y z ^^ (!A ((x + 1) % 5) y z && A ((x + 2) % 5) y z)

/-- Section 3.2.5, algorithm 5: one step of the register of eight bits. -/
def lfsrStep (R : List Bool) : List Bool :=
  match R with
  | [r0, r1, r2, r3, r4, r5, r6, r7] => [r7, r0, r1, r2, r3 ^^ r7, r4 ^^ r7, r5 ^^ r7, r6]
  | _ => []

/-- Section 3.2.5, algorithm 5: the register after `t` steps. -/
def lfsr : Nat → List Bool
  | 0 => [true, false, false, false, false, false, false, false]
  | t + 1 => lfsrStep (lfsr t)

/-- Section 3.2.5, algorithm 6: bit `2^j - 1` of the constant of round `ir` is `rc(j + 7 ir)`. -/
def rc (ir z : Nat) : Bool := (List.range 7).any fun j => z = 2 ^ j - 1 && (lfsr ((j + 7 * ir) % 255)).getD 0 false

def iota (ir : Nat) (A : State) : State := fun x y z => if x = 0 ∧ y = 0 then A x y z ^^ rc ir z else A x y z

/-- Section 3.3. -/
def round (ir : Nat) (A : State) : State := iota ir (chi (pi (rho (theta A))))

/-- Section 3.3: Keccak-f[1600], 24 rounds. -/
def keccakF (A : State) : State := (List.range 24).foldl (fun A ir => round ir A) A

/-- Section 5.1: pad10*1 of a message of `m` bits to a multiple of `r`. -/
def pad (r m : Nat) : List Bool := true :: (List.replicate ((r - (m + 2) % r) % r) false ++ [true])

/-- Section 3.1.2: bit `64 (5 y + x) + z` of a string is bit `(x, y, z)` of the state. -/
def xorBits (A : State) (P : List Bool) : State := fun x y z => A x y z ^^ P.getD (64 * (5 * y + x) + z) false

/-- Section 4, steps 1-6: absorbing `n` blocks of `r` bits. -/
def absorb (r : Nat) : Nat → List Bool → State → State
  | 0, _, A => A
  | n + 1, P, A => absorb r n (P.drop r) (keccakF (xorBits A (P.take r)))

/-- Section 4: the sponge with rate `r` and an output of `d` bits, for `d ≤ r`. -/
def sponge (r d : Nat) (M : List Bool) : List Bool :=
  let P := M ++ pad r M.length
  let A := absorb r (P.length / r) P fun _ _ _ => false
  (List.range d).map fun i => A (i / 64 % 5) (i / 64 / 5) (i % 64)

/-- The bits of a byte string. -/
def bits (m : Bytes) : List Bool := m.flatMap fun b => (List.range 8).map b.toNat.testBit

end Verif.KeccakSpec
