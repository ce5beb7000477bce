import Verif.Model.Basic

/-!
xmr/core/backend/keccak2.py: the Keccak hash in Python, for the width 1600 of all presets (`lanew` is 64, 24 rounds). A state is the table `s[x][y]`
of lanes. Python's `~a & b` on non-negative integers is `b ^ (a & b)`.
-/

namespace Verif.Keccak
open Verif

abbrev Lanes := List (List Nat)

/-- `s[x][y]`. -/
def lane (s : Lanes) (x y : Nat) : Nat := (s.getD x []).getD y 0

/-- `s[x][y] = v`. -/
def setLane (s : Lanes) (x y v : Nat) : Lanes := s.set x ((s.getD x []).set y v)

/-- The table with the given lanes. -/
def table (f : Nat → Nat → Nat) : Lanes := (List.range 5).map fun x => (List.range 5).map (f x)

/-- keccak2.py 7-32. -/
def roundConstants : List Nat := [
  0x0000000000000001, 0x0000000000008082, 0x800000000000808A, 0x8000000080008000, 0x000000000000808B, 0x0000000080000001,
  0x8000000080008081, 0x8000000000008009, 0x000000000000008A, 0x0000000000000088, 0x0000000080008009, 0x000000008000000A,
  0x000000008000808B, 0x800000000000008B, 0x8000000000008089, 0x8000000000008003, 0x8000000000008002, 0x8000000000000080,
  0x000000000000800A, 0x800000008000000A, 0x8000000080008081, 0x8000000000008080, 0x0000000080000001, 0x8000000080008008]

/-- keccak2.py 34-40. -/
def rotationConstants : List (List Nat) := [
  [0, 1, 62, 28, 27], [36, 44, 6, 55, 20], [3, 10, 43, 25, 39], [41, 45, 15, 21, 8], [18, 2, 61, 56, 14]]

/-- keccak2.py 49-56 `rol`. -/
def rol (value left bits : Nat) : Nat := ((value &&& (2 ^ (bits - left) - 1)) <<< left) ||| (value >>> (bits - left))

/-- keccak2.py 69-80 `multirate_padding`. -/
def padding (used align : Nat) : Bytes :=
  let padlen := align - used
  let padlen := if padlen = 0 then align else padlen
  if padlen = 1 then [0x81] else 0x01 :: (List.replicate (padlen - 2) 0x00 ++ [0x80])

/-- keccak2.py 95-101: theta. -/
def theta (s : Lanes) : Lanes :=
  let c := s.map fun col => col.foldl (· ^^^ ·) 0
  let d := (List.range 5).map fun x => c.getD ((x + 4) % 5) 0 ^^^ rol (c.getD ((x + 1) % 5) 0) 1 64
  table fun x y => lane s x y ^^^ d.getD x 0

/-- keccak2.py 103-109: rho and pi; `B` is filled cell by cell. -/
def rhoPi (s : Lanes) : Lanes :=
  (List.range 5).foldl (fun b x => (List.range 5).foldl (fun b y =>
    setLane b (y % 5) ((2 * x + 3 * y) % 5) (rol (lane s x y) ((rotationConstants.getD y []).getD x 0) 64)) b) (table fun _ _ => 0)

/-- keccak2.py 111-114: chi. -/
def chi (b : Lanes) : Lanes := table fun x y => lane b x y ^^^ (lane b ((x + 2) % 5) y ^^^ (lane b ((x + 1) % 5) y &&& lane b ((x + 2) % 5) y))

/-- keccak2.py 116-117: iota. -/
def iota (rc : Nat) (s : Lanes) : Lanes := setLane s 0 0 (lane s 0 0 ^^^ rc)

/-- keccak2.py 89-117 `round`. -/
def round (s : Lanes) (rc : Nat) : Lanes := iota rc (chi (rhoPi (theta s)))

/-- keccak2.py 83-123 `keccak_f`; `12 + 2 * 6` rounds. -/
def keccakF (s : Lanes) : Lanes := roundConstants.foldl round s

/-- keccak2.py 174-182 `bytes2lane`. -/
def bytes2lane (bb : Bytes) : Nat := bb.reverse.foldl (fun r b => (r <<< 8) ||| b.toNat) 0

/-- keccak2.py 163-172 `lane2bytes(s, 64)`. -/
def lane2bytes (s : Nat) : Bytes := (List.range 8).map fun b => UInt8.ofNat ((s >>> (8 * b)) &&& 0xFF)

/-- keccak2.py 214-226 `KeccakState.absorb` for a block of the rate, extended with zeros to 200 bytes. -/
def absorbState (s : Lanes) (bb : Bytes) : Lanes :=
  let bb := bb ++ List.replicate (200 - bb.length) 0
  table fun x y => lane s x y ^^^ bytes2lane ((bb.drop (8 * (5 * y + x))).take 8)

/-- keccak2.py 234-245 `get_bytes`. -/
def getBytes (s : Lanes) : Bytes := ((List.range 5).map fun y => ((List.range 5).map fun x => lane2bytes (lane s x y)).flatten).flatten

/-- keccak2.py 259-264 `KeccakSponge`: the state and the buffer. -/
structure Sponge where
  s : Lanes
  buffer : Bytes
deriving DecidableEq

/-- keccak2.py 139-144, 260-264. -/
def Sponge.new : Sponge := ⟨table fun _ _ => 0, []⟩

/-- keccak2.py 269-272 `absorb_block`. -/
def absorbBlock (s : Lanes) (bb : Bytes) : Lanes := keccakF (absorbState s bb)

/-- keccak2.py 277-279: the loop of `absorb`; `rate` is `bitrate_bytes`. -/
def absorbLoop (rate : Nat) : Nat → Sponge → Sponge
  | 0, sp => sp
  | fuel + 1, sp =>
    if sp.buffer.length ≥ rate then absorbLoop rate fuel ⟨absorbBlock sp.s (sp.buffer.take rate), sp.buffer.drop rate⟩ else sp

/-- keccak2.py 274-279 `absorb`; a positive rate takes at least one byte per step. -/
def Sponge.absorb (rate : Nat) (sp : Sponge) (m : Bytes) : Sponge :=
  let b := sp.buffer ++ m
  absorbLoop rate b.length ⟨sp.s, b⟩

/-- keccak2.py 281-284 `absorb_final`. -/
def Sponge.absorbFinal (rate : Nat) (sp : Sponge) : Sponge := ⟨absorbBlock sp.s (sp.buffer ++ padding sp.buffer.length rate), []⟩

/-- keccak2.py 286-289 `squeeze_once`: the output and the next state. -/
def squeezeOnce (rate : Nat) (s : Lanes) : Bytes × Lanes := ((getBytes s).take rate, keccakF s)

/-- keccak2.py 293-294. -/
def squeezeLoop (rate l : Nat) : Nat → Bytes → Lanes → Bytes
  | 0, z, _ => z
  | fuel + 1, z, s => if z.length < l then let r := squeezeOnce rate s; squeezeLoop rate l fuel (z ++ r.1) r.2 else z

/-- keccak2.py 291-295 `squeeze`. -/
def squeeze (rate l : Nat) (s : Lanes) : Bytes := let r := squeezeOnce rate s; (squeezeLoop rate l l r.1 r.2).take l

/-- keccak2.py 336-345 `KeccakHash.digest`: the sponge is copied first. `size` is `digest_size`. -/
def digest (rate size : Nat) (sp : Sponge) : Bytes := squeeze rate size (sp.absorbFinal rate).s

/-- keccak2.py 368: `Keccak256`. ec_py.py 194-202 `keccak_hash`. -/
def keccakHash (inp : Bytes) : Bytes := digest 136 32 (Sponge.absorb 136 Sponge.new inp)

/-! ## The hash object -/

/-- Calls on a hash object. -/
inductive Call where
  | update (m : Bytes)
  | digest
  | reset
deriving DecidableEq

/-- keccak2.py 328-345: the outputs of `digest` in a sequence of calls. -/
def calls (rate size : Nat) : Sponge → List Call → List Bytes
  | _, [] => []
  | sp, .update m :: cs => calls rate size (sp.absorb rate m) cs
  | sp, .digest :: cs => digest rate size sp :: calls rate size sp cs
  | _, .reset :: cs => calls rate size Sponge.new cs

end Verif.Keccak
