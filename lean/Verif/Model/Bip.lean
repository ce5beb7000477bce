import Verif.Model.Basic

/-! Wallet helpers: bit packing (monero_glue/misc/bip/bip32.py 188-256), child derivation (338-404) and the memoizing decorator
(monero_glue/misc/bip/utils.py 59-70). -/

namespace Verif.Bip
open Verif

/-- bip32.py 187-220 `bytes_to_indices`, `bits = 11`: the loop over the bytes; `bs = []` is `idx + 1 == seed_len`. -/
def b2iLoop : Bytes → Nat → Nat → List Nat → List Nat
  | [], _, _, indices => indices
  | b :: bs, carry, carryBits, indices =>
    let cleft := min 8 (11 - carryBits)
    let cleftBl := 8 - cleft
    let flush := decide (cleft = 11 - carryBits)
    let carryBits1 := carryBits + cleft
    let carry1 := (carry <<< cleft) ||| ((b.toNat >>> cleftBl) &&& (2 ^ cleft - 1))
    let last := bs.isEmpty && decide (cleft ≠ 0)
    let carry2 := if last then carry1 <<< (11 - carryBits1) else carry1
    if flush || last then b2iLoop bs (b.toNat &&& (2 ^ cleftBl - 1)) cleftBl (indices ++ [carry2])
    else b2iLoop bs carry2 carryBits1 indices

/-- bip32.py 187-220. -/
def bytesToIndices (seed : Bytes) : List Nat := b2iLoop seed 0 0 []

/-- bip32.py 222-256 `indices_to_bytes`, `bits = 11`: the `while True` loop at index `cur` with `rest` still to come. `none`: iteration bound
reached (does not happen, see the properties). -/
def i2bLoop : Nat → Nat → List Nat → Nat → Nat → Nat → List Nat → Option (List Nat)
  | 0, _, _, _, _, _, _ => none
  | fuel + 1, cur, rest, carry, carryBits, avail, barr =>
    let cb := 8 - carryBits
    let cons := min cb avail
    let carry1 := (carry <<< cons) ||| ((cur >>> (avail - cons)) &&& (1 <<< cons - 1))
    let carryBits1 := carryBits + cons
    let avail1 := avail - cons
    let (barr1, carry2, carryBits2) := if cb = cons then (barr ++ [carry1], 0, 0) else (barr, carry1, carryBits1)
    if avail1 = 0 then
      match rest with
      | [] => some barr1
      | c :: rest => i2bLoop fuel c rest carry2 carryBits2 11 barr1
    else i2bLoop fuel cur rest carry2 carryBits2 avail1 barr1

/-- bip32.py 222-256; no indices: IndexError. `bytes(barr)` raises for a value above 255. -/
def indicesToBytes (indices : List Nat) : Option Bytes :=
  match indices with
  | [] => none
  | c :: rest =>
    match i2bLoop (11 * indices.length + 1) c rest 0 0 11 [] with
    | none => none
    | some barr => if barr.all (· < 256) then some (barr.map UInt8.ofNat) else none

/-! ## Child derivation -/

/-- bip32.py 338-404 `get_child`: from the requested number and hardening to the derivation index and whether the private key is used; `none` is a ValueError or InvalidPathError. -/
def childIndex (hasPrivate ed25519 : Bool) (number : Int) (isPrime : Option Bool) : Option (Nat × Bool) :=
  let boundary : Nat := 0x80000000
  if number.natAbs ≥ boundary then none else
    let np : Option (Int × Bool) := match isPrime with
      | none => if number < 0 then some (number.natAbs, true) else if number ≥ boundary then some (number - boundary, true) else some (number, false)
      | some p => if number < 0 ∨ number ≥ boundary then none else some (number, p)
    match np with
    | none => none
    | some (number, prime) =>
      if !hasPrivate && prime then none else
        if prime then some ((number + boundary).toNat, true)
        else if ed25519 then none else some (number.toNat, false)

/-! ## Memoization -/

/-- A call: positional arguments, and keyword arguments in the order given. -/
structure Call (A : Type) where
  pos : List A
  kw : List (String × A)
deriving DecidableEq

/-- utils.py 59-70 `memoize`: cache of results under `(args, tuple(kwargs))`, that is, positional values and keyword *names*. The wrapped function is
a function of its arguments (wallet objects are compared by identity); a raised exception (`none`) is not stored. -/
def memoCall {A R : Type} [DecidableEq A] (f : Call A → Option R) (cache : List ((List A × List String) × R)) (c : Call A) :
    Option R × List ((List A × List String) × R) :=
  let key := (c.pos, c.kw.map (·.1))
  match cache.find? (fun e => decide (e.1 = key)) with
  | some e => (some e.2, cache)
  | none =>
    match f c with
    | none => (none, cache)
    | some r => (some r, (key, r) :: cache)

/-- A history of calls, and the answers. -/
def memoRun {A R : Type} [DecidableEq A] (f : Call A → Option R) : List ((List A × List String) × R) → List (Call A) → List (Option R)
  | _, [] => []
  | cache, c :: cs => let r := memoCall f cache c; r.1 :: memoRun f r.2 cs

end Verif.Bip
