import Verif.Model.KeyV
import Verif.Model.Varint

/-!
Serialization of range proofs: protocol/tsx_sign_builder.py 1167-1206 `_s6_dump_rsig_bp`, the same in hwtoken/misc.py 152-193 `dump_rsig_bp`, and the
parser of the wire format (`misc.parse_msg`, hwtoken/misc.py 111-114, over the external serialization library).
-/

namespace Verif.Bp
open Verif

/-- The buffer being filled and the offset. -/
abbrev Wr := Bytes × Nat

/-- `memcpy(buff, offset, x, 0, 32)`, then the offset moves by 32. -/
def wr (x : Bytes) (s : Wr) : Option Wr := let r := KeyV.memcpy s.1 (s.2 : Int) x 0 32; if r.2 then some (r.1, s.2 + 32) else none

/-- `buff[offset] = n`: `none` for a value above 255 or an offset past the end. -/
def wrByte (n : Nat) (s : Wr) : Option Wr := if n < 256 ∧ s.2 < s.1.length then some (s.1.set s.2 (UInt8.ofNat n), s.2 + 1) else none

/-- The loops of 1190-1192 and 1197-1199. -/
def wrAll : List Bytes → Wr → Option Wr
  | [], s => some s
  | x :: xs, s => (wr x s).bind (wrAll xs)

/-- tsx_sign_builder.py 1167-1206. -/
def dumpRsigBp (p : Proof) : Option Bytes :=
  if p.L.length > 127 then none
  else do
    let s ← wrAll [p.A, p.S, p.T1, p.T2, p.taux, p.mu] (List.replicate (32 * (9 + 2 * p.L.length) + 2) 0, 0)
    let s ← wrByte p.L.length s
    let s ← wrAll p.L s
    let s ← wrByte p.R.length s
    let s ← wrAll p.R s
    let s ← wrAll [p.a, p.b, p.t] s
    some s.1

/-- A fixed 32-byte field of the wire format. -/
def rdKey (b : Bytes) : Option (Bytes × Bytes) := if b.length < 32 then none else some (b.take 32, b.drop 32)

/-- `n` fields. -/
def rdKeys : Nat → Bytes → Option (List Bytes × Bytes)
  | 0, b => some ([], b)
  | n + 1, b => do
    let (k, b) ← rdKey b
    let (ks, b) ← rdKeys n b
    some (k :: ks, b)

/-- A vector: its length as a variable-length integer, then the elements. -/
def rdVec (b : Bytes) : Option (List Bytes × Bytes) := (Varint.load b).bind fun r => rdKeys r.1 r.2

/-- The `Bulletproof` message of the wire format: A, S, T1, T2, taux, mu, L, R, a, b, t; the commitments are not part of it. Returns what is left. -/
def parseRsigBp (b : Bytes) : Option (Proof × Bytes) := do
  let (A, b) ← rdKey b
  let (S, b) ← rdKey b
  let (T1, b) ← rdKey b
  let (T2, b) ← rdKey b
  let (taux, b) ← rdKey b
  let (mu, b) ← rdKey b
  let (L, b) ← rdVec b
  let (R, b) ← rdVec b
  let (a, b) ← rdKey b
  let (bb, b) ← rdKey b
  let (t, b) ← rdKey b
  some (⟨[], A, S, T1, T2, taux, mu, L, R, a, bb, t⟩, b)

/-- ring_ct.py 39-45 `bp_size`; the loop is the one of the prover. -/
def bpSize (outputs : Nat) : Nat := 32 * (21 + outputs + 2 * logM outputs)

end Verif.Bp
