import Verif.Model.KiHost
import Verif.Spec.Real
import Verif.Spec.Sig

/-! What an imported key image should be, and which outputs a wallet received. -/

namespace Verif.KiSync
open Verif Ed Key Signer Agent Real

/-- What a wallet checks of an imported key image: the three strings read back as a point and two scalars, which are a ring signature over the key
image under the key of the output alone. -/
def ImageOk (H : Bytes → Bytes) (out : Bytes) (res : Bytes × Bytes × Bytes) : Prop :=
  ∃ P I c r, decodePoint out = some P ∧ decodePoint res.1 = some I ∧ decodeScalar res.2.1 = some c ∧ decodeScalar res.2.2 = some r ∧
    Sig.checkRing H res.1 I [P] [(c, r)] = some true

/-- What the wallet keeps of output `n` of a transaction, received at its address `(i, j)`. -/
def transferOf (tx : Tx) (n i j : Nat) : Transfer := ⟨tx.extra, tx.vout.map (·.key), n, i, j⟩

/-- Somebody with a wallet `s` had a request signed by their device, with output `n` for the address `(i, j)` of wallet `o`. -/
structure Sent (s o : Outside) (tx : Tx) (n i j : Nat) : Prop where
  sender : s.Ok
  hash : s.hash = o.hash
  indices : i < 2 ^ 32 ∧ j < 2 ^ 32
  run : ∃ cfg d rnd hrnd c c' dst, Fits cfg d ∧ (∀ x ∈ d.dsts, ∀ y ∈ d.dsts, x.addr = y.addr → x.isSub = y.isSub) ∧
    signTransaction (env s) cfg Wire.codec rnd hrnd d c = some (tx, c') ∧ d.dsts[n]? = some dst ∧ address o i j = some dst.addr ∧
    (dst.isSub = true ↔ ¬ (i = 0 ∧ j = 0)) ∧ (dst.addr = d.change.addr → o.view = s.view)

/-- The second scalar of the signature over the key image of the output with key `out` and secret `x`, with the random scalar `k`. -/
def response (H : Bytes → Bytes) (out : Bytes) (x k : Int) : Int :=
  (k - hs H (encodePoint (smul (hp H out) x) ++ (encodePoint (scalarmultB k) ++ encodePoint (smul (hp H out) k))) * x) % l

end Verif.KiSync
