import Verif.Model.Key
import Verif.Model.Bulletproof

/-! The helpers of xmr/ring_ct.py that make one Bulletproof, and that hide an amount under a fresh key of the sender. -/

namespace Verif.Rct
open Verif Ed Key

/-- ring_ct.py 48-60 `prove_range_bp`: the commitment is read back from the proof; `fresh` is `random_scalar()`. -/
def proveRangeOne (H : Bytes → Bytes) (rnd : Bp.Rand) (amount : Nat) (last : Option Int) (fresh : Int) : Option (Ext × Int × Bp.Proof) :=
  let mask := last.getD fresh
  match Bp.proveRangeBp H rnd [amount] [mask] with
  | none => none
  | some π => match π.V[0]? with
    | none => none
    | some v => (decodePoint v).map fun V => (mul8 V, mask, π)

/-- An `EcdhTuple` with scalars; `sender` is absent unless `ecdh_encode` drew a key. -/
structure Ecdh where
  mask : Int
  amount : Int
  sender : Option Ext

/-- What `ecdh_encdec` gets as `derivation`: bytes, or the `EdPoint` it computes itself (ring_ct.py 462-464). -/
inductive Deriv
  | bytes (b : Bytes)
  | point (P : Ext)

/-- `bytes(derivation)`, which is what the hash absorbs (backend/keccak2.py 192-196, 274-275; ec_py.py 127-128). -/
def Deriv.hashed : Deriv → Bytes
  | .bytes b => b
  | .point P => encodePoint P

/-- `data[k:] = derivation` for a `bytearray`: an `EdPoint` is iterated over with `__getitem__` (ec_py.py 116-117), which gives its four
coordinates, and a number that is no byte raises. -/
def Deriv.copied : Deriv → Option Bytes
  | .bytes b => some b
  | .point P => [P.x, P.y, P.z, P.t].mapM fun c => if 0 ≤ c ∧ c < 256 then some (UInt8.ofNat c.toNat) else none

/-- ring_ct.py 457-484 `ecdh_encdec` once `derivation` is known; the result carries the sender's key `ecdh_encode` put there. `none` is an
exception. -/
def encdec (H : Bytes → Bytes) (e : Ecdh) (dv : Deriv) (v2 enc : Bool) (sender : Option Ext) : Option Ecdh :=
  if v2 then
    match dv.copied with
    | none => none
    | some k => (decodeScalar (xor8 (encodeInt e.amount) (ecdhHash H k))).map fun a => ⟨commitmentMask H k, a, sender⟩
  else
    let h1 := hs H dv.hashed
    let h2 := hs H (encodeInt h1)
    if enc then some ⟨scAdd e.mask h1, scAdd e.amount h2, sender⟩ else some ⟨scSub e.mask h1, scSub e.amount h2, sender⟩

/-- ring_ct.py 431-446 `ecdh_encode` for a receiver's key; `esk` is `random_scalar()`. -/
def encodeTo (H : Bytes → Bytes) (e : Ecdh) (receiver : Ext) (esk : Int) (v2 : Bool) : Option Ecdh :=
  encdec H e (.bytes (encodePoint (smul receiver esk))) v2 true (some (scalarmultB esk))

/-- ring_ct.py 431-446 `ecdh_encode` with a given derivation. -/
def encodeWith (H : Bytes → Bytes) (e : Ecdh) (key : Bytes) (v2 : Bool) : Option Ecdh := encdec H e (.bytes key) v2 true none

/-- ring_ct.py 449-454 `ecdh_decode` with the receiver's secret key; without a sender's key the multiplication raises. -/
def decodeBy (H : Bytes → Bytes) (e : Ecdh) (sk : Int) (v2 : Bool) : Option Ecdh :=
  match e.sender with
  | none => none
  | some S => encdec H e (.point (smul S sk)) v2 false none

/-- ring_ct.py 449-454 `ecdh_decode` with a given derivation. -/
def decodeWith (H : Bytes → Bytes) (e : Ecdh) (key : Bytes) (v2 : Bool) : Option Ecdh := encdec H e (.bytes key) v2 false none

/-- ring_ct.py 492-511 `decode_rct` for one output: the amount, and whether the warning was logged. -/
def decodeRct (H : Bytes → Bytes) (e : Ecdh) (sk : Int) (C : Ext) : Option (Int × Bool) :=
  match decodeBy H e sk false with
  | none => none
  | some d => (pointEq (sub C (add (scalarmultB d.mask) (smul hPt d.amount))) ident).map fun same => (d.amount, !same)

end Verif.Rct
