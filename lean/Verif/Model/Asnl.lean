import Verif.Model.Sig

/-!
Aggregate Schnorr signatures, trezor_unused/asnl.py: the predecessor of the Borromean signatures in range proofs, kept in the repository.
Random scalars are arguments. `decodeint(cn_fast_hash(…))` is the same as `hash_to_scalar` (ec_py.py 268-269, 826-834), and hashing a point hashes its
encoding (keccak2.py 191-196, `bytes(EdPoint)`).
-/

namespace Verif.Sig
open Verif Ed Key

/-- asnl.py 14-34 `gen_schnorr_non_linkable`. -/
def genNl (H : Bytes → Bytes) (x : Int) (P1 P2 : Ext) (index : Nat) (a s2 : Int) : Ext × Int × Int :=
  let L1 := scalarmultB a
  let c2 := hs H (encodePoint L1)
  let L2 := add (scalarmultB s2) (smul (if index = 0 then P2 else P1) c2)
  let c1 := hs H (encodePoint L2)
  let s1 := scMulsub x c1 a
  if index = 0 then (L1, s1, s2) else (L2, s2, s1)

/-- asnl.py 37-61 `ver_schnorr_non_linkable`: 0 is success, -1 failure. -/
def verNl (H : Bytes → Bytes) (P1 P2 L1 : Ext) (s1 s2 : Int) : Int :=
  let c2 := hs H (encodePoint L1)
  let L2 := add (scalarmultB s2) (smul P2 c2)
  let c1 := hs H (encodePoint L2)
  let L1p := add (scalarmultB s1) (smul P1 c1)
  if pointEqual L1 L1p then 0 else -1

/-- One row of the input of `gen_asnl` with its random scalars. -/
structure NlIn where
  x : Int
  P1 : Ext
  P2 : Ext
  index : Nat
  a : Int
  s2 : Int

structure AsnlSig where
  L1 : List Ext
  s2 : List Int
  s : Int

/-- asnl.py 64-87 `gen_asnl`. -/
def genAsnl (H : Bytes → Bytes) (ins : List NlIn) : AsnlSig :=
  let out := ins.map fun b => genNl H b.x b.P1 b.P2 b.index b.a b.s2
  ⟨out.map (·.1), out.map (·.2.2), (out.map (·.2.1)).foldl scAdd 0⟩

/-- asnl.py 105-112: the loop, over the rows of `P1`; a shorter other list is an IndexError. -/
def asnlLoop (H : Bytes → Bytes) : List Ext → List Ext → List Ext → List Int → Ext × Ext → Option (Ext × Ext)
  | [], _, _, _, acc => some acc
  | P1 :: p1, P2 :: p2, L1 :: l1, s2 :: t2, (lhs, rhs) =>
    let c2 := hs H (encodePoint L1)
    let L2 := add (scalarmultB s2) (smul P2 c2)
    let c1 := hs H (encodePoint L2)
    asnlLoop H p1 p2 l1 t2 (add lhs L1, add rhs (smul P1 c1))
  | _, _, _, _, _ => none

/-- asnl.py 90-121 `ver_asnl`; `point_eq` raises off the curve. -/
def verAsnl (H : Bytes → Bytes) (P1 P2 : List Ext) (sig : AsnlSig) : Option Bool :=
  match asnlLoop H P1 P2 sig.L1 sig.s2 (scalarmultB 0, scalarmultB sig.s) with
  | none => none
  | some (lhs, rhs) => pointEq lhs rhs

end Verif.Sig
