import Verif.Spec.Signer

/-!
Idealised cryptography for the statements about tags, sealed blobs and keys. These are hypotheses of
theorems, never axioms; `Props/SignerTags.lean` shows an instance.
-/

namespace Verif.Signer
open Verif
variable {S P : Type}

/-- Purposes the signer derives keys for (tsx_sign_builder.py:291-337). -/
inductive Purpose
  | txin | txinComm | txdst | txout | txoutAsig | txinAlpha | spend | cout | outMask
deriving DecidableEq

/-- The labels are those of the program. -/
def Purpose.label : Purpose → Bytes
  | .txin => dTxin
  | .txinComm => dTxinComm
  | .txdst => dTxdst
  | .txout => dTxout
  | .txoutAsig => dTxoutAsig
  | .txinAlpha => dTxinAlpha
  | .spend => dSpend
  | .cout => dCout
  | .outMask => dOutMask

/-- The key of a purpose at a position. -/
def KeyFor (env : Env S P) (secret : Bytes) (p : Purpose) (i : Nat) (key : Bytes) : Prop :=
  ∃ buf, keyBuf secret p.label (some i) = some buf ∧ key = env.keccak2 buf

/-- Collision-free hashing and tagging. The key hash returns 32 bytes and does not collide on buffers that
start with the same 32-byte secret. -/
structure Binding (env : Env S P) : Prop where
  keyLen : ∀ x, (env.keccak2 x).length = 32
  keyInj : ∀ secret x y : Bytes, secret.length = 32 → x.length = 16 → y.length = 16 →
    env.keccak2 (secret ++ x) = env.keccak2 (secret ++ y) → x = y
  macInj : ∀ k k' m m', env.mac k m = env.mac k' m' → k = k' ∧ m = m'
  hashInj : ∀ x y, env.keccak x = env.keccak y → x = y

/-- An authenticated cipher: what decrypts under a key was encrypted under this key, and scalars and points
survive their encoding. -/
structure Sealing (env : Env S P) : Prop where
  openSeal : ∀ k m n, env.decPack k (env.encPack k m n) = some m
  bind : ∀ k k' m m' n, env.decPack k' (env.encPack k m n) = some m' → k = k'
  scRound : ∀ x, env.scDec (env.scEnc x) = x
  ptRound : ∀ p, env.ptDec (env.ptEnc p) = some p

/-- Every authentication tag the device handed out in a session. -/
def issued (s : List (Event S)) : List Bytes :=
  (match initOf s with | some (_, _, hmacs) => hmacs | none => []) ++
  (inputs s).map (·.viniHmac) ++ (inputs s).map (·.pseudoOutHmac) ++ (outputs s).map (·.ack.voutiHmac)

end Verif.Signer
