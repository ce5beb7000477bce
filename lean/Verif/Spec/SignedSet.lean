import Verif.Model.SignedSet
import Verif.Spec.Agent

/-! What the hot wallet expects of a signed transaction set. -/

namespace Verif.SignedSet
open Verif Verif.Signer Verif.Agent
variable {S P : Type} [CommRing S] [AddCommGroup P] [Module S P] [DecidableEq S] [DecidableEq P]

/-- `k` is the key image of the source, which the wallet owns. -/
def IsImage (env : Env S P) (d : TxData) (src : Src) (k : Bytes) : Prop := ∃ x ki, Owns env (tableOf env d) src x ki ∧ k = env.ptEnc ki

/-- Transfer number `t` is spent by the transaction, as `src`. -/
def Spends (u : Unsigned) (t : Nat) (src : Src) : Prop := ∃ j : Nat, u.selected[j]? = some t ∧ u.data.sources[j]? = some src

/-- An unsigned set as a wallet makes it: every source has the number of its transfer, and no transfer is spent twice. -/
structure SetOk (cfg : Config) (txes : List Unsigned) : Prop where
  fits : ∀ u ∈ txes, Fits cfg u.data
  numbered : ∀ u ∈ txes, u.selected.length = u.data.sources.length
  once : (txes.flatMap (·.selected)).Nodup

/-- The record is of a transaction the user confirmed and that is correctly signed for the request. -/
def RecordOk (env : Env S P) (cfg : Config) (rnd : Nat → Rand S) (u : Unsigned) (p : Pending) : Prop :=
  p.selected = u.selected ∧ (∃ n, (rnd n).confirm = true) ∧
    ∃ ins outs groups nonce txKey addKeys, TxOk env cfg u.data p.tx ins outs groups nonce txKey addKeys

/-- Encoding of the neutral element. -/
def neutral : Bytes := [1, 0, 0, 0, 0, 0, 0, 0, 0, 0, 0, 0, 0, 0, 0, 0, 0, 0, 0, 0, 0, 0, 0, 0, 0, 0, 0, 0, 0, 0, 0, 0]

end Verif.SignedSet
