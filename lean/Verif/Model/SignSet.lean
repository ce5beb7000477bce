import Verif.Model.Agent

/-!
Signing of several transactions in a row: monero_glue/agent/agent_lite.py 203-250.
-/

namespace Verif.Agent
open Verif Verif.Signer
variable {S P : Type} [CommRing S] [AddCommGroup P] [Module S P] [DecidableEq S] [DecidableEq P]

/-- What `sign_tx` is given: construction data or a list of them, 224-225. -/
inductive Job
  | one (d : TxData)
  | list (ds : List TxData)

/-- 224-225: anything but a list is put into one. -/
def Job.data : Job → List TxData
  | .one d => [d]
  | .list ds => ds

/-- The loops of `sign_unsigned_tx` 209-214 and `sign_tx` 226-231 from transaction number `n` on; `ser` is `serialize_tx`, 240-250 (the external
serializer), `hrnd n` the randomness of the host for transaction `n`. `none`: an exception, which leaves the loop. -/
def signEach (env : Env S P) (cfg : Config) (cdc : Codec) (ser : Tx → Bytes) (rnd : Nat → Rand S) (hrnd : Nat → Nat → Bytes) :
    Nat → List TxData → Conn S P → Option (List Bytes × Conn S P)
  | _, [], c => some ([], c)
  | n, d :: ds, c => (signTransaction env cfg cdc rnd (hrnd n) d c).bind fun r =>
      (signEach env cfg cdc ser rnd hrnd (n + 1) ds r.2).map fun q => (ser r.1 :: q.1, q.2)

/-- `sign_unsigned_tx`, 203-214. -/
def signUnsigned (env : Env S P) (cfg : Config) (cdc : Codec) (ser : Tx → Bytes) (rnd : Nat → Rand S) (hrnd : Nat → Nat → Bytes)
    (txes : List TxData) (c : Conn S P) : Option (List Bytes × Conn S P) := signEach env cfg cdc ser rnd hrnd 0 txes c

/-- `sign_tx`, 216-231. -/
def signTx (env : Env S P) (cfg : Config) (cdc : Codec) (ser : Tx → Bytes) (rnd : Nat → Rand S) (hrnd : Nat → Nat → Bytes) (job : Job)
    (c : Conn S P) : Option (List Bytes × Conn S P) := signEach env cfg cdc ser rnd hrnd 0 job.data c

end Verif.Agent
