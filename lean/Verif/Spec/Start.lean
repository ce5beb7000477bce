import Verif.Model.Start

/-! What a user expects of a start of the agent. -/

namespace Verif.Start
open Verif Verif.Ed

/-- The keys file opens with the agent's password and is a wallet of the agent's public keys. -/
def Watches (e : Env) (s : Agent) (data : Bytes) : Prop :=
  ∃ k wl kd, s.keys = some k ∧ KeysFile.load e.x e.c s.password data = some wl ∧ wl.keyData = some kd ∧
    kd.spendPub = encodePoint k.2 ∧ kd.viewPub = encodePoint k.1

/-- No file that was there has changed. -/
def Keeps (d d' : Disk) : Prop := (∀ p b, d.keys p = some b → d'.keys p = some b) ∧ ∀ f, d.account = some f → d'.account = some f

/-- The user was shown the height and said yes. -/
def Confirmed (said : List Said) (h : Height) : Prop := said.getLast? = some (.asked h true)

/-- A date could not be resolved and the user did not want to try again. -/
def Declined (said : List Said) : Prop := said.getLast? = some (.unresolved false)

end Verif.Start
