import Verif.Model.TxBuilder
import Verif.Model.Real

/-!
How the builder of unsigned transactions is used: first the inputs, then the outputs, then the change.
-/

namespace Verif.Builder
open Verif Ed Key Agent Real

/-- An input that is asked for: the random numbers, the amount, the sub-address (`major` if not that of the builder) and whether its transaction has
additional keys. -/
structure In where
  w : Draws
  value : Nat
  major : Option Nat
  minor : Nat
  additionals : Bool

/-- An output that is asked for: the keys of the receiver, the amount and the sub-address. -/
structure Out where
  dest : Creds
  value : Nat
  major : Nat
  minor : Nat

/-- The address that the output goes to. -/
def Out.addr (H : Bytes → Bytes) (p : Out) : Option Signer.Addr :=
  (subAddressKeys H p.dest.view (scalarmultB p.dest.spend) p.major p.minor).map fun K => ⟨encodePoint K.1, encodePoint K.2⟩

/-- The calls `gen_input` for the inputs, `gen_output` for the outputs, `gen_change` and `build`. -/
def transaction (H : Bytes → Bytes) (c : Creds) (account fee : Nat) (ins : List In) (outs : List Out) : Option TxData :=
  (ins.foldlM (fun (s : State) i => s.addInput H c i.w i.value i.major i.minor i.additionals) (⟨account, fee, [], [], [], none⟩ : State)).bind fun s =>
    (outs.foldlM (fun (s : State) p => s.addOutput H p.dest p.value p.major p.minor false) s).bind fun s => (s.addChange H c none).bind State.build

/-- The keys of a wallet. -/
def creds (o : Outside) : Creds := ⟨Bp.num o.view, Bp.num o.spend⟩

/-- What the random numbers satisfy. -/
structure Draws.Ok (w : Draws) : Prop where
  r : 0 < w.r ∧ w.r < l
  mask : 0 ≤ w.mask ∧ w.mask < l
  ring : w.others ≠ []
  index : w.index ≤ w.others.length
  idxs : w.idxs.length = w.others.length + 1
  adds : w.oidx < w.adds.length

/-- What is asked for can be generated. -/
structure In.Ok (o : Outside) (account : Nat) (i : In) : Prop where
  draws : i.w.Ok
  value : i.value < 2 ^ 64
  major : i.major.getD account < 2 ^ 32
  minor : i.minor < 2 ^ 32
  key : ∀ sec, ¬ (i.major.getD account = 0 ∧ i.minor = 0) → subSecret o.hash (Bp.num o.view) (i.major.getD account) i.minor = some sec →
    (sec : Fl) + o.spend ≠ 0

/-- The receiver's keys are scalars. -/
structure Out.Ok (p : Out) : Prop where
  view : 0 ≤ p.dest.view
  value : p.value < 2 ^ 64
  major : p.major < 2 ^ 32
  minor : p.minor < 2 ^ 32

/-- What is common to the following theorems: the inputs and outputs can be generated, there is at least one input and enough money. -/
structure Sensible (o : Outside) (account fee : Nat) (ins : List In) (outs : List Out) : Prop where
  small32 : account < 2 ^ 32
  some : ins ≠ []
  inputs : ∀ i ∈ ins, i.Ok o account
  outputs : ∀ p ∈ outs, p.Ok
  few : ins.length ≤ 2 ^ 42 ∧ outs.length < 2 ^ 42
  enough : (outs.map (·.value)).sum + fee ≤ (ins.map (·.value)).sum
  small : (ins.map (·.value)).sum < (outs.map (·.value)).sum + fee + 2 ^ 64

end Verif.Builder
