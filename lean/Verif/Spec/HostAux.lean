import Verif.Model.HostAux

/-! What it means for an output to pay an integrated address. -/

namespace Verif.HostAux

/-- Output `o` pays destination `d`, which was given as an integrated address. -/
def Pays (d : Dest) (o : Out) : Prop := d.integrated = true ∧ o.addr = (d.spend, d.view) ∧ o.amount = d.amount

instance (d : Dest) (o : Out) : Decidable (Pays d o) := by unfold Pays; infer_instance

end Verif.HostAux
