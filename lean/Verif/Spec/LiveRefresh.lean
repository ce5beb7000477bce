import Verif.Spec.Sig
import Verif.Model.TxKeys

/-! What the host checks of a key image during a live refresh. -/

namespace Verif.LiveRefresh
open Verif Ed Key Sig

/-- `(c, r)` is a signature over `kiBin` that relates the key image `I` to the one-time key `P`. -/
def Proven (H : Bytes → Bytes) (kiBin : Bytes) (P I : Point) (c r : ℤ) : Prop :=
  (0 < c ∧ c < l) ∧ (0 < r ∧ r < l) ∧
    c = hs H (kiBin ++ (encPt (c • P + r • base) ++ encPt (r • hpt H (encPt P) + c • I)))

/-- The key image of the output with secret `x`. -/
noncomputable def image (H : Bytes → Bytes) (x : ℤ) : Point := x • hpt H (encPt (x • base))

end Verif.LiveRefresh
