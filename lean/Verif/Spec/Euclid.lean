import Verif.Model.Euclid

/-!
C103: what an inverse is.
-/

namespace Verif.Euclid

/-- The inverse of `a` modulo a positive `m`, in the range of remainders. -/
def IsInverse (a m r : Int) : Prop := 0 ≤ r ∧ r < m ∧ m ∣ a * r - 1

/-- `a` and `m` have no common divisor but `1` and `-1`. -/
def Coprime (a m : Int) : Prop := ∀ k : Int, k ∣ a → k ∣ m → k = 1 ∨ k = -1

end Verif.Euclid
