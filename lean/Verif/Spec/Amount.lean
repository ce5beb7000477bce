import Verif.Model.Basic

/-! Amounts as people write them: digits, and after a point up to twelve more. -/

namespace Verif.Amount

/-- A decimal digit. -/
def Digit (c : Char) : Prop := 48 ≤ c.toNat ∧ c.toNat ≤ 57

/-- The number that digits denote. -/
def value (ds : List Char) : Nat := ds.foldl (fun n c => 10 * n + (c.toNat - 48)) 0

/-- `txt` denotes `a` · 10^(-12): whole digits, or whole digits, a point and at most twelve decimals. -/
inductive Denotes : List Char → Nat → Prop
  | whole (w : List Char) (hw : w ≠ []) (hd : ∀ c ∈ w, Digit c) : Denotes w (value w * 10 ^ 12)
  | point (w f : List Char) (hw : w ≠ []) (hd : ∀ c ∈ w, Digit c) (hf : ∀ c ∈ f, Digit c) (hl : f.length ≤ 12) :
      Denotes (w ++ '.' :: f) (value w * 10 ^ 12 + value f * 10 ^ (12 - f.length))

end Verif.Amount
