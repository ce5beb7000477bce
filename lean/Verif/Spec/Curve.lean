import Mathlib.Algebra.Field.ZMod
import Verif.Lemmas.Ed25519

/-! Textbook description of the curve: affine points of the twisted Edwards curve -x² + y² = 1 + d x² y² over the field with 2^255 - 19
elements, d = -121665/121666, with the usual addition law. Nothing here refers to the program. (`Fq` is `ZMod (2^255 - 19)`.) -/

namespace Verif.Ed.Spec
open Verif.Ed

abbrev Aff := Fq × Fq

def dA : Fq := -121665 / 121666

def OnCurve (p : Aff) : Prop := -p.1 ^ 2 + p.2 ^ 2 = 1 + dA * p.1 ^ 2 * p.2 ^ 2

def zero : Aff := (0, 1)

def plus (p r : Aff) : Aff :=
  ((p.1 * r.2 + r.1 * p.2) / (1 + dA * p.1 * r.1 * p.2 * r.2), (p.2 * r.2 + p.1 * r.1) / (1 - dA * p.1 * r.1 * p.2 * r.2))

def minus (p : Aff) : Aff := (-p.1, p.2)

/-- `p + p + … + p`, `n` summands. -/
def times (p : Aff) : Nat → Aff
  | 0 => zero
  | n + 1 => plus (times p n) p

end Verif.Ed.Spec
