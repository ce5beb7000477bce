import Verif.Model.Ed25519

/-!
xmr/core/ec_py.py 305-355, 415-425, 575-599: coordinate conversions and modular inverses by the extended Euclidean algorithm.
`none` is an exception. Python's `%` and `//` round down (`Int.fmod`, `Int.fdiv`).
-/

namespace Verif.Euclid
open Verif

/-- ec_py.py 578-584: the loop of `extended_gcd`. -/
def egcdLoop (lastrem rem : Nat) (x lastx y lasty : Int) : Nat × Int × Int :=
  if h : rem = 0 then (lastrem, lastx, lasty)
  else egcdLoop rem (lastrem % rem) (lastx - (lastrem / rem : Nat) * x) x (lasty - (lastrem / rem : Nat) * y) y
termination_by rem
decreasing_by exact Nat.mod_lt _ (Nat.pos_of_ne_zero h)

/-- ec_py.py 575-585 `extended_gcd`. -/
def extendedGcd (a b : Int) : Nat × Int × Int :=
  let r := egcdLoop a.natAbs b.natAbs 0 1 1 0
  (r.1, r.2.1 * (if a < 0 then -1 else 1), r.2.2 * (if b < 0 then -1 else 1))

/-- ec_py.py 588-592 `modinv`. -/
def modinv (a m : Int) : Option Int :=
  let r := extendedGcd a m
  if r.1 ≠ 1 then none
  else if m = 0 then none
  else some (r.2.1.fmod m)

/-- ec_py.py 595-599 `mul_inverse_egcd`: `(n < 2 and t % N or mul_inverse_egcd(n, x % n, t, s - x // n * t, N or n), -1)[n < 1]`. The pair is built before it is
indexed. Negative `n` is below 2, so it is not followed further unless `t % N` is zero, then `x % n` is in `(n, 0]`. -/
def mulInverse (x n s t N : Int) : Option Int :=
  let next (_ : Unit) : Option Int :=
    if h : n = 0 then none
    else mulInverse n (x.fmod n) t (s - x.fdiv n * t) (if N = 0 then n else N)
  let first : Option Int :=
    if n < 2 then
      if N = 0 then none
      else if t.fmod N ≠ 0 then some (t.fmod N)
      else next ()
    else next ()
  if n < 1 then first.map fun _ => -1 else first
termination_by n.natAbs
decreasing_by
  rcases Int.lt_or_gt_of_ne h with hn | hn
  · have h1 := Int.fmod_lt_of_pos (-x) (b := -n) (by omega)
    have h2 := Int.fmod_nonneg_of_pos (-x) (b := -n) (by omega)
    rw [Int.neg_fmod_neg] at h1 h2
    omega
  · have h1 := Int.fmod_lt_of_pos x hn
    have h2 := Int.fmod_nonneg_of_pos x hn
    omega

end Verif.Euclid

namespace Verif.Ed
open Verif

/-- ec_py.py 305-312 `conv_xy_to_ext`. -/
def xyToExt (x y : Int) : Ext := ⟨x % q, y % q, 1, x * y % q⟩

/-- ec_py.py 315-326 `conv_ext_to_xy`; the fourth coordinate is not read. -/
def extToXy (P : Ext) : Int × Int := (P.x * inv P.z % q, P.y * inv P.z % q)

/-- ec_py.py 348-355 `conv_p1p1_to_ext`. -/
def p1p1ToExt (P : Ext) : Ext := ⟨P.x * P.t % q, P.y * P.z % q, P.z * P.t % q, P.x * P.y % q⟩

end Verif.Ed
