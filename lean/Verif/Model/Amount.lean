import Verif.Model.Hd

/-!
Amounts at the command line: monero_poc/utils/misc.py 132-133, `float(text)`, monero_glue/xmr/wallet.py 283-289 and the formats of
monero_poc/trezor.py 486-510. Python's floats are IEEE 754 binary64 numbers with rounding to nearest, ties to even; a finite one is given by its value
(the sign of zero and of infinity do not matter here).
-/

namespace Verif.Amount
open Verif

/-- A binary64 number. -/
inductive Double
  | fin (q : Rat)
  | inf
  | nan

/-- The nearest integer, ties to even. -/
def nearest (q : Rat) : Int :=
  let m := q.floor
  if 1 / 2 < q - m ∨ (q - m = 1 / 2 ∧ m % 2 = 1) then m + 1 else m

/-- The exponent `e` with `2 ^ e ≤ q < 2 ^ (e + 1)`, for a positive `q`. -/
def ilog (q : Rat) : Int :=
  let e : Int := (Nat.log2 q.num.toNat : Int) - Nat.log2 q.den
  if (2 : Rat) ^ e ≤ q then e else e - 1

/-- A positive number rounded to 53 significant bits, or to a multiple of `2 ^ -1074`. -/
def roundPos (q : Rat) : Rat :=
  let t := max (ilog q - 52) (-1074)
  nearest (q / (2 : Rat) ^ t) * (2 : Rat) ^ t

/-- Rounding to binary64. -/
def round (q : Rat) : Double :=
  if q = 0 then .fin 0
  else if 0 < q then if (2 : Rat) ^ (1024 : Nat) ≤ roundPos q then .inf else .fin (roundPos q)
  else if (2 : Rat) ^ (1024 : Nat) ≤ roundPos (-q) then .inf else .fin (-roundPos (-q))

/-- `x * y` (a product with an infinity or a NaN is one of them: here `nan`). -/
def Double.mul : Double → Double → Double
  | .fin a, .fin b => round (a * b)
  | _, _ => .nan

/-- `int(x)`: toward zero; `none` is OverflowError or ValueError. -/
def Double.toInt : Double → Option Int
  | .fin q => some (if q < 0 then -(-q).floor else q.floor)
  | _ => none

/-! ## `float(text)` -/

/-- The digits of a number before the exponent and how many of them follow the point. -/
def mantissa (s : List Char) : Option (Nat × Nat) :=
  let w := s.takeWhile (· ≠ '.')
  match s.drop w.length with
  | [] => (Hd.digitsVal w false 0).map fun a => (a, 0)
  | _ :: f =>
    let n := (f.filter (· ≠ '_')).length
    if w = [] then (Hd.digitsVal f false 0).map fun b => (b, n)
    else if f = [] then (Hd.digitsVal w false 0).map fun a => (a, 0)
    else (Hd.digitsVal w false 0).bind fun a => (Hd.digitsVal f false 0).map fun b => (a * 10 ^ n + b, n)

/-- The exponent. -/
def expVal : List Char → Option Int
  | '-' :: r => (Hd.digitsVal r false 0).map fun n => -(n : Int)
  | '+' :: r => (Hd.digitsVal r false 0).map fun n => (n : Int)
  | r => (Hd.digitsVal r false 0).map fun n => (n : Int)

/-- A number without sign: its exact value. -/
def unsigned (s : List Char) : Option Rat :=
  let m := s.takeWhile fun c => c ≠ 'e' ∧ c ≠ 'E'
  (mantissa m).bind fun p =>
    match s.drop m.length with
    | [] => some ((p.1 : Rat) * (10 : Rat) ^ (-(p.2 : Int)))
    | _ :: x => (expVal x).map fun (e : Int) => (p.1 : Rat) * (10 : Rat) ^ (e - (p.2 : Int))

/-- `inf`, `nan` or a number, without sign. -/
def body (s : List Char) (neg : Bool) : Option Double :=
  let t := s.map Char.toLower
  if t = "inf".toList ∨ t = "infinity".toList then some .inf
  else if t = "nan".toList then some .nan
  else (unsigned s).map fun q => round (if neg then -q else q)

/-- `float(text)` (ASCII); `none` is a ValueError. -/
def float (s : List Char) : Option Double :=
  match ((s.dropWhile Hd.isSpace).reverse.dropWhile Hd.isSpace).reverse with
  | '-' :: r => body r true
  | '+' :: r => body r false
  | r => body r false

/-! ## Conversions -/

/-- misc.py 132-133 `amount_to_uint64` (`DISPLAY_DECIMAL_POINT = 12`, monero.py 26; the integer `10 ** 12` is converted exactly). -/
def amountToUint64 (x : Double) : Option Int := (Double.mul (.fin (10 ^ 12)) x).toInt

/-- wallet.py 283-289 `conv_disp_amount`: the integer is converted, then divided. -/
def convDispAmount (amount : Nat) : Double :=
  match round amount with
  | .fin q => round (q / 10 ^ 12)
  | d => d

/-- The format `%.8f` of a finite number: how many units of the eighth decimal are printed. -/
def fixed8 : Double → Option Int
  | .fin q => some (if q < 0 then -nearest (-q * 10 ^ 8) else nearest (q * 10 ^ 8))
  | _ => none

end Verif.Amount
