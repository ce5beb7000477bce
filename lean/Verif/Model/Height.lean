import Verif.Model.Basic

/-! Restore height of a date: xmr/wallet.py 358-395. -/

namespace Verif.Height

/-- How the search ends. -/
inductive Out where
  | height (h : Int)
  /-- wallet.py 384: "Specified date is in the future". -/
  | future
  /-- The daemon did not serve one of the requested heights, or the block did not parse (370-374). -/
  | rpc
  /-- Not an outcome of the code: the fuel of the model ran out. `C55_terminates` shows that it never does. -/
  | fuel
deriving DecidableEq, Repr

/-- wallet.py 376-386: two days, in seconds. -/
def margin : Int := 2 * 24 * 60 * 60

/-- wallet.py 394: two days, in blocks. -/
def span : Int := 2 * 24 * 30

/-- wallet.py 381: `min(heights)`. -/
def least (lo mid hi : Int) : Int := min lo (min mid hi)

/-- wallet.py 367-395: one turn of the `while True` per unit of fuel. `block h` is the timestamp of the block the daemon serves for the height `h`. -/
def search (block : Int → Option Int) (t : Int) : Nat → Int → Int → Out
  | 0, _, _ => .fuel
  | n + 1, lo, hi =>
    let mid := (lo + hi) / 2
    match block lo, block mid, block hi with
    | some tMin, some tMid, some tMax =>
      if ¬ (tMin ≤ tMid ∧ tMid ≤ tMax) then .height (least lo mid hi)
      else if t > tMax then .future
      else if t ≤ tMin + margin then .height lo
      else
        let lo' := if t ≤ tMid then lo else mid
        let hi' := if t ≤ tMid then mid else hi
        if hi' - lo' ≤ span then .height lo' else search block t n lo' hi'
    | _, _, _ => .rpc

/-- wallet.py 361-366; `t` is the timestamp of midnight UTC of the date, `n` the height the daemon reports. -/
def heightByDate (block : Int → Option Int) (n : Nat) (t : Int) : Out := search block t (n + 1) 0 (n - 1)

end Verif.Height
