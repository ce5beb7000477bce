import Verif.Model.Basic

/-!
Symbol resolution of the trace reader, monero_poc/tools/log_aux_qemu.py 45-65, 101-124, 187-202, 246-254. A symbol is any value of type `S`. The parsing
of linker map files (126-185) is left out: the model starts with the pairs of address and symbol found in them.
-/

namespace Verif.Symbols

/-- log_aux_qemu.py 48-65: the loop of `binary_search`; `sorted([highIndex, lowIndex])` is the pair of the smaller and the larger. -/
def search (data : List Nat) (val lo hi : Nat) : Nat × Nat :=
  if lo < hi then
    let index := (hi + lo) / 2
    let sub := data.getD index 0
    if data.getD lo 0 = val then (lo, lo)
    else if sub = val then (index, index)
    else if data.getD hi 0 = val then (hi, hi)
    else if sub > val then
      if hi = index then (min hi lo, max hi lo) else search data val lo index
    else
      if lo = index then (min hi lo, max hi lo) else search data val index hi
  else (min hi lo, max hi lo)
termination_by hi - lo

/-- log_aux_qemu.py 45-65 `binary_search`; `none` for an empty list, where the indices are -1 and 0 and the caller's access raises. -/
def binarySearch (data : List Nat) (val : Nat) : Option (Nat × Nat) :=
  if data = [] then none else some (search data val 0 (data.length - 1))

/-- log_aux_qemu.py 200: a symbol is entered under its address; one that is there is replaced in place. -/
def put {S : Type} : List (Nat × S) → Nat → S → List (Nat × S)
  | [], a, s => [(a, s)]
  | (b, t) :: m, a, s => if b = a then (a, s) :: m else (b, t) :: put m a s

/-- log_aux_qemu.py 126-202: all symbols of all map files, in order. -/
def load {S : Type} (defs : List (Nat × S)) : List (Nat × S) := defs.foldl (fun m d => put m d.1 d.2) []

/-- log_aux_qemu.py 187. -/
def addrs {S : Type} (m : List (Nat × S)) : List Nat := (m.map Prod.fst).mergeSort (fun a b => decide (a ≤ b))

/-- log_aux_qemu.py 110-113 `resolve`. (A miss enters `None` in the table, which reads like a miss.) -/
def resolve {S : Type} (m : List (Nat × S)) (addr : Nat) : Option S := m.lookup addr

/-- log_aux_qemu.py 115-124 `resolve_ish`; the outer `none` is IndexError. -/
def resolveIsh {S : Type} (m : List (Nat × S)) (addr : Nat) : Option (Option S) :=
  match resolve m addr with
  | some s => some (some s)
  | none =>
    match binarySearch (addrs m) addr with
    | none => none
    | some r => some (resolve m ((addrs m).getD r.1 0))

/-- log_aux_qemu.py 246-254 for one number of a line: nothing if it is below 32, else whether it is the address of a symbol, and the symbol printed. -/
def annotate {S : Type} (m : List (Nat × S)) (addr : Nat) : Option (Option (Bool × Option S)) :=
  if addr < 32 then some none
  else match resolve m addr with
    | some s => some (some (true, some s))
    | none => (resolveIsh m addr).map fun s => some (false, s)

end Verif.Symbols
