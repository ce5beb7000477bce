import Mathlib.Data.List.Sort

/-! `monero_glue/xmr/sub/tsx_helper.py:96-108`. -/

namespace Verif.Offsets

/-- In-place loop `for i in range(len-1, 0, -1): res[i] -= res[i-1]`, tsx_helper.py:106-107:
walking from the end, every element is reduced by its (still unmodified) predecessor. -/
def diffs : Int → List Int → List Int
  | _, [] => []
  | prev, x :: xs => (x - prev) :: diffs x xs

/-- `absolute_output_offsets_to_relative`, tsx_helper.py:96-108. Python's `sorted` is stable merge sort. -/
def toRelative (off : List Int) : List Int :=
  match off.mergeSort (fun a b => decide (a ≤ b)) with
  | [] => []
  | x :: xs => x :: diffs x xs

end Verif.Offsets
