import Mathlib.Data.List.Dedup
import Mathlib.Algebra.Order.Ring.Rat

/-!
# The timing summary of the complete example experiment in Python

Models lines 122 and 130-136 of `build/python/example/example_experiment_complete.py`. Rational numbers stand for the times; the
dictionary `timings` is given by the list of all its entries in the order of line 122. The format of the numbers is not modelled.
-/

namespace PyMedian

/-- `l[-i]` for a positive `i` as in line 135 of `build/python/example/example_experiment_complete.py`; `none` is an `IndexError`. -/
def fromEnd (l : List ℚ) (i : Nat) : Option ℚ := if i ≤ l.length then l[l.length - i]? else none

/-- Lines 134-135 of `build/python/example/example_experiment_complete.py`; `none` is an `IndexError`. -/
def median (timings : List ℚ) : Option ℚ :=
  let ts := timings.mergeSort (fun a b => decide (a ≤ b))
  match ts[ts.length / 2]?, fromEnd ts (1 + ts.length / 2) with
  | some x, some y => some ((x + y) / 2)
  | _, _ => none

/-- The loop of lines 133-135 of `build/python/example/example_experiment_complete.py`: dimension and median of each line. -/
def summary (entries : List (Nat × ℚ)) : List (Nat × Option ℚ) :=
  ((entries.map (·.1)).dedup.mergeSort (fun a b => decide (a ≤ b))).map fun d =>
    (d, median ((entries.filter fun e => e.1 = d).map (·.2)))

end PyMedian
