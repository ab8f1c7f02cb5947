import Mathlib.Data.Int.Log
import Mathlib.Algebra.Order.Round
import Mathlib.Algebra.Order.Floor.Ring
import Mathlib.Data.Rat.Floor

/-!
# Elapsed time as text in Python

Models `ascetime`, `build/python/src/cocoex/utilities.py` lines 570-585, for its default `decimals=0` and a time that is not
negative. Each arithmetic operation on doubles is the exact one followed by a rounding, which is a parameter; the remainder modulo 1
of a double is exact. The text is kept as its three numbers.
-/

namespace PyClock

/-- `h % 1` and `m % 1`, lines 583-584 of `build/python/src/cocoex/utilities.py`. -/
def frac (x : ℚ) : ℚ := x - ⌊x⌋

/-- `h`, line 582 of `build/python/src/cocoex/utilities.py`. -/
def hours (rnd : ℚ → ℚ) (sec : ℚ) : ℚ := rnd (sec / 3600)

/-- `m`, line 583 of `build/python/src/cocoex/utilities.py`. -/
def minutes (rnd : ℚ → ℚ) (sec : ℚ) : ℚ := rnd (60 * frac (hours rnd sec))

/-- `s`, line 584 of `build/python/src/cocoex/utilities.py`. -/
def seconds (rnd : ℚ → ℚ) (sec : ℚ) : ℚ := rnd (60 * frac (minutes rnd sec))

/-- The numbers printed, line 585 of `build/python/src/cocoex/utilities.py`: `%d` cuts off the fraction. -/
def ascetime (rnd : ℚ → ℚ) (sec : ℚ) : Int × Int × Int :=
  (⌊hours rnd sec⌋, ⌊minutes rnd sec⌋, ⌊seconds rnd sec⌋)

/-- Rounding of the result of an operation of lines 582-584 of `build/python/src/cocoex/utilities.py` to a double with its 53 bits.
Simplified: no underflow and no overflow, and halves are rounded up instead of to an even last bit. -/
def double (x : ℚ) : ℚ := round (x / 2 ^ (Int.log 2 x - 52)) * 2 ^ (Int.log 2 x - 52)

end PyClock
