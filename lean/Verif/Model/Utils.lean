import Verif.Base.Res
import Mathlib.Algebra.Order.Field.Rat
import Mathlib.Data.Rat.Floor
import Mathlib.Algebra.Order.Round

/-!
Number utilities of `/repo/src/coco_utilities.c` and the initial solution of `/repo/src/coco_problem.c`,
over the rational numbers (no rounding of floating-point arithmetic).
-/

namespace Utils

/-- `coco_double_round`, `/repo/src/coco_utilities.c` line 915 (result as an integer). -/
def round (x : ℚ) : ℤ := ⌊x + 1 / 2⌋

/-- `coco_double_almost_equal`, `/repo/src/coco_utilities.c` lines 908-910. -/
def almostEqual (a b precision : ℚ) : Bool := decide (|a - b| < precision)

/-- `coco_double_round_up_with_precision`, `/repo/src/coco_utilities.c` lines 923-938. -/
def roundUpWithPrecision (number precision : ℚ) : Res ℚ :=
  let minPrecision : ℚ := 1 / 10 ^ 12
  (Res.assert (decide (precision > minPrecision))).bind fun _ =>
  let roundedUp : ℚ := ⌈number / precision⌉ * precision
  let rounded : ℚ := round (number / precision) * precision
  if almostEqual rounded roundedUp precision then .ok roundedUp
  else if almostEqual (number - rounded) 0 minPrecision then .ok rounded
  else .ok roundedUp

/-- `coco_double_max`, `/repo/src/coco_utilities.c` lines 943-949. -/
def max (a b : ℚ) : ℚ := if a ≥ b then a else b

/-- `coco_double_min`, `/repo/src/coco_utilities.c` lines 954-960. -/
def min (a b : ℚ) : ℚ := if a ≤ b then a else b

/-- C conversion of a floating-point number to an integer type: the fraction is discarded. -/
def trunc (x : ℚ) : ℤ := if 0 ≤ x then ⌊x⌋ else ⌈x⌉

/-- `coco_double_to_int`, `/repo/src/coco_utilities.c` lines 973-983, on finite numbers. A truncated value
outside the range of `int` is undefined. -/
def toInt (x : ℚ) : Res ℤ :=
  if x > 2147483647 then .error
  else if x < -2147483648 then .error
  else
    let r := trunc (x + 1 / 2)
    if -2147483648 ≤ r ∧ r ≤ 2147483647 then .ok r else .ub

/-- The centre of the region of interest, rounded for the first `nint` variables
(`/repo/src/coco_problem.c` lines 585-592); `lo`, `hi` are the bounds of the variables from position
`i` on. -/
def centre (nint : Nat) : Nat → List ℚ → List ℚ → List ℚ
  | i, l :: lo, h :: hi =>
    let m := l + 1 / 2 * (h - l)
    (if i < nint then (round m : ℚ) else m) :: centre nint (i + 1) lo hi
  | _, _, _ => []

/-- `coco_problem_get_initial_solution`, `/repo/src/coco_problem.c` lines 575-595; `stored` is
`problem->initial_solution` (`none` = NULL). -/
def initialSolution (stored : Option (List ℚ)) (nint : Nat) (lo hi : List ℚ) : List ℚ :=
  match stored with
  | some s => s
  | none => centre nint 0 lo hi

end Utils
