import Verif.Model.Discretize
import Verif.Model.LargeScale

/-!
# Model of the problems of the bbob-mixint and sbox-cost suites

`/repo/src/suite_bbob_mixint.c` and `/repo/src/suite_sbox_cost.c`: the problems of `Verif.Model.Bbob` and
`Verif.Model.LargeScale` with the transformation of `Verif.Model.Discretize` and the one of
`/repo/src/transform_vars_enforce_box.c`. Exact real arithmetic, finite points.
-/

noncomputable section

namespace Mixint
open Classical Transform

/-- The choice of the problem in `suite_bbob_mixint_get_problem`, `/repo/src/suite_bbob_mixint.c` lines 135 and 141-144,
and `coco_get_bbob_mixint_problem`, lines 62-118: the test of the dimension comes before the inner problem is made
(for dimension 0 the allocation stops the process). -/
def get (qsort : Permutation.SortFn) (function inst n : Nat) : Res (Prob n) :=
  (Discretize.cardinalities n).bind fun _ =>
  (if n < 50 then Bbob.get .bbob function inst n else LargeScale.get qsort function inst n).bind fun P =>
  Discretize.mixint 5 function P

end Mixint

namespace Boxed
open Classical Transform

/-- A problem whose values may be infinite (`none`). -/
structure Prob (n : Nat) where
  eval : Vec n → Res (Option ℝ)
  lo : Vec n
  hi : Vec n
  bestParam : Option (Vec n)
  bestValue : Option ℝ

/-- `transform_vars_enforce_box`, `/repo/src/transform_vars_enforce_box.c` lines 14-47 and 52-60, for a problem without
constraints (points with infinite or NaN coordinates are treated in `Verif.Model.Box`). -/
def enforceBox {n : Nat} (P : Transform.Prob n) : Prob n :=
  { eval := fun x =>
      if ∃ i, x i < P.lo i ∨ x i > P.hi i then .ok none
      else (P.eval x).bind fun y => (check P.bestValue y).bind fun y => .ok (some y)
    lo := P.lo
    hi := P.hi
    bestParam := P.bestParam
    bestValue := P.bestValue }

/-- `coco_get_bbob_boxed_problem`, `/repo/src/suite_sbox_cost.c` lines 74-203. -/
def get (function inst n : Nat) : Res (Prob n) :=
  (Bbob.get .boxed function inst n).bind fun P => .ok (enforceBox P)

end Boxed
