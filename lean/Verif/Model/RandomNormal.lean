import Mathlib.Analysis.SpecialFunctions.Log.Basic
import Mathlib.Analysis.SpecialFunctions.Trigonometric.Basic
import Verif.Model.Random

/-!
# Model of `coco_random_normal`, `/repo/src/coco_random.c`
-/

namespace Random

/-- `coco_random_normal`, `/repo/src/coco_random.c` lines 81-96, with `COCO_NORMAL_POLAR` (line 14). The uniform numbers are rounded as
in `uniform`; logarithm, root, cosine and products are those of the reals, without rounding. `none` is a value that is not finite: the
logarithm of 0 is minus infinity. -/
noncomputable def normal (fl : ℚ → ℚ) (s : State) : Res (Option ℝ × State) :=
  (uniform fl s).bind fun (u1, s) =>
  (uniform fl s).bind fun (u2, s) =>
  .ok (if u1 = 0 then none
       else some (Real.sqrt (-2 * Real.log (u1 : ℝ)) * Real.cos (2 * Real.pi * (u2 : ℝ))), s)

/-- `n` successive calls of `coco_random_normal` (`/repo/src/coco_random.c` lines 81-96), as in the loop of
`/repo/src/c_linear.c` lines 241-243. -/
noncomputable def normals (fl : ℚ → ℚ) : Nat → State → Res (List (Option ℝ) × State)
  | 0, s => .ok ([], s)
  | n + 1, s =>
    (normal fl s).bind fun (v, s) => (normals fl n s).bind fun (vs, s) => .ok (v :: vs, s)

end Random
