import Mathlib.Analysis.SpecialFunctions.Pow.Real
import Mathlib.Analysis.SpecialFunctions.Trigonometric.Basic
import Mathlib.Algebra.BigOperators.Fin
import Verif.Base.Res

/-!
# Model of the transformations of single-objective problems

`/repo/src/transform_obj_*.c` and `/repo/src/transform_vars_*.c` (those used by the bbob suites), with their
`evaluate_function` and the functions that create them. Real (exact) arithmetic with the exact functions `sqrt`,
`log`, `sin`, `exp` and powers; a point has finite coordinates, so that the branches for NaN and infinite coordinates
(`/repo/src/coco_problem.c` lines 39-53 and the first lines of every `evaluate_function`) are not taken. One objective,
no constraints, at least one variable. The counters and the best observed value that `coco_evaluate_function` also
keeps (`/repo/src/coco_problem.c` lines 56-69) are modelled in `Verif.Model.Problem`, not here. Where C computes a
NaN, the assertion that follows it fails, and this is what the model says.
-/

noncomputable section

namespace Transform
open Classical

/-- A point. -/
abbrev Vec (n : Nat) := Fin n → ℝ

/-- The part of `coco_problem_t` (`/repo/src/coco_internal.h`) the transformations use. `eval` is
`coco_evaluate_function` for finite points; `none` in `bestParam` and `bestValue` is NaN (in every coordinate). -/
structure Prob (n : Nat) where
  eval : Vec n → Res ℝ
  lo : Vec n
  hi : Vec n
  bestParam : Option (Vec n)
  bestValue : Option ℝ

variable {n : Nat}

/-- `assert(y[0] + 1e-13 >= problem->best_value[0])` and the result `y`; a comparison with NaN is false
(last line of every `evaluate_function`, for example `/repo/src/transform_obj_shift.c` line 45). -/
def check (best : Option ℝ) (y : ℝ) : Res ℝ :=
  match best with
  | some v => if v ≤ y + 1 / 10 ^ 13 then .ok y else .assertFail
  | none => .assertFail

/-- `coco_problem_best_parameter_not_zero`, `/repo/src/coco_problem.c` lines 439-452. -/
def bestNotZero (p : Option (Vec n)) : Prop :=
  match p with
  | some p => ¬ ∀ i, |p i| < 1 / 10 ^ 9
  | none => True

/-- `coco_vector_is_zero`, `/repo/src/coco_utilities.c` lines 1241-1256. -/
def isZero (x : Vec n) : Prop := ∀ i, |x i| < 1 / 10 ^ 9

/-- `coco_is_orthogonal` for a square matrix, `/repo/src/coco_utilities.c` lines 1207-1239. -/
def isOrthogonal (M : Fin n → Fin n → ℝ) : Prop :=
  ∀ i j, |∑ z, M i z * M j z - (if i = j then 1 else 0)| < 1 / 10 ^ 9

/-! ### Objective transformations -/

/-- `/repo/src/transform_obj_shift.c` lines 21-46 and 64-83. -/
def objShift (offset : ℝ) (P : Prob n) : Prob n :=
  let best := P.bestValue.map (· + offset)
  { P with
    eval := fun x => (P.eval x).bind fun y => check best (y + offset)
    bestValue := best }

/-- `/repo/src/transform_obj_scale.c` lines 21-46 and 71-89. -/
def objScale (factor : ℝ) (P : Prob n) : Prob n :=
  let best := P.bestValue.map (· * factor)
  { P with
    eval := fun x => (P.eval x).bind fun y => check best (y * factor)
    bestValue := best }

/-- `pow(y, exponent)` followed by the assertion, for a positive exponent: a negative number with an exponent that is
no integer gives NaN (`/repo/src/transform_obj_power.c` lines 34-37). -/
def pow (y exponent : ℝ) : Res ℝ :=
  if 0 ≤ y ∨ ∃ k : ℤ, exponent = k then .ok (y ^ exponent) else .assertFail

/-- `transform_obj_power_evaluate` or `transform_obj_oscillate_evaluate` at the best parameter with the best value as
place for the result: NaN for a NaN parameter, and the assertion compares the result with itself
(`/repo/src/transform_obj_power.c` lines 22-38 and 53, `/repo/src/transform_obj_oscillate.c` lines 15-37 and 48). -/
def evaluateBest (P : Prob n) (g : ℝ → Res ℝ) : Res (Option ℝ) :=
  match P.bestParam with
  | none => .ok none
  | some p => (P.eval p).bind fun y => (g y).bind fun y => .ok (some y)

/-- `/repo/src/transform_obj_power.c` lines 22-38 and 43-55. -/
def objPower (exponent : ℝ) (P : Prob n) : Res (Prob n) :=
  (evaluateBest P (pow · exponent)).bind fun best =>
  .ok { P with
    eval := fun x => (P.eval x).bind fun y => (pow y exponent).bind fun y => check best y
    bestValue := best }

/-- The body of the loop in `/repo/src/transform_obj_oscillate.c` lines 26-34. -/
def objOsc (y : ℝ) : ℝ :=
  if y ≠ 0 then
    let log_y := Real.log |y| / (1 / 10)
    if y > 0 then Real.exp (log_y + 0.49 * (Real.sin log_y + Real.sin (0.79 * log_y))) ^ (1 / 10 : ℝ)
    else -Real.exp (log_y + 0.49 * (Real.sin (0.55 * log_y) + Real.sin (0.31 * log_y))) ^ (1 / 10 : ℝ)
  else y

/-- `/repo/src/transform_obj_oscillate.c` lines 15-37 and 42-50. -/
def objOscillate (P : Prob n) : Res (Prob n) :=
  (evaluateBest P fun y => .ok (objOsc y)).bind fun best =>
  .ok { P with
    eval := fun x => (P.eval x).bind fun y => check best (objOsc y)
    bestValue := best }

/-- `/repo/src/transform_obj_norm_by_dim.c` lines 15-33 (the best value is kept). -/
def normByDim (P : Prob n) : Prob n :=
  { P with eval := fun x => (P.eval x).bind fun y => check P.bestValue (y * min 1 (40 / (n : ℝ))) }

/-- The penalty for one coordinate, `/repo/src/transform_obj_penalize.c` lines 35-42. -/
def excess (x lo hi : ℝ) : ℝ :=
  let c1 := x - hi
  let c2 := lo - x
  if c1 > 0 then c1 * c1 else if c2 > 0 then c2 * c2 else 0

/-- `/repo/src/transform_obj_penalize.c` lines 22-51 and 56-67. The loop adds the penalties of the coordinates. -/
def penalize (factor : ℝ) (P : Prob n) : Prob n :=
  { P with
    eval := fun x =>
      (if ∀ i, P.lo i < P.hi i then Res.ok () else Res.assertFail).bind fun _ =>
      (P.eval x).bind fun y => check P.bestValue (y + factor * ∑ i, excess (x i) (P.lo i) (P.hi i)) }

/-! ### Variable transformations -/

/-- The common `evaluate_function` of the transformations of variables: the inner problem at the image of the point,
then the assertion (for example `/repo/src/transform_vars_shift.c` lines 37-50). -/
def via (P : Prob n) (g : Vec n → Vec n) (x : Vec n) : Res ℝ :=
  (P.eval (g x)).bind fun y => check P.bestValue y

/-- `/repo/src/transform_vars_shift.c` lines 22-51 and 113-143 (objective function also shifted; the initial solution
is not modelled). -/
def varsShift (offset : Vec n) (P : Prob n) : Prob n :=
  { P with
    eval := via P fun x i => x i - offset i
    bestParam := P.bestParam.map fun p i => p i + offset i }

/-- `/repo/src/transform_vars_scale.c` lines 22-43 and 56-73. -/
def varsScale (factor : ℝ) (P : Prob n) : Prob n :=
  { P with
    eval := via P fun x i => factor * x i
    bestParam := if factor ≠ 0 then P.bestParam.map (fun p i => p i / factor) else P.bestParam }

/-- The image of a point in `/repo/src/transform_vars_affine.c` lines 44-51, for a square matrix. -/
def affineMap (M : Fin n → Fin n → ℝ) (b : Vec n) (x : Vec n) : Vec n := fun i => b i + ∑ j, x j * M i j

/-- `/repo/src/transform_vars_affine.c` lines 29-63 and 157-210, for a square matrix. -/
def affine (M : Fin n → Fin n → ℝ) (b : Vec n) (P : Prob n) : Prob n :=
  { P with
    eval := via P (affineMap M b)
    bestParam :=
      if bestNotZero P.bestParam ∨ ¬ isZero b then
        if ¬ isOrthogonal M then P.bestParam
        else P.bestParam.map fun p i => ∑ j, M j i * (p j - b j)
      else P.bestParam }

/-- `/repo/src/transform_vars_permutation.c` lines 20-33 and 41-56 (the best parameter is kept). -/
def permutation (p : Fin n → Fin n) (P : Prob n) : Prob n :=
  { P with eval := via P fun x i => x (p i) }

/-- `/repo/src/transform_vars_blockrotation.c` lines 77-86 and 121-164, with the matrix given by all its elements
(the storage in blocks, the maps and the test of the matrix are modelled in `Verif.Model.Rotation`). -/
def blockRotation (B : Fin n → Fin n → ℝ) (P : Prob n) : Prob n :=
  { P with
    eval := via P fun x i => ∑ j, B i j * x j
    bestParam := if bestNotZero P.bestParam then none else P.bestParam }

/-- `tosz_uv`, `/repo/src/transform_vars_oscillate.c` lines 34-49. -/
def tosz (alpha x : ℝ) : ℝ :=
  if x > 0 then
    let tmp := Real.log x / alpha
    Real.exp (tmp + 0.49 * (Real.sin tmp + Real.sin (0.79 * tmp))) ^ alpha
  else if x < 0 then
    let tmp := Real.log (-x) / alpha;
    -Real.exp (tmp + 0.49 * (Real.sin (0.55 * tmp) + Real.sin (0.31 * tmp))) ^ alpha
  else 0

/-- `/repo/src/transform_vars_oscillate.c` lines 79-106 and 155-173 (the best parameter is kept). -/
def oscillate (P : Prob n) : Prob n :=
  { P with eval := via P fun x i => tosz (1 / 10) (x i) }

/-- `tasy_uv`, `/repo/src/transform_vars_asymmetric.c` lines 36-46. For one variable and a positive coordinate the
exponent is NaN in C and 1 here; see `asymmetric`. -/
def tasy (beta : ℝ) (i n : Nat) (x : ℝ) : ℝ :=
  if x > 0 then x ^ (1 + beta * i / ((n : ℝ) - 1) * Real.sqrt x) else x

/-- `/repo/src/transform_vars_asymmetric.c` lines 78-106 and 150-172. When the best parameter of the inner problem is
not zero, it is the inner problem's that is set to NaN, after it has been copied: the new problem keeps the copy. For
one variable a positive coordinate becomes NaN. -/
def asymmetric (beta : ℝ) (P : Prob n) : Prob n :=
  { P with eval := fun x =>
      if n = 1 ∧ ∃ i, x i > 0 then Res.assertFail else via P (fun x i => tasy beta i n (x i)) x }

/-- `/repo/src/transform_vars_conditioning.c` lines 23-44 and 88-105, for a conditioning other than 1. As in
`asymmetric` the new problem keeps its best parameter. For one variable the factor is NaN. -/
def conditioning (alpha : ℝ) (P : Prob n) : Prob n :=
  { P with eval := fun x =>
      if n = 1 then Res.assertFail
      else via P (fun x i => alpha ^ (0.5 * (i : ℝ) / ((n : ℝ) - 1)) * x i) x }

/-- The factor in `/repo/src/transform_vars_brs.c` lines 41-48. -/
def brsFactor (n i : Nat) (x : ℝ) : ℝ :=
  let factor := Real.sqrt 10 ^ ((i : ℝ) / ((n : ℝ) - 1))
  if x > 0 ∧ i % 2 = 0 then factor * 10 else factor

/-- `/repo/src/transform_vars_brs.c` lines 22-53 and 66-80; remarks as for `conditioning`. -/
def brs (P : Prob n) : Prob n :=
  { P with eval := fun x =>
      if n = 1 then Res.assertFail else via P (fun x i => brsFactor n i (x i) * x i) x }

/-- The sign change in `/repo/src/transform_vars_x_hat.c` lines 37-45, for the uniform numbers of the seed. -/
def signs (u : Vec n) (x : Vec n) : Vec n := fun i => if u i < 0.5 then -x i else x i

/-- `/repo/src/transform_vars_x_hat.c` lines 24-49 and 62-80, for the uniform numbers `u` of the seed. -/
def xHat (u : Vec n) (P : Prob n) : Prob n :=
  { P with
    eval := via P (signs u)
    bestParam := if bestNotZero P.bestParam then P.bestParam.map (signs u) else P.bestParam }

/-- The image of a point in `/repo/src/transform_vars_z_hat.c` lines 36-40. -/
def zMap (xopt x : Vec n) : Vec n := fun i =>
  if h : 0 < i.1 then x i + 0.25 * (x ⟨i.1 - 1, by omega⟩ - 2 * |xopt ⟨i.1 - 1, by omega⟩|) else x i

/-- `/repo/src/transform_vars_z_hat.c` lines 23-43 and 57-90; `schwefel`: the identifier of the inner problem contains
this word. -/
def zHat (xopt : Vec n) (schwefel : Bool) (P : Prob n) : Prob n :=
  { P with
    eval := via P (zMap xopt)
    bestParam := if schwefel then P.bestParam else none }

/-! ### Chains -/

/-- The transformations with their arguments: the calls `problem = transform_...(problem, ...)` in
`/repo/src/f_*.c`. -/
inductive T (n : Nat) where
  | objShift (offset : ℝ)
  | objScale (factor : ℝ)
  | objPower (exponent : ℝ)
  | objOscillate
  | normByDim
  | penalize (factor : ℝ)
  | varsShift (offset : Vec n)
  | varsScale (factor : ℝ)
  | affine (M : Fin n → Fin n → ℝ) (b : Vec n)
  | permutation (p : Fin n → Fin n)
  | blockRotation (B : Fin n → Fin n → ℝ)
  | oscillate
  | asymmetric (beta : ℝ)
  | conditioning (alpha : ℝ)
  | brs
  | xHat (u : Vec n)
  | zHat (xopt : Vec n) (schwefel : Bool)

/-- The function called for a transformation (files as above). -/
def create : T n → Prob n → Res (Prob n)
  | .objShift o, P => .ok (objShift o P)
  | .objScale f, P => .ok (objScale f P)
  | .objPower e, P => objPower e P
  | .objOscillate, P => objOscillate P
  | .normByDim, P => .ok (normByDim P)
  | .penalize f, P => .ok (penalize f P)
  | .varsShift o, P => .ok (varsShift o P)
  | .varsScale f, P => .ok (varsScale f P)
  | .affine M b, P => .ok (affine M b P)
  | .permutation p, P => .ok (permutation p P)
  | .blockRotation B, P => .ok (blockRotation B P)
  | .oscillate, P => .ok (oscillate P)
  | .asymmetric b, P => .ok (asymmetric b P)
  | .conditioning a, P => .ok (conditioning a P)
  | .brs, P => .ok (brs P)
  | .xHat u, P => .ok (xHat u P)
  | .zHat xopt s, P => .ok (zHat xopt s P)

/-- A sequence of calls `problem = transform_...(problem, ...)` in `/repo/src/f_*.c`. -/
def chain : List (T n) → Prob n → Res (Prob n)
  | [], P => .ok P
  | t :: ts, P => (create t P).bind (chain ts)

end Transform
