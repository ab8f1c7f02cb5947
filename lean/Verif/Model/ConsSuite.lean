import Verif.Model.Bbob
import Verif.Model.Constrained

/-!
# Model of the problems of the constrained suites

`/repo/src/suite_cons_bbob.c` (`coco_get_cons_bbob_problem`), `/repo/src/suite_cons_bbob_problems.c`, the objective
functions made for these suites in `/repo/src/f_*.c` with their gradients, and what the transformations do to problems
with constraints. Exact real arithmetic, points with finite coordinates, as in `Verif.Model.Transform`. The random numbers
of the constraints are arbitrary, see `Verif.Model.Constrained`. The numerical inverses of the non-linear
transformations (`/repo/src/brentq.c`) are arbitrary functions without NaN. Identifiers, names, types and counters are
not modelled.
-/

noncomputable section

namespace ConsSuite
open Classical Transform Bbob

variable {n : Nat}

/-! ### Objective functions with gradients -/

/-- A problem without constraints and the function behind `evaluate_gradient` (`/repo/src/coco_problem.c` lines
122-129). -/
structure Objective (n : Nat) where
  problem : Prob n
  gradient : Vec n → Vec n

/-- `f_sphere_evaluate_gradient`, `/repo/src/f_sphere.c` lines 49-57. -/
def sphereGradient (x : Vec n) : Vec n := fun i => 2 * x i

/-- `f_ellipsoid_evaluate_gradient`, `/repo/src/f_ellipsoid.c` lines 62-71. -/
def ellipsoidGradient (conditioning : ℝ) (x : Vec n) : Vec n :=
  fun i => 2 * conditioning ^ ((i : ℝ) / ((n : ℝ) - 1)) * x i

/-- `f_discus_evaluate_gradient`, `/repo/src/f_discus.c` lines 50-58. -/
def discusGradient (x : Vec n) : Vec n := fun i => if i.1 = 0 then 10 ^ 6 * 2 * x i else 2 * x i

/-- `f_bent_cigar_evaluate_gradient`, `/repo/src/f_bent_cigar.c` lines 51-60. -/
def bentCigarGradient (x : Vec n) : Vec n := fun i => if i.1 = 0 then 2 * x i else 2 * 10 ^ 6 * x i

/-- `sign`, `/repo/src/f_different_powers.c` lines 55-62. -/
def sign (x : ℝ) : ℝ := if x > 0 then 1 else if x < 0 then -1 else 0

/-- `f_different_powers_evaluate_gradient`, `/repo/src/f_different_powers.c` lines 67-85. -/
def differentPowersGradient (x : Vec n) : Vec n := fun i =>
  let sum := ∑ j : Fin n, |x j| ^ (2 + 4 * (j : ℝ) / ((n : ℝ) - 1))
  let aux := 2 + 4 * (i : ℝ) / ((n : ℝ) - 1)
  0.5 * aux / sum * (|x i| ^ (aux - 1) * sign (x i))

/-- `f_linear_slope_evaluate_gradient`, `/repo/src/f_linear_slope.c` lines 64-81. -/
def linearSlopeGradient (best : Vec n) (_x : Vec n) : Vec n := fun i => -slope best i

/-- `f_rastrigin_evaluate_gradient`, `/repo/src/f_rastrigin.c` lines 61-69. -/
def rastriginGradient (x : Vec n) : Vec n :=
  fun i => 2 * (10 * Real.pi * Real.sin (2 * Real.pi * x i) + x i)

/-- The gradient of a transformed problem: `/repo/src/transform_vars_shift.c` lines 79-96,
`/repo/src/transform_vars_affine.c` lines 96-142 for a square matrix, `/repo/src/transform_obj_shift.c` lines 51-59,
`/repo/src/transform_obj_scale.c` lines 51-66, `/repo/src/transform_vars_conditioning.c` lines 49-78, and for the transformations without a function of their own
`/repo/src/coco_problem.c` lines 778-786. -/
def gradientOf : T n → (Vec n → Vec n) → Vec n → Vec n
  | .varsShift offset, g, x => g fun i => x i - offset i
  | .affine M b, g, x => fun j => ∑ i, g (affineMap M b x) i * M i j
  | .objScale factor, g, x => fun i => g x i * factor
  | .conditioning alpha, g, x => fun i => alpha ^ (0.5 * (i : ℝ) / ((n : ℝ) - 1)) *
      g (fun i => alpha ^ (0.5 * (i : ℝ) / ((n : ℝ) - 1)) * x i) i
  | _, g, x => g x

/-- The lines `problem = transform_...(problem, ...)` of an allocator of an objective function, for example
`/repo/src/f_ellipsoid.c` lines 294-297. -/
def transformed (ts : List (T n)) (P : Prob n) (g : Vec n → Vec n) : Res (Objective n) :=
  (chain ts P).bind fun Q => .ok ⟨Q, ts.foldl (fun g t => gradientOf t g) g⟩

/-- `f_rastrigin_cons_compute_xopt`, `/repo/src/f_rastrigin.c` lines 285-302. -/
def rastriginXopt (seed : Int) (n : Nat) : Res (Vec n) :=
  (Legacy.unif n seed).bind fun u =>
  let xopt : Vec n := fun i => (if 10 * vec (n := n) u i - 5 < 0 then ⌈10 * vec (n := n) u i - 5⌉
    else ⌊10 * vec (n := n) u i - 5⌋ : ℤ)
  .ok (if isZero xopt then fun i => ((i.1 % 9 : Nat) : ℝ) - 4 else xopt)

/-- The allocators of the objective functions of the nine types: `/repo/src/f_sphere.c` lines 77-114,
`/repo/src/f_ellipsoid.c` lines 237-264, `/repo/src/f_linear_slope.c` lines 86-144, `/repo/src/f_ellipsoid.c` lines
270-309, `/repo/src/f_discus.c` lines 124-164, `/repo/src/f_bent_cigar.c` lines 127-165,
`/repo/src/f_different_powers.c` lines 153-213, `/repo/src/f_rastrigin.c` lines 307-331 and 336-378. The name template
of the suites contains none of the words they look for. -/
def objective (type function inst : Nat) (seed : Int) (n : Nat) : Res (Objective n) :=
  (Legacy.computeFopt function inst).bind fun fopt =>
  if type = 1 then
    (getXopt .bbob seed n).bind fun xopt =>
    (allocate false sphere 0).bind fun P =>
    transformed [.varsShift xopt, .objShift fopt] P sphereGradient
  else if type = 2 then
    (getXopt .bbob seed n).bind fun xopt =>
    (allocate false (ellipsoid (10 ^ 6)) 0).bind fun P =>
    transformed [.varsShift xopt, .objShift fopt] P (ellipsoidGradient (10 ^ 6))
  else if type = 3 then
    (getXopt .bbob seed n).bind fun xopt =>
    let best : Vec n := fun i => if xopt i < 0 then -5 else 5
    (allocate false (linearSlope best) best).bind fun P =>
    transformed [.objShift fopt] P (linearSlopeGradient best)
  else if type = 4 then
    (getXopt .bbob seed n).bind fun xopt =>
    (rotation (seed + 1000000) n).bind fun rot1 =>
    (allocate false (ellipsoid (10 ^ 6)) 0).bind fun P =>
    transformed [.affine rot1 0, .varsShift xopt, .objShift fopt] P (ellipsoidGradient (10 ^ 6))
  else if type = 5 then
    (getXopt .bbob seed n).bind fun xopt =>
    (rotation (seed + 1000000) n).bind fun rot1 =>
    (allocate false discus 0).bind fun P =>
    transformed [.affine rot1 0, .varsShift xopt, .objShift fopt] P discusGradient
  else if type = 6 then
    (getXopt .bbob (seed + 1000000) n).bind fun xopt =>
    (rotation (seed + 1000000) n).bind fun rot1 =>
    (allocate false bentCigar 0).bind fun P =>
    transformed [.objShift fopt, .affine rot1 0, .varsShift xopt] P bentCigarGradient
  else if type = 7 then
    (getXopt .bbob seed n).bind fun xopt =>
    (rotation (seed + 1000000) n).bind fun rot1 =>
    (allocate false differentPowers 0).bind fun P =>
    transformed [.objShift fopt, .affine rot1 0,
      .varsShift fun i => xopt i * (1 / 10 ^ 2 / Real.sqrt (∑ j, xopt j * xopt j))] P differentPowersGradient
  else if type = 8 then
    (rastriginXopt seed n).bind fun xopt =>
    (allocate false rastrigin 0).bind fun P =>
    transformed [.varsShift xopt, .objShift fopt] P rastriginGradient
  else
    (rotation (seed + 1000000) n).bind fun rot1 =>
    (rastriginXopt seed n).bind fun xopt =>
    (allocate false rastrigin 0).bind fun P =>
    transformed [.varsShift xopt, .affine rot1 0, .objShift fopt] P rastriginGradient

/-! ### Problems with constraints -/

/-- A problem with one objective and linear constraints (`coco_problem_t`): the evaluation, the constraints with the map
that is applied to a point before they are computed, the region of interest, the initial solution and the recorded
optimum. -/
structure Problem (n : Nat) where
  eval : Vec n → Res ℝ
  constraints : List (Constrained.Constraint n)
  place : Vec n → Vec n
  lo : Vec n
  hi : Vec n
  initial : Vec n
  bestParam : Vec n
  bestValue : ℝ

/-- `evaluate_constraint` of the problem: the stacked problem calls the functions of its parts
(`/repo/src/coco_problem.c` lines 918-932), the transformed ones those of the inner problem with the transformed point. -/
def Problem.cons (P : Problem n) (x : Vec n) : List ℝ := P.constraints.map fun c => Constrained.value c (P.place x)

/-- `coco_is_feasible`, `/repo/src/coco_utilities.c` lines 1071-1102, for a point with finite coordinates. -/
def isFeasible (values : List ℝ) : Prop := ¬ ∃ v ∈ values, v > 0

/-- The assertion at the end of the functions that evaluate a problem with constraints, for example
`/repo/src/transform_vars_shift.c` lines 43-49. -/
def guarded (values : List ℝ) (best y : ℝ) : Res ℝ :=
  if isFeasible values then (if y + 1 / 10 ^ 13 ≥ best then .ok y else .assertFail) else .ok y

/-- `FLT_MAX`, used in `/repo/src/coco_problem.c` line 1016. -/
def fltMax : ℝ := (2 - 1 / 2 ^ 23) * 2 ^ 127

/-- The objective function and the constraints are stacked (`/repo/src/coco_problem.c` lines 887-914 and 970-1043, for one
objective): region of interest as given by the constraints (`/repo/src/c_linear.c` lines 149-152), initial solution from
the constraints (lines 122 and 1018-1020), best parameter set to the origin (for example
`/repo/src/suite_cons_bbob_problems.c` lines 204-205); `best` is what `best_value` holds during evaluations. -/
def stacked (O : Prob n) (cs : List (Constrained.Constraint n)) (fd : Vec n) (best : ℝ) : Problem n :=
  { eval := fun x => (O.eval x).bind fun y => guarded (cs.map fun c => Constrained.value c x) best y
    constraints := cs
    place := fun x => x
    lo := fun _ => -5
    hi := fun _ => 5
    initial := fd
    bestParam := fun _ => 0
    bestValue := best }

/-- The stacked problem with the value at the origin as its best value, `/repo/src/suite_cons_bbob_problems.c` lines
204-207: the value is written to `best_value` and then compared with itself. -/
def stackedBest (O : Prob n) (cs : List (Constrained.Constraint n)) (fd : Vec n) : Res (Problem n) :=
  (O.eval fun _ => 0).bind fun y => .ok (stacked O cs fd y)

/-- A map is applied to the point before the objective function and the constraints are evaluated. -/
def moved (g : Vec n → Vec n) (P : Problem n) : Problem n :=
  { P with
    eval := fun x => (P.eval (g x)).bind fun y =>
      guarded (P.constraints.map fun c => Constrained.value c (P.place (g x))) P.bestValue y
    place := fun x => P.place (g x) }

/-- `transform_vars_oscillate`, `/repo/src/transform_vars_oscillate.c` lines 79-142 and 155-172. -/
def oscillated (P : Problem n) : Problem n := moved (fun x i => tosz (1 / 10) (x i)) P

/-- `transform_vars_asymmetric`, `/repo/src/transform_vars_asymmetric.c` lines 78-140 and 150-171, for a best parameter
of zero and at least two variables. -/
def asymmetrised (beta : ℝ) (P : Problem n) : Problem n := moved (fun x i => tasy beta i n (x i)) P

/-- `transform_vars_shift` with `shift_constraint_only` equal to 0, `/repo/src/transform_vars_shift.c` lines 22-74 and
113-143. -/
def shifted (offset : Vec n) (P : Problem n) : Problem n :=
  { moved (fun x i => x i - offset i) P with
    bestParam := fun i => P.bestParam i + offset i
    initial := fun i => P.initial i + offset i }

/-- `transform_vars_shift` with `shift_constraint_only` equal to 1, `/repo/src/transform_vars_shift.c` lines 56-74 and
113-143: the objective function is that of the inner problem (`/repo/src/coco_problem.c` lines 754-762). -/
def shiftedConstraints (offset : Vec n) (P : Problem n) : Problem n :=
  { P with
    place := fun x => P.place fun i => x i - offset i
    bestParam := fun i => P.bestParam i + offset i
    initial := fun i => P.initial i + offset i }

/-- `transform_obj_scale`, `/repo/src/transform_obj_scale.c` lines 21-46 and 71-89. -/
def scaled (factor : ℝ) (P : Problem n) : Problem n :=
  { P with
    eval := fun x => (P.eval x).bind fun y => guarded (P.cons x) (P.bestValue * factor) (y * factor)
    bestValue := P.bestValue * factor }

/-- `transform_inv_initial_oscillate`, `/repo/src/transform_vars_oscillate.c` lines 182-229,
`transform_inv_initial_asymmetric`, `/repo/src/transform_vars_asymmetric.c` lines 181-232, and
`transform_inv_initial_composed`, `/repo/src/transform_vars_composed.c` lines 28-89: the initial solution is halved until
the result of the numerical inverse `inv` lies in the region of interest. The result `ub` stands for a loop that never
ends. -/
def invInitial (inv : Fin n → ℝ → ℝ) (xopt : Vec n) (P : Problem n) : Res (Problem n) :=
  let sol (j : Nat) : Vec n := fun i => inv i (P.initial i * 0.5 ^ j)
  if h : ∃ j, ∀ i, -5 < sol j i + xopt i ∧ sol j i + xopt i < 5 then
    .ok { P with initial := sol (Nat.find h) }
  else .ub

/-! ### The suites -/

/-- The random numbers of the constraints as in `Constrained.Params`, and the numerical inverses of the two non-linear
transformations (`/repo/src/transform_vars_oscillate.c` lines 54-58, `/repo/src/transform_vars_asymmetric.c` lines
51-55). -/
structure Draws (n : Nat) where
  u1 : Nat → ℝ
  u2 : Nat → ℝ
  own : Nat → ℝ
  normals : Nat → Vec n
  oszInv : ℝ → ℝ
  asyInv : Fin n → ℝ → ℝ

/-- Which of the three suites (`/repo/src/suite_cons_bbob.c` lines 62-75, `/repo/src/c_linear.c` lines 333-337). -/
inductive Kind where
  | constrained
  | activeOnly
  | noDisguise
deriving DecidableEq

/-- `obj_function_type`, `/repo/src/suite_cons_bbob_problems.c` lines 101-105. -/
def objType (function : Nat) : Nat := (function + 5) / 6

/-- The factor given to `transform_obj_scale`, `/repo/src/suite_cons_bbob.c` lines 85-142. -/
def factor (type : Nat) : ℝ :=
  if type = 1 ∨ type = 3 ∨ type = 8 ∨ type = 9 then 10
  else if type = 7 then 10 ^ 2
  else 1 / 10 ^ 4

/-- The direction: the gradient of the objective function at the origin with the length set by
`feasible_direction_set_length`, for example `/repo/src/suite_cons_bbob_problems.c` lines 189-190, with the random number
of lines 157-158. -/
def direction (O : Objective n) (xopt : Vec n) (seed : Int) : Res (Vec n) :=
  (Legacy.unif 1 (seed + 412)).bind fun r =>
  Constrained.setLength (O.gradient fun _ => 0) xopt (r.headD 0 : ℚ)

/-- The parameters of `c_linear_cons_bbob_problem_allocate`, for example `/repo/src/suite_cons_bbob_problems.c` lines
195-196. -/
def params (kind : Kind) (function inst : Nat) (D : Draws n) (fd : Vec n) : Constrained.Params n :=
  { fd := fd
    instance_ := inst
    active := Constrained.numberOfConstraints function n
    activeOnly := kind = .activeOnly
    disguise := kind ≠ .noDisguise
    u1 := D.u1
    u2 := D.u2
    own := D.own
    normals := D.normals }

/-- The transformations between the stacked problem and the scaling of the objective:
`/repo/src/suite_cons_bbob_problems.c` lines 204-221 (types 1 and 7, lines 643-660), 279-296 (types 2, 4 and 5, lines
352-369 and 499-516), 425-438 (type 3), 573-590 (type 6), 717-735 and 791-809 (types 8 and 9). -/
def assemble (type : Nat) (O : Prob n) (cs : List (Constrained.Constraint n)) (fd xopt : Vec n) (D : Draws n) :
    Res (Problem n) :=
  if type = 3 then
    let P := shiftedConstraints xopt (stacked O cs fd (-fltMax))
    (P.eval P.bestParam).bind fun y => .ok { P with bestValue := y }
  else
    (stackedBest O cs fd).bind fun P =>
    (if type = 1 ∨ type = 7 then .ok P
      else if type = 2 ∨ type = 4 ∨ type = 5 then invInitial (fun _ => D.oszInv) xopt (oscillated P)
      else if type = 6 then invInitial D.asyInv xopt (asymmetrised 0.2 P)
      else invInitial (fun i y => D.oszInv (D.asyInv i y)) xopt (oscillated (asymmetrised 0.2 P))).bind fun P =>
    .ok (shifted xopt P)

/-- `coco_get_cons_bbob_problem`, `/repo/src/suite_cons_bbob.c` lines 50-160. -/
def get (kind : Kind) (function inst n : Nat) (D : Draws n) : Res (Problem n) :=
  (getXopt .bbob (function + 10000 * inst) n).bind fun xopt =>
  if 1 ≤ objType function ∧ objType function ≤ 9 then
    (objective (objType function) function inst (function + 20000 * inst) n).bind fun O =>
    (direction O xopt (function + 20000 * inst)).bind fun fd =>
    (Constrained.build (params kind function inst D fd)).bind fun cs =>
    (assemble (objType function) O.problem cs fd xopt D).bind fun P =>
    .ok (scaled (factor (objType function)) P)
  else .error

end ConsSuite
