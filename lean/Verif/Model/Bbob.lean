import Mathlib.Algebra.BigOperators.Fin
import Mathlib.Data.List.Sort
import Verif.Model.Rotation
import Verif.Model.Transform

/-!
# Model of the problems of the bbob suite

`/repo/src/suite_bbob.c` (`coco_get_bbob_problem`), the functions `/repo/src/f_*.c` and the allocators the suite calls.
Real (exact) arithmetic with the exact functions, points with finite coordinates, as in `Verif.Model.Transform`, whose
transformations are used here. The boxed suite (`/repo/src/suite_sbox_cost.c` lines 75-206) calls the same allocators
with another name template, and so does the large-scale suite for some of its functions. Gradients, identifiers, names
and types of problems are not modelled. The vectors and the matrices of the allocators are functions on `Fin n`.
-/

noncomputable section

namespace Bbob
open Classical Transform

variable {n : Nat}

/-- Which of the words the allocators look for is in the name template (`/repo/src/suite_bbob.c` line 89,
`/repo/src/suite_sbox_cost.c` lines 80-81, `/repo/src/suite_largescale.c` line 63). -/
inductive Template where
  | bbob
  | boxed
  | largescale
deriving DecidableEq

/-! ### Random data -/

/-- A list of numbers as a vector (the numbers are stored in an array, `/repo/src/suite_bbob_legacy_code.c` lines
171-193). -/
def vec (l : List ℚ) : Vec n := fun i => ((l.getD i 0 : ℚ) : ℝ)

/-- The lines `if (coco_strfind(problem_name_template, "bbob-boxed suite problem") >= 0) ...` in the allocators, for
example `/repo/src/f_rastrigin.c` lines 101-105. -/
def getXopt (t : Template) (seed : Int) (n : Nat) : Res (Vec n) :=
  (if t = .boxed then Legacy.sboxComputeXopt seed n else Legacy.computeXopt seed n).bind fun l => .ok (vec l)

/-- `bbob2009_compute_rotation` (`/repo/src/suite_bbob_legacy_code.c` lines 127-153): the element in row `i` and
column `j`. -/
def rotation (seed : Int) (n : Nat) : Res (Fin n → Fin n → ℝ) :=
  (Rotation.columns seed n).bind fun cols => .ok fun i j => cols.getD j 0 i

/-- The matrix computed from two rotations and a diagonal of powers, for example `/repo/src/f_rastrigin.c` lines
154-165. -/
def product (rot1 : Fin n → Fin n → ℝ) (base : ℝ) (rot2 : Fin n → Fin n → ℝ) : Fin n → Fin n → ℝ :=
  fun i j => ∑ k : Fin n, rot1 i k * base ^ ((k : ℝ) / ((n : ℝ) - 1)) * rot2 k j

/-! ### The functions -/

/-- The position before the last one with the number `i`, for loops `i < number_of_variables - 1` (for example
`/repo/src/f_rosenbrock.c` lines 35-40). -/
def here (i : Fin (n - 1)) : Fin n := ⟨i, by omega⟩

/-- The position `i + 1` in such loops (for example `/repo/src/f_rosenbrock.c` line 36). -/
def next (i : Fin (n - 1)) : Fin n := ⟨i + 1, by omega⟩

/-- `f_sphere_raw`, `/repo/src/f_sphere.c` lines 20-34. -/
def sphere (x : Vec n) : ℝ := ∑ i, x i * x i

/-- `f_ellipsoid_raw`, `/repo/src/f_ellipsoid.c` lines 32-47. -/
def ellipsoid (conditioning : ℝ) (x : Vec n) : ℝ :=
  ∑ i : Fin n, if i.1 = 0 then x i * x i else conditioning ^ ((i : ℝ) / ((n : ℝ) - 1)) * x i * x i

/-- `f_rastrigin_raw`, `/repo/src/f_rastrigin.c` lines 28-47; `f_bueche_rastrigin_raw`,
`/repo/src/f_bueche_rastrigin.c` lines 23-39, computes the same. -/
def rastrigin (x : Vec n) : ℝ :=
  10 * ((n : ℝ) - ∑ i, Real.cos (2 * Real.pi * x i)) + ∑ i, x i * x i

/-- The slope in `/repo/src/f_linear_slope.c` lines 34-40. -/
def slope (best : Vec n) (i : Fin n) : ℝ :=
  if best i > 0 then Real.sqrt 100 ^ ((i : ℝ) / ((n : ℝ) - 1)) else -Real.sqrt 100 ^ ((i : ℝ) / ((n : ℝ) - 1))

/-- `f_linear_slope_raw`, `/repo/src/f_linear_slope.c` lines 20-48. -/
def linearSlope (best : Vec n) (x : Vec n) : ℝ :=
  ∑ i : Fin n, if x i * best i < 25 then 5 * |slope best i| - slope best i * x i
    else 5 * |slope best i| - slope best i * best i

/-- `f_attractive_sector_raw`, `/repo/src/f_attractive_sector.c` lines 33-50. -/
def attractiveSector (xopt : Vec n) (x : Vec n) : ℝ :=
  ∑ i, if xopt i * x i > 0 then 100 * 100 * x i * x i else x i * x i

/-- The sum over the coordinates outside `[-5, 5]`, `/repo/src/f_step_ellipsoid.c` lines 57-62,
`/repo/src/f_gallagher.c` lines 84-89 and `/repo/src/f_lunacek_bi_rastrigin.c` lines 50-55. -/
def outside (x : Vec n) : ℝ := ∑ i, if |x i| - 5 > 0 then (|x i| - 5) * (|x i| - 5) else 0

/-- `coco_double_round`, `/repo/src/coco_utilities.c` line 916. -/
def roundDouble (x : ℝ) : ℝ := ⌊x + 0.5⌋

/-- The rounding in `/repo/src/f_step_ellipsoid.c` lines 74-80. -/
def step (z : ℝ) : ℝ := if |z| > 0.5 then roundDouble z else roundDouble (10 * z) / 10

/-- The vector `data->x` after the first loop in `/repo/src/f_step_ellipsoid.c` lines 64-71. -/
def stepInner (xopt : Vec n) (rot2 : Fin n → Fin n → ℝ) (x : Vec n) : Vec n :=
  fun i => ∑ j, Real.sqrt ((100 / 10 : ℝ) ^ ((i : ℝ) / ((n : ℝ) - 1))) * rot2 i j * (x j - xopt j)

/-- `f_step_ellipsoid_raw`, `/repo/src/f_step_ellipsoid.c` lines 43-99 (for at least two variables); `first` is the
number 0 of the coordinates. -/
def stepEllipsoid (first : Fin n) (xopt : Vec n) (fopt penaltyScale : ℝ) (rot1 rot2 : Fin n → Fin n → ℝ) (x : Vec n) :
    ℝ :=
  let penalty := outside x * penaltyScale
  let z := stepInner xopt rot2 x
  let xx : Vec n := fun i => ∑ j, rot1 i j * step (z j)
  0.1 * max (|z first| * (1 / 10 ^ 4)) (∑ i : Fin n, (100 : ℝ) ^ ((i : ℝ) / ((n : ℝ) - 1)) * xx i * xx i) + penalty
    + fopt

/-- `f_rosenbrock_raw`, `/repo/src/f_rosenbrock.c` lines 23-44. -/
def rosenbrock (x : Vec n) : ℝ :=
  100 * (∑ i : Fin (n - 1), (x (here i) * x (here i) - x (next i)) * (x (here i) * x (here i) - x (next i)))
    + ∑ i : Fin (n - 1), (x (here i) - 1) * (x (here i) - 1)

/-- `f_discus_raw`, `/repo/src/f_discus.c` lines 20-35. -/
def discus (x : Vec n) : ℝ := ∑ i : Fin n, if i.1 = 0 then 10 ^ 6 * x i * x i else x i * x i

/-- `f_bent_cigar_raw`, `/repo/src/f_bent_cigar.c` lines 21-36. -/
def bentCigar (x : Vec n) : ℝ := ∑ i : Fin n, if i.1 = 0 then x i * x i else 10 ^ 6 * x i * x i

/-- `f_sharp_ridge_raw`, `/repo/src/f_sharp_ridge.c` lines 20-44 (where `d_vars_40` is 1). -/
def sharpRidge (x : Vec n) : ℝ :=
  100 * Real.sqrt (∑ i : Fin n, if i.1 = 0 then 0 else x i * x i) + ∑ i : Fin n, if i.1 = 0 then x i * x i else 0

/-- `f_different_powers_raw`, `/repo/src/f_different_powers.c` lines 23-40. -/
def differentPowers (x : Vec n) : ℝ := Real.sqrt (∑ i : Fin n, |x i| ^ (2 + 4 * (i : ℝ) / ((n : ℝ) - 1)))

/-- The constant `f0`, `/repo/src/f_weierstrass.c` lines 82-87. -/
def weierstrassF0 : ℝ :=
  ∑ k ∈ Finset.range 12, (0.5 : ℝ) ^ k * Real.cos (2 * Real.pi * 3 ^ k * 0.5)

/-- `f_weierstrass_raw`, `/repo/src/f_weierstrass.c` lines 38-57. -/
def weierstrass (x : Vec n) : ℝ :=
  10 * ((∑ i, ∑ k ∈ Finset.range 12, Real.cos (2 * Real.pi * (x i + 0.5) * 3 ^ k) * 0.5 ^ k) / (n : ℝ)
    - weierstrassF0) ^ 3

/-- `f_schaffers_raw`, `/repo/src/f_schaffers.c` lines 26-49. -/
def schaffers (x : Vec n) : ℝ :=
  ((∑ i : Fin (n - 1),
    let tmp := x (here i) * x (here i) + x (next i) * x (next i)
    tmp ^ (0.25 : ℝ) * (1 + Real.sin (50 * tmp ^ (0.1 : ℝ)) ^ 2)) / ((n : ℝ) - 1)) ^ 2

/-- `f_griewank_rosenbrock_raw`, `/repo/src/f_griewank_rosenbrock.c` lines 32-53. -/
def griewankRosenbrock (facftrue : ℝ) (x : Vec n) : ℝ :=
  facftrue + facftrue * (∑ i : Fin (n - 1),
    let c1 := x (here i) * x (here i) - x (next i)
    let c2 := 1 - x (here i)
    let tmp := 100 * c1 * c1 + c2 * c2
    (tmp / 4000 - Real.cos tmp)) / ((n : ℝ) - 1)

/-- `f_schwefel_raw`, `/repo/src/f_schwefel.c` lines 25-51. -/
def schwefel (x : Vec n) : ℝ :=
  0.01 * ((∑ i, if |x i| - 500 > 0 then (|x i| - 500) * (|x i| - 500) else 0) + 418.9828872724339
    - (∑ i, x i * Real.sin (Real.sqrt |x i|)) / (n : ℝ))

/-- `f_katsuura_raw`, `/repo/src/f_katsuura.c` lines 24-51. -/
def katsuura (x : Vec n) : ℝ :=
  10 / (n : ℝ) / (n : ℝ) * (-1 + ∏ i : Fin n,
    (1 + ((i : ℝ) + 1) * ∑ j ∈ Finset.range 32,
      |(2 : ℝ) ^ (j + 1) * x i - roundDouble ((2 : ℝ) ^ (j + 1) * x i)| / (2 : ℝ) ^ (j + 1)) ^
        (10 / (n : ℝ) ^ (1.2 : ℝ)))

/-- `x_hat` in `/repo/src/f_lunacek_bi_rastrigin.c` lines 58-63. -/
def xHat2 (xopt x : Vec n) : Vec n := fun i => if xopt i < 0 then 2 * x i * -1 else 2 * x i

/-- `f_lunacek_bi_rastrigin_raw`, `/repo/src/f_lunacek_bi_rastrigin.c` lines 33-92. -/
def lunacek (xopt : Vec n) (rot1 rot2 : Fin n → Fin n → ℝ) (x : Vec n) : ℝ :=
  let mu0 : ℝ := 2.5
  let s := 1 - 0.5 / (Real.sqrt ((n : ℝ) + 20) - 4.1)
  let mu1 := -Real.sqrt ((mu0 * mu0 - 1) / s)
  let penalty := outside x
  let x_hat := xHat2 xopt x
  let tmp : Vec n := fun i => ∑ j, Real.sqrt 100 ^ ((i : ℝ) / ((n : ℝ) - 1)) * rot2 i j * (x_hat j - mu0)
  let z : Vec n := fun i => ∑ j, rot1 i j * tmp j
  let sum1 := ∑ i, (x_hat i - mu0) * (x_hat i - mu0)
  let sum2 := ∑ i, (x_hat i - mu1) * (x_hat i - mu1)
  let sum3 := ∑ i, Real.cos (2 * Real.pi * z i)
  min sum1 (1 * (n : ℝ) + s * sum2) + 10 * ((n : ℝ) - sum3) + 10 ^ 4 * penalty

/-- The data of the Gallagher functions, `/repo/src/f_gallagher.c` lines 41-49: the rotation, the places of the peaks
in rotated coordinates (`x_local`, one vector for every peak), their scales and their heights. -/
structure Peaks (n : Nat) where
  number : Nat
  rotation : Fin n → Fin n → ℝ
  place : Nat → Vec n
  scales : Nat → Vec n
  height : Nat → ℝ
  penaltyScale : ℝ

/-- The highest of the peaks at a point, `/repo/src/f_gallagher.c` lines 94-110. -/
def peak (D : Peaks n) (x : Vec n) : ℝ :=
  let fac := -0.5 / (n : ℝ)
  let tmx : Vec n := fun i => ∑ j, D.rotation i j * x j
  (List.range D.number).foldl (fun f i =>
    max f (D.height i * Real.exp (fac * ∑ j, D.scales i j * (tmx j - D.place i j) * (tmx j - D.place i j)))) 0

/-- `f_gallagher_raw`, `/repo/src/f_gallagher.c` lines 68-127. -/
def gallagher (D : Peaks n) (x : Vec n) : ℝ :=
  let f := 10 - peak D x
  let f_true := objOsc f
  f_true * f_true + outside x * D.penaltyScale

/-! ### Basic problems -/

/-- The functions `f_..._allocate` (for example `/repo/src/f_rastrigin.c` lines 75-86 with
`coco_problem_allocate_from_scalars`, `/repo/src/coco_problem.c` lines 281-303): the region of interest is `[-5, 5]`
in every coordinate, and the best value is computed by evaluating the function at the best parameter, where the
assertion in `f_..._evaluate` compares the value with itself. `two`: the raw function has the assertion
`number_of_variables > 1`. -/
def allocate (two : Bool) (f : Vec n → ℝ) (best : Vec n) : Res (Prob n) :=
  (Res.assert (!two || decide (1 < n))).bind fun _ =>
  .ok {
    eval := fun x => check (some (f best)) (f x)
    lo := fun _ => -5
    hi := fun _ => 5
    bestParam := some best
    bestValue := some (f best) }

/-- The lines `if (coco_strfind(problem_name_template, "BBOB large-scale suite") >= 0)` with
`transform_obj_norm_by_dim`, for example `/repo/src/f_rastrigin.c` lines 113-116. -/
def norm (t : Template) : List (T n) := if t = .largescale then [.normByDim] else []

/-! ### The allocators of the suite -/

/-- `f_sphere_bbob_problem_allocate`, `/repo/src/f_sphere.c` lines 77-114. -/
def sphereProblem (t : Template) (function inst : Nat) (seed : Int) (n : Nat) : Res (Prob n) :=
  (Legacy.computeFopt function inst).bind fun fopt =>
  (getXopt t seed n).bind fun xopt =>
  (allocate false sphere 0).bind fun P =>
  chain ([.varsShift xopt] ++ norm t ++ [.objShift fopt]) P

/-- `f_ellipsoid_bbob_problem_allocate`, `/repo/src/f_ellipsoid.c` lines 94-127. -/
def ellipsoidProblem (t : Template) (function inst : Nat) (seed : Int) (n : Nat) : Res (Prob n) :=
  (Legacy.computeFopt function inst).bind fun fopt =>
  (getXopt t seed n).bind fun xopt =>
  (allocate false (ellipsoid (10 ^ 6)) 0).bind fun P =>
  chain ([.oscillate, .varsShift xopt] ++ norm t ++ [.objShift fopt]) P

/-- `f_rastrigin_bbob_problem_allocate`, `/repo/src/f_rastrigin.c` lines 91-127. -/
def rastriginProblem (t : Template) (function inst : Nat) (seed : Int) (n : Nat) : Res (Prob n) :=
  (Legacy.computeFopt function inst).bind fun fopt =>
  (getXopt t seed n).bind fun xopt =>
  (allocate false rastrigin 0).bind fun P =>
  chain ([.conditioning 10, .asymmetric 0.2, .oscillate, .varsShift xopt] ++ norm t ++ [.objShift fopt]) P

/-- `f_bueche_rastrigin_bbob_problem_allocate`, `/repo/src/f_bueche_rastrigin.c` lines 70-114. -/
def buecheProblem (t : Template) (function inst : Nat) (seed : Int) (n : Nat) : Res (Prob n) :=
  (Legacy.computeFopt function inst).bind fun fopt =>
  (getXopt t seed n).bind fun xopt =>
  let xopt : Vec n := fun i => if i.1 % 2 = 0 then |xopt i| else xopt i
  (allocate false rastrigin 0).bind fun P =>
  chain ([.brs, .oscillate, .varsShift xopt] ++ norm t ++ [.objShift fopt, .penalize 100]) P

/-- `f_linear_slope_bbob_problem_allocate` with `f_linear_slope_allocate`, `/repo/src/f_linear_slope.c` lines
86-144. -/
def linearSlopeProblem (t : Template) (function inst : Nat) (seed : Int) (n : Nat) : Res (Prob n) :=
  (getXopt t seed n).bind fun xopt =>
  (Legacy.computeFopt function inst).bind fun fopt =>
  let best : Vec n := fun i => if xopt i < 0 then -5 else 5
  (allocate false (linearSlope best) best).bind fun P =>
  chain (norm t ++ [.objShift fopt]) P

/-- `f_attractive_sector_bbob_problem_allocate`, `/repo/src/f_attractive_sector.c` lines 101-156. -/
def attractiveSectorProblem (t : Template) (function inst : Nat) (seed : Int) (n : Nat) : Res (Prob n) :=
  (Legacy.computeFopt function inst).bind fun fopt =>
  (getXopt t seed n).bind fun xopt =>
  (rotation (seed + 1000000) n).bind fun rot1 =>
  (rotation seed n).bind fun rot2 =>
  (allocate false (attractiveSector xopt) 0).bind fun P =>
  chain [.objOscillate, .objPower 0.9, .objShift fopt, .affine (product rot1 (Real.sqrt 10) rot2) 0,
    .varsShift xopt] P

/-- `f_step_ellipsoid_bbob_problem_allocate`, `/repo/src/f_step_ellipsoid.c` lines 133-181. The best value is not
computed but set; the assertion `number_of_variables > 1` is in the evaluation. -/
def stepEllipsoidProblem (t : Template) (function inst : Nat) (seed : Int) (penaltyScale : ℝ) (n : Nat) :
    Res (Prob n) :=
  (Legacy.computeFopt function inst).bind fun fopt =>
  (getXopt t seed n).bind fun xopt =>
  (rotation (seed + 1000000) n).bind fun rot1 =>
  (rotation seed n).bind fun rot2 =>
  .ok {
    eval := fun x => if h : 1 < n then
        check (some fopt) (stepEllipsoid ⟨0, by omega⟩ xopt fopt penaltyScale rot1 rot2 x)
      else .assertFail
    lo := fun _ => -5
    hi := fun _ => 5
    bestParam := some xopt
    bestValue := some fopt }

/-- `f_rosenbrock_bbob_problem_allocate`, `/repo/src/f_rosenbrock.c` lines 73-122. -/
def rosenbrockProblem (t : Template) (function inst : Nat) (seed : Int) (n : Nat) : Res (Prob n) :=
  (getXopt t seed n).bind fun xopt =>
  let xopt : Vec n := fun i => xopt i * 0.75
  (Legacy.computeFopt function inst).bind fun fopt =>
  let size : Nat := if t = .largescale then Rotation.blockSize n else n
  let factor := max 1 (Real.sqrt size / 8)
  (allocate true rosenbrock fun _ => 1).bind fun P =>
  chain ([.varsShift fun _ => -1, .varsScale factor, .varsShift xopt] ++ norm t ++ [.objShift fopt]) P

/-- `f_rosenbrock_rotated_bbob_problem_allocate`, `/repo/src/f_rosenbrock.c` lines 127-183. -/
def rotatedRosenbrockProblem (function inst : Nat) (seed : Int) (n : Nat) : Res (Prob n) :=
  (Legacy.computeFopt function inst).bind fun fopt =>
  (rotation seed n).bind fun rot1 =>
  let factor := max 1 (Real.sqrt n / 8)
  (allocate true rosenbrock fun _ => 1).bind fun P =>
  (chain [.affine (fun i j => factor * rot1 i j) fun _ => 0.5, .objShift fopt] { P with bestParam := some 0 }).bind
    fun P =>
  .ok { P with bestParam := some fun column => (∑ row, rot1 row column) / (2 * factor) }

/-- `f_ellipsoid_rotated_bbob_problem_allocate`, `/repo/src/f_ellipsoid.c` lines 132-171. -/
def rotatedEllipsoidProblem (t : Template) (function inst : Nat) (seed : Int) (conditioning : ℝ) (n : Nat) :
    Res (Prob n) :=
  (Legacy.computeFopt function inst).bind fun fopt =>
  (getXopt t seed n).bind fun xopt =>
  (rotation (seed + 1000000) n).bind fun rot1 =>
  (allocate false (ellipsoid conditioning) 0).bind fun P =>
  chain [.oscillate, .affine rot1 0, .varsShift xopt, .objShift fopt] P

/-- `f_discus_bbob_problem_allocate`, `/repo/src/f_discus.c` lines 78-119. -/
def discusProblem (t : Template) (function inst : Nat) (seed : Int) (n : Nat) : Res (Prob n) :=
  (Legacy.computeFopt function inst).bind fun fopt =>
  (getXopt t seed n).bind fun xopt =>
  (rotation (seed + 1000000) n).bind fun rot1 =>
  (allocate false discus 0).bind fun P =>
  chain [.oscillate, .affine rot1 0, .varsShift xopt, .objShift fopt] P

/-- `f_bent_cigar_bbob_problem_allocate`, `/repo/src/f_bent_cigar.c` lines 80-122. -/
def bentCigarProblem (t : Template) (function inst : Nat) (seed : Int) (n : Nat) : Res (Prob n) :=
  (Legacy.computeFopt function inst).bind fun fopt =>
  (getXopt t (seed + 1000000) n).bind fun xopt =>
  (rotation (seed + 1000000) n).bind fun rot1 =>
  (allocate false bentCigar 0).bind fun P =>
  chain [.objShift fopt, .affine rot1 0, .asymmetric 0.5, .affine rot1 0, .varsShift xopt] P

/-- `f_sharp_ridge_bbob_problem_allocate`, `/repo/src/f_sharp_ridge.c` lines 74-125. -/
def sharpRidgeProblem (t : Template) (function inst : Nat) (seed : Int) (n : Nat) : Res (Prob n) :=
  (Legacy.computeFopt function inst).bind fun fopt =>
  (getXopt t seed n).bind fun xopt =>
  (rotation (seed + 1000000) n).bind fun rot1 =>
  (rotation seed n).bind fun rot2 =>
  (allocate true sharpRidge 0).bind fun P =>
  chain [.objShift fopt, .affine (product rot1 (Real.sqrt 10) rot2) 0, .varsShift xopt] P

/-- `f_different_powers_bbob_problem_allocate`, `/repo/src/f_different_powers.c` lines 108-148. -/
def differentPowersProblem (t : Template) (function inst : Nat) (seed : Int) (n : Nat) : Res (Prob n) :=
  (Legacy.computeFopt function inst).bind fun fopt =>
  (getXopt t seed n).bind fun xopt =>
  (rotation (seed + 1000000) n).bind fun rot1 =>
  (allocate false differentPowers 0).bind fun P =>
  chain [.objShift fopt, .affine rot1 0, .varsShift xopt] P

/-- `f_rastrigin_rotated_bbob_problem_allocate`, `/repo/src/f_rastrigin.c` lines 132-187. -/
def rotatedRastriginProblem (t : Template) (function inst : Nat) (seed : Int) (n : Nat) : Res (Prob n) :=
  (Legacy.computeFopt function inst).bind fun fopt =>
  (getXopt t seed n).bind fun xopt =>
  (rotation (seed + 1000000) n).bind fun rot1 =>
  (rotation seed n).bind fun rot2 =>
  (allocate false rastrigin 0).bind fun P =>
  chain [.objShift fopt, .affine (product rot1 (Real.sqrt 10) rot2) 0, .asymmetric 0.2, .oscillate, .affine rot1 0,
    .varsShift xopt] P

/-- `f_weierstrass_bbob_problem_allocate`, `/repo/src/f_weierstrass.c` lines 102-163. -/
def weierstrassProblem (t : Template) (function inst : Nat) (seed : Int) (n : Nat) : Res (Prob n) :=
  (Legacy.computeFopt function inst).bind fun fopt =>
  (getXopt t seed n).bind fun xopt =>
  (rotation (seed + 1000000) n).bind fun rot1 =>
  (rotation seed n).bind fun rot2 =>
  (allocate false weierstrass 0).bind fun P =>
  chain [.objShift fopt, .affine (product rot1 (1 / Real.sqrt 100) rot2) 0, .oscillate, .affine rot1 0,
    .varsShift xopt, .penalize (10 / n)] P

/-- `f_schaffers_bbob_problem_allocate`, `/repo/src/f_schaffers.c` lines 78-135. -/
def schaffersProblem (t : Template) (function inst : Nat) (seed : Int) (conditioning penaltyScale : ℝ) (n : Nat) :
    Res (Prob n) :=
  (Legacy.computeFopt function inst).bind fun fopt =>
  (getXopt t seed n).bind fun xopt =>
  (rotation (seed + 1000000) n).bind fun rot1 =>
  (rotation seed n).bind fun rot2 =>
  (allocate true schaffers 0).bind fun P =>
  chain [.objShift fopt, .affine (fun i j => rot2 i j * Real.sqrt conditioning ^ ((i : ℝ) / ((n : ℝ) - 1))) 0,
    .asymmetric 0.5, .affine rot1 0, .varsShift xopt, .penalize penaltyScale] P

/-- `f_griewank_rosenbrock_bbob_problem_allocate`, `/repo/src/f_griewank_rosenbrock.c` lines 87-148; `rot1` is the
matrix after the loop in lines 110-114. -/
def griewankRosenbrockProblem (function inst : Nat) (seed : Int) (facftrue : ℝ) (n : Nat) : Res (Prob n) :=
  (Legacy.computeFopt function inst).bind fun fopt =>
  (rotation seed n).bind fun rot1 =>
  let scales := max 1 (Real.sqrt n / 8)
  let rot1 : Fin n → Fin n → ℝ := fun i j => rot1 i j * scales
  (allocate false (griewankRosenbrock facftrue) fun _ => 1).bind fun P =>
  (chain [.objShift fopt, .varsShift fun _ => -0.5] P).bind fun P =>
  (chain [.affine rot1 0] { P with bestParam := some 0 }).bind fun P =>
  .ok { P with bestParam := some fun j => (∑ i, rot1 i j) / (2 * scales) }

/-- `f_schwefel_bbob_problem_allocate`, `/repo/src/f_schwefel.c` lines 80-126 (the identifier of the basic problem
begins with "schwefel", and the transformations keep it at the beginning of the identifier). -/
def schwefelProblem (function inst : Nat) (seed : Int) (n : Nat) : Res (Prob n) :=
  (Legacy.computeFopt function inst).bind fun fopt =>
  (Legacy.unif n seed).bind fun us =>
  let u : Vec n := vec us
  let xopt : Vec n := fun i => (if u i < 0.5 then -1 else 1) * 0.5 * 4.2096874637
  (allocate false schwefel fun _ => 420.96874633).bind fun P =>
  chain [.varsScale 100, .varsShift fun i => -2 * |xopt i|, .conditioning 10, .varsShift fun i => 2 * |xopt i|,
    .zHat xopt true, .varsScale 2, .xHat u, .objShift fopt] P

/-- The indices of the numbers in increasing order of the numbers: `rperm` and `qsort` with
`f_gallagher_compare_doubles`, `/repo/src/f_gallagher.c` lines 54-62, 212-217 and 234-238. Equal numbers keep their
order here, which `qsort` does not promise. -/
def order (us : List ℚ) : List Nat :=
  (us.zipIdx.mergeSort fun a b => decide (a.1 ≤ b.1)).map Prod.snd

/-- The scales of peak `i`, `/repo/src/f_gallagher.c` lines 232-243, with the condition number of the peak. -/
def peakScales (seed : Int) (condition : Nat → ℝ) (n i : Nat) : Res (Vec n) :=
  (Legacy.unif n (seed + 1000 * i)).bind fun us =>
  .ok fun j => condition i ^ (((order us).getD j 0 : ℝ) / ((n : ℝ) - 1) - 0.5)

/-- The scales of all peaks, `/repo/src/f_gallagher.c` lines 232-244: for the given number of peaks from number `i`
on. -/
def allScales (seed : Int) (condition : Nat → ℝ) (n : Nat) : Nat → Nat → Res (List (Vec n))
  | 0, _ => .ok []
  | k + 1, i =>
    (peakScales seed condition n i).bind fun s =>
    (allScales seed condition n k (i + 1)).bind fun ss => .ok (s :: ss)

/-- `f_gallagher_bbob_problem_allocate`, `/repo/src/f_gallagher.c` lines 159-293. The matrices `x_local` and
`arr_scales` are functions of the number of the peak. -/
def gallagherProblem (t : Template) (function inst : Nat) (seed : Int) (peaks : Nat) (penaltyScale : ℝ) (n : Nat) :
    Res (Prob n) :=
  (if peaks = 101 then Res.ok ((Real.sqrt 1000, 10, 5) : ℝ × ℝ × ℝ)
    else if peaks = 21 then Res.ok ((1000, 9.8, 4.9) : ℝ × ℝ × ℝ) else Res.error).bind fun (maxcondition1, b, c) =>
  (rotation seed n).bind fun rot =>
  (Legacy.unif (peaks - 1) seed).bind fun us =>
  let condition : Nat → ℝ := fun i =>
    if i = 0 then maxcondition1 else (1000 : ℝ) ^ (((order us).getD (i - 1) 0 : ℝ) / ((peaks : ℝ) - 2))
  let height : Nat → ℝ := fun i =>
    if i = 0 then 10 else ((i : ℝ) - 1) / ((peaks : ℝ) - 2) * (9.1 - 1.1) + 1.1
  (allScales seed condition n peaks 0).bind fun scales =>
  (Legacy.unif (n * peaks) seed).bind fun rs =>
  let factor : ℝ := if t = .boxed then 1 else 0.8
  let number : Nat → ℝ := fun k => ((rs.getD k 0 : ℚ) : ℝ)
  let best : Vec n := fun i => factor * (b * number i - c)
  let place : Nat → Vec n := fun j i =>
    let v := ∑ k : Fin n, rot i k * (b * number (j * n + k) - c)
    if j = 0 then v * factor else v
  let D : Peaks n := ⟨peaks, rot, place, fun i => scales.getD i 0, height, penaltyScale⟩
  (allocate false (gallagher D) best).bind fun P =>
  (Legacy.computeFopt function inst).bind fun fopt =>
  chain [.objShift fopt] P

/-- `f_katsuura_bbob_problem_allocate`, `/repo/src/f_katsuura.c` lines 80-138. -/
def katsuuraProblem (t : Template) (function inst : Nat) (seed : Int) (n : Nat) : Res (Prob n) :=
  (Legacy.computeFopt function inst).bind fun fopt =>
  (getXopt t seed n).bind fun xopt =>
  (rotation (seed + 1000000) n).bind fun rot1 =>
  (rotation seed n).bind fun rot2 =>
  (allocate false katsuura 0).bind fun P =>
  chain [.objShift fopt, .affine (product rot1 (Real.sqrt 100) rot2) 0, .varsShift xopt, .penalize 1] P

/-- `f_lunacek_bi_rastrigin_bbob_problem_allocate`, `/repo/src/f_lunacek_bi_rastrigin.c` lines 128-187 (the vector
first put in `data->xopt`, line 157, is overwritten in lines 170-176). -/
def lunacekProblem (t : Template) (function inst : Nat) (seed : Int) (n : Nat) : Res (Prob n) :=
  (getXopt t seed n).bind fun _ =>
  (rotation (seed + 1000000) n).bind fun rot1 =>
  (rotation seed n).bind fun rot2 =>
  (Legacy.gauss n seed).bind fun g =>
  let xopt : Vec n := fun i => if g.getD i 0 < 0 then 0.5 * 2.5 * -1 else 0.5 * 2.5
  (allocate true (lunacek xopt rot1 rot2) xopt).bind fun P =>
  (Legacy.computeFopt function inst).bind fun fopt =>
  chain [.objShift fopt] P

/-- `coco_get_bbob_problem`, `/repo/src/suite_bbob.c` lines 85-186, and, with the template of the boxed suite,
`coco_get_bbob_boxed_problem`, `/repo/src/suite_sbox_cost.c` lines 75-203, before the box is enforced. The seeds are
not reduced to the range of `long`. -/
def get (t : Template) (function inst n : Nat) : Res (Prob n) :=
  let rseed : Int := function + 10000 * inst
  let rseed_3 : Int := 3 + 10000 * inst
  let rseed_17 : Int := 17 + 10000 * inst
  if function = 1 then sphereProblem t function inst rseed n
  else if function = 2 then ellipsoidProblem t function inst rseed n
  else if function = 3 then rastriginProblem t function inst rseed n
  else if function = 4 then buecheProblem t function inst rseed_3 n
  else if function = 5 then linearSlopeProblem t function inst rseed n
  else if function = 6 then attractiveSectorProblem t function inst rseed n
  else if function = 7 then stepEllipsoidProblem t function inst rseed 1 n
  else if function = 8 then rosenbrockProblem t function inst rseed n
  else if function = 9 then rotatedRosenbrockProblem function inst rseed n
  else if function = 10 then rotatedEllipsoidProblem t function inst rseed (10 ^ 6) n
  else if function = 11 then discusProblem t function inst rseed n
  else if function = 12 then bentCigarProblem t function inst rseed n
  else if function = 13 then sharpRidgeProblem t function inst rseed n
  else if function = 14 then differentPowersProblem t function inst rseed n
  else if function = 15 then rotatedRastriginProblem t function inst rseed n
  else if function = 16 then weierstrassProblem t function inst rseed n
  else if function = 17 then schaffersProblem t function inst rseed 10 10 n
  else if function = 18 then schaffersProblem t function inst rseed_17 1000 10 n
  else if function = 19 then griewankRosenbrockProblem function inst rseed 10 n
  else if function = 20 then schwefelProblem function inst rseed n
  else if function = 21 then gallagherProblem t function inst rseed 101 1 n
  else if function = 22 then gallagherProblem t function inst rseed 21 1 n
  else if function = 23 then katsuuraProblem t function inst rseed n
  else if function = 24 then lunacekProblem t function inst rseed n
  else .error

end Bbob
