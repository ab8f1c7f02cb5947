import Verif.Model.Bbob
import Verif.Model.Permutation

/-!
# Model of the problems of the bbob-largescale suite

`/repo/src/suite_largescale.c` (`coco_get_largescale_problem`) and the allocators it calls: those of `Verif.Model.Bbob`
for the functions 1 to 5 and 8, and the `..._permblockdiag_bbob_problem_allocate` functions with permutations and block
rotations for the others. Conventions as in `Verif.Model.Bbob`; the sorting function `qsort` is a parameter as in
`Verif.Model.Permutation`. The data kept in `versatile_data` that one transformation writes and the basic problem reads
(`zhat_1` of function 7, `x_hat` of function 24) is a parameter of the inner problem here, because it is always written
before the inner problem is evaluated.
-/

noncomputable section

namespace LargeScale
open Classical Transform Bbob

variable {n : Nat}

/-! ### Random data -/

/-- `coco_compute_truncated_uniform_swap_permutation` with the arguments the allocators give it, for example
`/repo/src/f_ellipsoid.c` lines 193-194 and 208: the permutation as a function on the positions. -/
def perm (qsort : Permutation.SortFn) (seed : Int) (n : Nat) : Res (Fin n → Fin n) :=
  (Permutation.swapRange n "bbob-largescale").bind fun range =>
  (Permutation.nbSwaps n "bbob-largescale").bind fun nb =>
  (Permutation.truncated qsort seed n nb range).bind fun l =>
  if h : ∀ i : Fin n, l.getD i n < n then .ok fun i => ⟨l.getD i n, h i⟩ else .ub

/-- `coco_get_block_sizes`, `coco_compute_blockrotation` and the test made by `transform_vars_blockrotation`, for
example `/repo/src/f_ellipsoid.c` lines 192, 204 and 214-215: all elements of the matrix, with the zeros outside the
blocks. -/
def matrix (seed : Int) (n : Nat) : Res (Fin n → Fin n → ℝ) :=
  (Rotation.blockSizes n).bind fun sizes =>
  (Rotation.blockRotation seed n sizes).bind fun B =>
  (Rotation.create B n sizes).bind fun maps =>
  .ok fun i j =>
    let size := (maps.getD i (0, 0)).1
    let first := (maps.getD i (0, 0)).2
    if first ≤ j.1 ∧ j.1 < first + size then (B.getD i []).getD (j - first) 0 else 0

/-- The assignments `y[P[i]] = x[i]` for all `i` in order, `/repo/src/transform_vars_permutation.c` lines 65-67 and
`/repo/src/f_griewank_rosenbrock.c` lines 217-220. -/
def scatter (p : Fin n → Fin n) (x : Vec n) : Vec n := fun k =>
  (List.finRange n).foldl (fun v i => if p i = k then x i else v) 0

/-! ### Basic functions -/

/-- The number of special axes, `/repo/src/f_discus_generalized.c` lines 49-56,
`/repo/src/f_bent_cigar_generalized.c` lines 53-60 and `/repo/src/f_sharp_ridge_generalized.c` lines 58-65, where the
denominator is 40 (lines 122, 119 and 135 of these files). -/
def axes (n : Nat) : Nat := n / 40 + if n % 40 ≠ 0 then 1 else 0

/-- `f_discus_generalized_raw`, `/repo/src/f_discus_generalized.c` lines 42-68. -/
def discus (x : Vec n) : ℝ :=
  (∑ i : Fin n, if i.1 < axes n then x i * x i else 0) * 10 ^ 6 + ∑ i : Fin n, if i.1 < axes n then 0 else x i * x i

/-- `f_bent_cigar_generalized_raw`, `/repo/src/f_bent_cigar_generalized.c` lines 46-68. -/
def bentCigar (x : Vec n) : ℝ :=
  (∑ i : Fin n, if i.1 < axes n then x i * x i else 0)
    + ∑ i : Fin n, if i.1 < axes n then 0 else 10 ^ 6 * x i * x i

/-- `f_sharp_ridge_generalized_raw`, `/repo/src/f_sharp_ridge_generalized.c` lines 45-75. -/
def sharpRidge (x : Vec n) : ℝ :=
  100 * Real.sqrt (∑ i : Fin n, if i.1 < axes n then 0 else x i * x i)
    + ∑ i : Fin n, if i.1 < axes n then x i * x i else 0

/-- `f_step_ellipsoid_core`, `/repo/src/f_step_ellipsoid.c` lines 187-203. -/
def stepCore (zhat1 : ℝ) (x : Vec n) : ℝ :=
  0.1 * max (zhat1 * (1 / 10 ^ 4)) (∑ i : Fin n, (100 : ℝ) ^ ((i : ℝ) / ((n : ℝ) - 1)) * x i * x i)

/-- `f_step_ellipsoid_allocate` with `f_step_ellipsoid_permblock_evaluate`, `/repo/src/f_step_ellipsoid.c` lines
208-245: the problem when the place for `zhat_1` contains the given number. The best value is computed when it contains
0. -/
def stepBasic (zhat1 : ℝ) : Prob n :=
  let best := stepCore 0 (0 : Vec n)
  { eval := fun x => check (some best) (stepCore zhat1 x)
    lo := fun _ => -5
    hi := fun _ => 5
    bestParam := some 0
    bestValue := some best }

/-! ### Further transformations -/

/-- The rounding of one coordinate, `/repo/src/transform_vars_round_step.c` lines 47-53 and 84-90. -/
def roundCoordinate (alpha z : ℝ) : ℝ := if |z| > 0.5 then roundDouble z else roundDouble (alpha * z) / alpha

/-- `/repo/src/transform_vars_round_step.c` lines 34-57 and 68-92, for the inner problems with all contents of
`zhat_1`. -/
def roundStep (h : 0 < n) (alpha : ℝ) (inner : ℝ → Prob n) : Prob n :=
  { eval := fun x => via (inner (|x ⟨0, h⟩| * (n : ℝ))) (fun x i => roundCoordinate alpha (x i)) x
    lo := (inner 0).lo
    hi := (inner 0).hi
    bestParam := (inner 0).bestParam.map fun p i => roundCoordinate alpha (p i)
    bestValue := (inner 0).bestValue }

/-- `/repo/src/transform_vars_x_hat_generic.c` lines 36-51 and 65-84, for the inner problems with all contents of
`x_hat` (the best parameter is kept). -/
def xHatGeneric (sign : Vec n) (inner : Vec n → Prob n) : Prob n :=
  { inner 0 with eval := fun x => via (inner fun i => 2 * sign i * x i) (fun x i => 2 * sign i * x i) x }

/-- `/repo/src/transform_vars_permutation.c` lines 58-88. -/
def inversePermutation (p : Fin n → Fin n) (P : Prob n) : Prob n := { P with eval := via P (scatter p) }

/-! ### The sub-problems of functions 21, 22 and 24 -/

/-- `f_gallagher_sub_problem_allocate` with the best value set in line 553 of `/repo/src/f_gallagher.c` (lines 303-341)
and `f_lunacek_bi_rastrigin_sub_problem_allocate`, `/repo/src/f_lunacek_bi_rastrigin.c` lines 217-241: the sphere
without an assertion. -/
def subProblem : Prob n :=
  { eval := fun x => .ok (sphere x)
    lo := fun _ => -5
    hi := fun _ => 5
    bestParam := some 0
    bestValue := some 0 }

/-- `f_lunacek_bi_rastrigin_core`, `/repo/src/f_lunacek_bi_rastrigin.c` lines 247-276. -/
def lunacekCore (mu0 mu1 : Prob n) (x_hat x : Vec n) : Res ℝ :=
  (mu0.eval x_hat).bind fun y0 =>
  (mu1.eval x_hat).bind fun y1 =>
  .ok (((n : ℝ) - ∑ i, Real.cos (2 * Real.pi * x i)) * 10 + min y0 y1)

/-- `f_lunacek_bi_rastrigin_problem_allocate` and the evaluation function, `/repo/src/f_lunacek_bi_rastrigin.c` lines
281-309, when the place for `x_hat` contains the given vector. -/
def lunacekBasic (mu0 mu1 : Prob n) (x_hat : Vec n) : Prob n :=
  { eval := fun x => (lunacekCore mu0 mu1 x_hat x).bind fun y => check (some 0) y
    lo := fun _ => -5
    hi := fun _ => 5
    bestParam := some 0
    bestValue := some 0 }

/-- The weight of a peak, `/repo/src/f_gallagher.c` lines 363-367. -/
def weight (peaks i : Nat) : ℝ := if i = 0 then 10 else 1.1 + 8 * ((i : ℝ) + 1 - 2) / ((peaks : ℝ) - 2)

/-- The loop over the peaks from number `i` on, `/repo/src/f_gallagher.c` lines 357-374. -/
def peakLoop (peaks : Nat) (x : Vec n) : List (Prob n) → Nat → ℝ → Res ℝ
  | [], _, maxf => .ok maxf
  | P :: Ps, i, maxf =>
    (P.eval x).bind fun y =>
    let y := weight peaks i * Real.exp (-1 / (2 * (n : ℝ)) * y)
    peakLoop peaks x Ps (i + 1) (if i = 0 ∨ maxf < y then y else maxf)

/-- `f_gallagher_core`, `/repo/src/f_gallagher.c` lines 346-378 (for at least one peak the first value of `maxf` is not
used). -/
def gallagherCore (subs : List (Prob n)) (x : Vec n) : Res ℝ :=
  (peakLoop subs.length x subs 0 0).bind fun maxf => .ok (10 - maxf)

/-! ### The allocators -/

/-- `f_attractive_sector_permblockdiag_bbob_problem_allocate`, `/repo/src/f_attractive_sector.c` lines 158-246. -/
def attractiveSectorProblem (qsort : Permutation.SortFn) (function inst : Nat) (seed : Int) (n : Nat) : Res (Prob n) :=
  (Legacy.computeFopt function inst).bind fun fopt =>
  (getXopt .largescale seed n).bind fun xopt =>
  (matrix (seed + 1000000) n).bind fun B1 =>
  (matrix seed n).bind fun B2 =>
  (perm qsort (seed + 2000000) n).bind fun P11 =>
  (perm qsort (seed + 3000000) n).bind fun P12 =>
  (perm qsort (seed + 4000000) n).bind fun P21 =>
  (perm qsort (seed + 5000000) n).bind fun P22 =>
  (allocate false (attractiveSector xopt) 0).bind fun P =>
  chain [.normByDim, .objOscillate, .objPower 0.9, .objShift fopt, .permutation P22, .blockRotation B1,
    .permutation P21, .conditioning 10, .permutation P12, .blockRotation B2, .permutation P11, .varsShift xopt] P

/-- `f_step_ellipsoid_permblockdiag_bbob_problem_allocate`, `/repo/src/f_step_ellipsoid.c` lines 254-342. -/
def stepEllipsoidProblem (qsort : Permutation.SortFn) (function inst : Nat) (seed : Int) (n : Nat) : Res (Prob n) :=
  (Legacy.computeFopt function inst).bind fun fopt =>
  (getXopt .largescale seed n).bind fun xopt =>
  (matrix (seed + 1000000) n).bind fun B1 =>
  (matrix seed n).bind fun B2 =>
  (perm qsort (seed + 2000000) n).bind fun P11 =>
  (perm qsort (seed + 3000000) n).bind fun P12 =>
  (perm qsort (seed + 4000000) n).bind fun P21 =>
  (perm qsort (seed + 5000000) n).bind fun P22 =>
  if h : 0 < n then
    chain [.conditioning 10, .permutation P12, .blockRotation B2, .permutation P11, .varsShift xopt, .normByDim,
        .penalize 1, .objShift fopt]
      (roundStep h 10 fun z => permutation P21 (blockRotation B1 (permutation P22 (stepBasic z))))
  else .ub

/-- `f_rosenbrock_permblockdiag_bbob_problem_allocate`, `/repo/src/f_rosenbrock.c` lines 188-263. -/
def rosenbrockProblem (qsort : Permutation.SortFn) (function inst : Nat) (seed : Int) (n : Nat) : Res (Prob n) :=
  (Legacy.computeFopt function inst).bind fun fopt =>
  (getXopt .largescale seed n).bind fun xopt =>
  let factor := max 1 (Real.sqrt (Rotation.blockSize n) / 8)
  let xopt : Vec n := fun i => xopt i * 0.75
  (matrix seed n).bind fun B =>
  (perm qsort (seed + 2000000) n).bind fun P1 =>
  (perm qsort (seed + 3000000) n).bind fun P2 =>
  (allocate true rosenbrock fun _ => 1).bind fun P =>
  chain [.varsShift fun _ => -1, .varsScale factor, .permutation P2, .blockRotation B, .permutation P1,
    .varsShift xopt, .normByDim, .objShift fopt] P

/-- `f_ellipsoid_permblockdiag_bbob_problem_allocate`, `/repo/src/f_ellipsoid.c` lines 176-232. -/
def ellipsoidProblem (qsort : Permutation.SortFn) (function inst : Nat) (seed : Int) (n : Nat) : Res (Prob n) :=
  (getXopt .largescale seed n).bind fun xopt =>
  (Legacy.computeFopt function inst).bind fun fopt =>
  (matrix (seed + 1000000) n).bind fun B =>
  (perm qsort (seed + 2000000) n).bind fun P1 =>
  (perm qsort (seed + 3000000) n).bind fun P2 =>
  (allocate false (ellipsoid (10 ^ 6)) 0).bind fun P =>
  chain [.oscillate, .permutation P2, .blockRotation B, .permutation P1, .varsShift xopt, .normByDim,
    .objShift fopt] P

/-- `f_discus_generalized_permblockdiag_bbob_problem_allocate`, `/repo/src/f_discus_generalized.c` lines 105-170. -/
def discusProblem (qsort : Permutation.SortFn) (function inst : Nat) (seed : Int) (n : Nat) : Res (Prob n) :=
  (getXopt .largescale seed n).bind fun xopt =>
  (Legacy.computeFopt function inst).bind fun fopt =>
  (matrix (seed + 1000000) n).bind fun B =>
  (perm qsort (seed + 2000000) n).bind fun P1 =>
  (perm qsort (seed + 3000000) n).bind fun P2 =>
  (allocate false discus 0).bind fun P =>
  chain [.oscillate, .permutation P2, .blockRotation B, .permutation P1, .varsShift xopt, .normByDim,
    .objShift fopt] P

/-- `f_bent_cigar_generalized_permblockdiag_bbob_problem_allocate`, `/repo/src/f_bent_cigar_generalized.c` lines
106-170. -/
def bentCigarProblem (qsort : Permutation.SortFn) (function inst : Nat) (seed : Int) (n : Nat) : Res (Prob n) :=
  (getXopt .largescale (seed + 1000000) n).bind fun xopt =>
  (Legacy.computeFopt function inst).bind fun fopt =>
  (matrix (seed + 1000000) n).bind fun B =>
  (perm qsort (seed + 2000000) n).bind fun P1 =>
  (perm qsort (seed + 3000000) n).bind fun P2 =>
  (allocate false bentCigar 0).bind fun P =>
  chain [.permutation P2, .blockRotation B, .permutation P1, .asymmetric 0.5, .permutation P2, .blockRotation B,
    .permutation P1, .varsShift xopt, .normByDim, .objShift fopt] P

/-- `f_sharp_ridge_generalized_permblockdiag_bbob_problem_allocate`, `/repo/src/f_sharp_ridge_generalized.c` lines
115-194. -/
def sharpRidgeProblem (qsort : Permutation.SortFn) (function inst : Nat) (seed : Int) (n : Nat) : Res (Prob n) :=
  (Legacy.computeFopt function inst).bind fun fopt =>
  (getXopt .largescale seed n).bind fun xopt =>
  (matrix (seed + 1000000) n).bind fun B1 =>
  (matrix seed n).bind fun B2 =>
  (perm qsort (seed + 3000000) n).bind fun P11 =>
  (perm qsort (seed + 4000000) n).bind fun P21 =>
  (perm qsort (seed + 5000000) n).bind fun P12 =>
  (perm qsort (seed + 6000000) n).bind fun P22 =>
  (allocate true sharpRidge 0).bind fun P =>
  chain [.permutation P21, .blockRotation B1, .permutation P11, .conditioning 10, .permutation P22, .blockRotation B2,
    .permutation P12, .varsShift xopt, .normByDim, .objShift fopt] P

/-- `f_different_powers_permblockdiag_bbob_problem_allocate`, `/repo/src/f_different_powers.c` lines 220-283. -/
def differentPowersProblem (qsort : Permutation.SortFn) (function inst : Nat) (seed : Int) (n : Nat) : Res (Prob n) :=
  (Legacy.computeFopt function inst).bind fun fopt =>
  (getXopt .largescale seed n).bind fun xopt =>
  (matrix (seed + 1000000) n).bind fun B =>
  (perm qsort (seed + 2000000) n).bind fun P1 =>
  (perm qsort (seed + 3000000) n).bind fun P2 =>
  (allocate false differentPowers 0).bind fun P =>
  chain [.permutation P2, .blockRotation B, .permutation P1, .varsShift xopt, .normByDim, .objShift fopt] P

/-- `f_rastrigin_permblockdiag_bbob_problem_allocate`, `/repo/src/f_rastrigin.c` lines 192-279. -/
def rastriginProblem (qsort : Permutation.SortFn) (function inst : Nat) (seed : Int) (n : Nat) : Res (Prob n) :=
  (Legacy.computeFopt function inst).bind fun fopt =>
  (getXopt .largescale seed n).bind fun xopt =>
  (matrix (seed + 1000000) n).bind fun B1 =>
  (matrix seed n).bind fun B2 =>
  (perm qsort (seed + 3000000) n).bind fun P11 =>
  (perm qsort (seed + 4000000) n).bind fun P12 =>
  (perm qsort (seed + 5000000) n).bind fun P21 =>
  (perm qsort (seed + 6000000) n).bind fun P22 =>
  (allocate false rastrigin 0).bind fun P =>
  chain [.permutation P12, .blockRotation B1, .permutation P11, .conditioning 10, .permutation P22, .blockRotation B2,
    .permutation P21, .asymmetric 0.2, .oscillate, .permutation P12, .blockRotation B1, .permutation P11,
    .varsShift xopt, .normByDim, .objShift fopt] P

/-- `f_weierstrass_permblockdiag_bbob_problem_allocate`, `/repo/src/f_weierstrass.c` lines 168-250. -/
def weierstrassProblem (qsort : Permutation.SortFn) (function inst : Nat) (seed : Int) (n : Nat) : Res (Prob n) :=
  (Legacy.computeFopt function inst).bind fun fopt =>
  (getXopt .largescale seed n).bind fun xopt =>
  (matrix (seed + 1000000) n).bind fun B1 =>
  (matrix seed n).bind fun B2 =>
  (perm qsort (seed + 3000000) n).bind fun P11 =>
  (perm qsort (seed + 4000000) n).bind fun P21 =>
  (perm qsort (seed + 5000000) n).bind fun P12 =>
  (perm qsort (seed + 6000000) n).bind fun P22 =>
  (allocate false weierstrass 0).bind fun P =>
  chain [.permutation P22, .blockRotation B1, .permutation P12, .conditioning (1 / 100), .permutation P21,
    .blockRotation B2, .permutation P11, .oscillate, .permutation P22, .blockRotation B1, .permutation P12,
    .varsShift xopt, .penalize (10 / n), .objShift fopt] P

/-- `f_schaffers_permblockdiag_bbob_problem_allocate`, `/repo/src/f_schaffers.c` lines 140-219. -/
def schaffersProblem (qsort : Permutation.SortFn) (function inst : Nat) (seed : Int) (conditioning : ℝ) (n : Nat) :
    Res (Prob n) :=
  (Legacy.computeFopt function inst).bind fun fopt =>
  (getXopt .largescale seed n).bind fun xopt =>
  (matrix (seed + 1000000) n).bind fun B1 =>
  (matrix seed n).bind fun B2 =>
  (perm qsort (seed + 3000000) n).bind fun P11 =>
  (perm qsort (seed + 4000000) n).bind fun P21 =>
  (perm qsort (seed + 5000000) n).bind fun P12 =>
  (perm qsort (seed + 6000000) n).bind fun P22 =>
  (allocate true schaffers 0).bind fun P =>
  chain [.conditioning conditioning, .permutation P21, .blockRotation B2, .permutation P11, .asymmetric 0.5,
    .permutation P22, .blockRotation B1, .permutation P12, .varsShift xopt, .penalize 10, .objShift fopt] P

/-- `f_griewank_rosenbrock_permblockdiag_bbob_bbob_problem_allocate`, `/repo/src/f_griewank_rosenbrock.c` lines
153-237. The sum over the block in lines 204-215 is written as the sum over the column of the whole matrix. -/
def griewankRosenbrockProblem (qsort : Permutation.SortFn) (function inst : Nat) (seed : Int) (facftrue : ℝ) (n : Nat) :
    Res (Prob n) :=
  (Legacy.computeFopt function inst).bind fun fopt =>
  let scales := max 1 (Real.sqrt (Rotation.blockSize n) / 8)
  (matrix seed n).bind fun B =>
  (perm qsort (seed + 2000000) n).bind fun P1 =>
  (perm qsort (seed + 3000000) n).bind fun P2 =>
  (allocate false (griewankRosenbrock facftrue) fun _ => 1).bind fun P =>
  (chain [.varsShift fun _ => -0.5, .varsScale scales, .permutation P2, .blockRotation B, .permutation P1,
    .objShift fopt] P).bind fun P =>
  .ok { P with bestParam := some (scatter P1 fun j => (∑ i, B i j) / (2 * scales)) }

/-- The body of the loop over the peaks, `/repo/src/f_gallagher.c` lines 522-577: the sub-problem of a peak at the
place `y` (already rotated) with the condition number `alpha`. -/
def peakProblem (qsort : Permutation.SortFn) (seed : Int) (peak : Nat) (alpha : ℝ) (y : Vec n) : Res (Prob n) :=
  (Legacy.unif n (seed + 1000 * peak)).bind fun us =>
  (Permutation.fromSequence qsort (us.map fun u : ℚ => (u : ℝ))).bind fun l =>
  (if h : ∀ i : Fin n, l.getD i n < n then Res.ok (fun i : Fin n => (⟨l.getD i n, h i⟩ : Fin n)) else Res.ub).bind
    fun P_Lambda =>
  (chain [.varsScale (1 / Real.sqrt (Real.sqrt (Real.sqrt alpha))), .conditioning (Real.sqrt alpha)] subProblem).bind
    fun P =>
  chain [.varsShift y] (inversePermutation P_Lambda P)

/-- The loop over the peaks, `/repo/src/f_gallagher.c` lines 522-577, for the given number of peaks from number `i`
on. -/
def peakProblems (qsort : Permutation.SortFn) (seed : Int) (alpha : Nat → ℝ) (y : Nat → Vec n) :
    Nat → Nat → Res (List (Prob n))
  | 0, _ => .ok []
  | k + 1, i =>
    (peakProblem qsort seed i (alpha i) (y i)).bind fun P =>
    (peakProblems qsort seed alpha y k (i + 1)).bind fun Ps => .ok (P :: Ps)

/-- `f_gallagher_permblockdiag_bbob_problem_allocate`, `/repo/src/f_gallagher.c` lines 433-613. A read outside the array
`alpha_i_vals`, which does not occur under the hypotheses of the theorems, gives 1 here. -/
def gallagherProblem (qsort : Permutation.SortFn) (function inst : Nat) (seed : Int) (peaks n : Nat) : Res (Prob n) :=
  (Legacy.computeFopt function inst).bind fun fopt =>
  (if peaks = 101 then Res.ok ((1000, 10, 5) : ℝ × ℝ × ℝ)
    else if peaks = 21 then Res.ok ((1000 * 1000, 9.8, 4.9) : ℝ × ℝ × ℝ) else Res.error).bind
    fun (first_condition, b, c) =>
  (matrix seed n).bind fun B =>
  let alpha_i_vals : List ℝ := (List.range (peaks - 1)).map fun i : Nat => (1000 : ℝ) ^ (2 * (i : ℝ) / ((peaks : ℝ) - 2))
  (Legacy.unif (peaks - 1) seed).bind fun us =>
  (Permutation.fromSequence qsort (us.map fun u : ℚ => (u : ℝ))).bind fun P_alpha_i =>
  (Legacy.unif (n * peaks) seed).bind fun rs =>
  let before : Nat → Vec n := fun peak i =>
    let v := b * ((rs.getD (i + peak * n) 0 : ℚ) : ℝ) - c
    if peak = 0 then v * 0.8 else v
  let y : Nat → Vec n := fun peak i => ∑ j, B i j * before peak j
  let alpha : Nat → ℝ := fun peak =>
    if peak = 0 then first_condition else alpha_i_vals.getD (P_alpha_i.getD (peak - 1) 0) 1
  (peakProblems qsort seed alpha y peaks 0).bind fun subs =>
  (gallagherCore subs (y 0)).bind fun best =>
  let P : Prob n :=
    { eval := fun x => (gallagherCore subs x).bind fun v => check (some best) v
      lo := fun _ => -5
      hi := fun _ => 5
      bestParam := some 0
      bestValue := some best }
  (chain [.blockRotation B] P).bind fun P =>
  chain [.objOscillate, .objPower 2, .penalize 1, .objShift fopt] { P with bestParam := some (before 0) }

/-- `f_katsuura_permblockdiag_bbob_problem_allocate`, `/repo/src/f_katsuura.c` lines 143-236. -/
def katsuuraProblem (qsort : Permutation.SortFn) (function inst : Nat) (seed : Int) (n : Nat) : Res (Prob n) :=
  (Legacy.computeFopt function inst).bind fun fopt =>
  (getXopt .largescale seed n).bind fun xopt =>
  (matrix (seed + 1000000) n).bind fun B1 =>
  (matrix seed n).bind fun B2 =>
  (perm qsort (seed + 3000000) n).bind fun P11 =>
  (perm qsort (seed + 4000000) n).bind fun P12 =>
  (perm qsort (seed + 5000000) n).bind fun P21 =>
  (perm qsort (seed + 6000000) n).bind fun P22 =>
  (allocate false katsuura 0).bind fun P =>
  chain [.permutation P22, .blockRotation B1, .permutation P21, .conditioning 100, .permutation P12, .blockRotation B2,
    .permutation P11, .varsShift xopt, .penalize 1, .objShift fopt] P

/-- `f_lunacek_bi_rastrigin_permblockdiag_bbob_problem_allocate`, `/repo/src/f_lunacek_bi_rastrigin.c` lines
311-451. -/
def lunacekProblem (qsort : Permutation.SortFn) (function inst : Nat) (seed : Int) (n : Nat) : Res (Prob n) :=
  (Legacy.computeFopt function inst).bind fun fopt =>
  let s := 1 - 0.5 / (Real.sqrt ((n : ℝ) + 20) - 4.1)
  let mu0 : ℝ := 2.5
  let mu1 := -Real.sqrt ((mu0 * mu0 - 1) / s)
  (matrix (seed + 1000000) n).bind fun B1 =>
  (matrix seed n).bind fun B2 =>
  (perm qsort (seed + 3000000) n).bind fun P11 =>
  (perm qsort (seed + 4000000) n).bind fun P12 =>
  (perm qsort (seed + 5000000) n).bind fun P21 =>
  (perm qsort (seed + 6000000) n).bind fun P22 =>
  (Legacy.gauss n seed).bind fun tmp_normal =>
  let sign : Vec n := fun i => if tmp_normal.getD i 0 < 0 then -1 else 1
  (chain [.varsShift fun _ => mu0] subProblem).bind fun sub0 =>
  (chain [.varsShift fun _ => mu1, .objScale s, .objShift (1 * (n : ℝ))] subProblem).bind fun sub1 =>
  let inner : Vec n → Prob n := fun x_hat =>
    varsShift (fun _ => mu0) (permutation P11 (blockRotation B2 (permutation P12 (conditioning 100
      (permutation P21 (blockRotation B1 (permutation P22 (lunacekBasic sub0 sub1 x_hat))))))))
  (chain [.normByDim, .penalize (10 ^ 4), .objShift fopt] (xHatGeneric sign inner)).bind fun P =>
  .ok { P with bestParam := some fun i => 0.5 * mu0 * sign i }

/-- `coco_get_largescale_problem`, `/repo/src/suite_largescale.c` lines 58-152. The allocator of function 20
(`/repo/src/f_schwefel_generalized.c`) makes the same problem as that of the bbob suite
(`Bbob.schwefelProblem`): the raw functions (`f_schwefel_generalized.c` lines 25-50, `f_schwefel.c` lines 25-51), the
vectors and the transformations are the same. -/
def get (qsort : Permutation.SortFn) (function inst n : Nat) : Res (Prob n) :=
  let rseed : Int := function + 10000 * inst
  let rseed_3 : Int := 3 + 10000 * inst
  let rseed_17 : Int := 17 + 10000 * inst
  if function = 1 then Bbob.sphereProblem .largescale function inst rseed n
  else if function = 2 then Bbob.ellipsoidProblem .largescale function inst rseed n
  else if function = 3 then Bbob.rastriginProblem .largescale function inst rseed n
  else if function = 4 then Bbob.buecheProblem .largescale function inst rseed_3 n
  else if function = 5 then Bbob.linearSlopeProblem .largescale function inst rseed n
  else if function = 6 then attractiveSectorProblem qsort function inst rseed n
  else if function = 7 then stepEllipsoidProblem qsort function inst rseed n
  else if function = 8 then Bbob.rosenbrockProblem .largescale function inst rseed n
  else if function = 9 then rosenbrockProblem qsort function inst rseed n
  else if function = 10 then ellipsoidProblem qsort function inst rseed n
  else if function = 11 then discusProblem qsort function inst rseed n
  else if function = 12 then bentCigarProblem qsort function inst rseed n
  else if function = 13 then sharpRidgeProblem qsort function inst rseed n
  else if function = 14 then differentPowersProblem qsort function inst rseed n
  else if function = 15 then rastriginProblem qsort function inst rseed n
  else if function = 16 then weierstrassProblem qsort function inst rseed n
  else if function = 17 then schaffersProblem qsort function inst rseed 10 n
  else if function = 18 then schaffersProblem qsort function inst rseed_17 1000 n
  else if function = 19 then griewankRosenbrockProblem qsort function inst rseed 10 n
  else if function = 20 then Bbob.schwefelProblem function inst rseed n
  else if function = 21 then gallagherProblem qsort function inst rseed 101 n
  else if function = 22 then gallagherProblem qsort function inst rseed 21 n
  else if function = 23 then katsuuraProblem qsort function inst rseed n
  else if function = 24 then lunacekProblem qsort function inst rseed n
  else .error

end LargeScale
