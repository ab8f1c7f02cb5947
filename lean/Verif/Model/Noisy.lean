/-
The problems of the bbob-noisy suite (`/repo/src/suite_bbob_noisy.c`): the bbob problems of `Verif.Model.Bbob` (with
the random numbers of other function numbers and other parameters) under the noise models of `Verif.Model.Gauss`.
-/
import Verif.Model.Bbob
import Verif.Model.Gauss

noncomputable section

namespace Noisy
open Transform

/-- A noisy problem: the inner problem and the noise (`transform_obj_gaussian_noise`,
`/repo/src/transform_obj_gaussian_noise.c` lines 38-47, `transform_obj_uniform_noise`,
`/repo/src/transform_obj_uniform_noise.c` lines 45-56, `transform_obj_cauchy_noise`,
`/repo/src/transform_obj_cauchy_noise.c` lines 43-53). The region of interest, the best parameter and the best value
are those of the inner problem (`coco_problem_duplicate`, `/repo/src/coco_problem.c` lines 211-275). -/
structure Problem (n : Nat) where
  inner : Prob n
  noise : Noise.Model

/-- An allocated inner problem with the noise put on it. -/
def under (P : Res (Prob n)) (m : Noise.Model) : Res (Problem n) := P.bind fun P => .ok ⟨P, m⟩

/-- `coco_get_bbob_noisy_problem`, `/repo/src/suite_bbob_noisy.c` lines 56-316. The name template of the suite
contains neither "bbob-boxed suite problem" nor "BBOB large-scale suite", so the allocating functions work as for the
bbob suite. Seeds are not reduced to the range of `long`. -/
def get (function inst n : Nat) : Res (Problem n) :=
  if function = 101 then under (Bbob.sphereProblem .bbob 101 inst (1 + 10000 * inst) n)
    (.gaussian 0.01)
  else if function = 102 then under (Bbob.sphereProblem .bbob 102 inst (1 + 10000 * inst) n)
    (.uniform (0.01 * (0.49 + 1 / (n : ℝ))) 0.01)
  else if function = 103 then under (Bbob.sphereProblem .bbob 103 inst (1 + 10000 * inst) n)
    (.cauchy 0.01 0.05)
  else if function = 104 then under (Bbob.rosenbrockProblem .bbob 104 inst (8 + 10000 * inst) n)
    (.gaussian 0.01)
  else if function = 105 then under (Bbob.rosenbrockProblem .bbob 105 inst (8 + 10000 * inst) n)
    (.uniform (0.01 * (0.49 + 1 / (n : ℝ))) 0.01)
  else if function = 106 then under (Bbob.rosenbrockProblem .bbob 106 inst (8 + 10000 * inst) n)
    (.cauchy 0.01 0.05)
  else if function = 107 then under (Bbob.sphereProblem .bbob 107 inst (1 + 10000 * inst) n)
    (.gaussian 1)
  else if function = 108 then under (Bbob.sphereProblem .bbob 108 inst (1 + 10000 * inst) n)
    (.uniform (0.49 + 1 / (n : ℝ)) 1)
  else if function = 109 then under (Bbob.sphereProblem .bbob 109 inst (1 + 10000 * inst) n)
    (.cauchy 1 0.2)
  else if function = 110 then under (Bbob.rosenbrockProblem .bbob 110 inst (8 + 10000 * inst) n)
    (.gaussian 1)
  else if function = 111 then under (Bbob.rosenbrockProblem .bbob 111 inst (8 + 10000 * inst) n)
    (.uniform (0.49 + 1 / (n : ℝ)) 1)
  else if function = 112 then under (Bbob.rosenbrockProblem .bbob 112 inst (8 + 10000 * inst) n)
    (.cauchy 1 0.2)
  else if function = 113 then under (Bbob.stepEllipsoidProblem .bbob 113 inst (7 + 10000 * inst) 0 n)
    (.gaussian 1)
  else if function = 114 then under (Bbob.stepEllipsoidProblem .bbob 114 inst (7 + 10000 * inst) 0 n)
    (.uniform (0.49 + 1 / (n : ℝ)) 1)
  else if function = 115 then under (Bbob.stepEllipsoidProblem .bbob 115 inst (7 + 10000 * inst) 0 n)
    (.cauchy 1 0.2)
  else if function = 116 then under (Bbob.rotatedEllipsoidProblem .bbob 116 inst (10 + 10000 * inst) (10 ^ 4) n)
    (.gaussian 1)
  else if function = 117 then under (Bbob.rotatedEllipsoidProblem .bbob 117 inst (10 + 10000 * inst) (10 ^ 4) n)
    (.uniform (0.49 + 1 / (n : ℝ)) 1)
  else if function = 118 then under (Bbob.rotatedEllipsoidProblem .bbob 118 inst (10 + 10000 * inst) (10 ^ 4) n)
    (.cauchy 1 0.2)
  else if function = 119 then under (Bbob.differentPowersProblem .bbob 119 inst (14 + 10000 * inst) n)
    (.gaussian 1)
  else if function = 120 then under (Bbob.differentPowersProblem .bbob 120 inst (14 + 10000 * inst) n)
    (.uniform (0.49 + 1 / (n : ℝ)) 1)
  else if function = 121 then under (Bbob.differentPowersProblem .bbob 121 inst (14 + 10000 * inst) n)
    (.cauchy 1 0.2)
  else if function = 122 then under (Bbob.schaffersProblem .bbob 122 inst (17 + 10000 * inst) 10 0 n)
    (.gaussian 1)
  else if function = 123 then under (Bbob.schaffersProblem .bbob 123 inst (17 + 10000 * inst) 10 0 n)
    (.uniform (0.49 + 1 / (n : ℝ)) 1)
  else if function = 124 then under (Bbob.schaffersProblem .bbob 124 inst (17 + 10000 * inst) 10 0 n)
    (.cauchy 1 0.2)
  else if function = 125 then under (Bbob.griewankRosenbrockProblem 125 inst (19 + 10000 * inst) 1 n)
    (.gaussian 1)
  else if function = 126 then under (Bbob.griewankRosenbrockProblem 126 inst (19 + 10000 * inst) 1 n)
    (.uniform (0.49 + 1 / (n : ℝ)) 1)
  else if function = 127 then under (Bbob.griewankRosenbrockProblem 127 inst (19 + 10000 * inst) 1 n)
    (.cauchy 1 0.2)
  else if function = 128 then under (Bbob.gallagherProblem .bbob 128 inst (21 + 10000 * inst) 101 0 n)
    (.gaussian 1)
  else if function = 129 then under (Bbob.gallagherProblem .bbob 129 inst (21 + 10000 * inst) 101 0 n)
    (.uniform (0.49 + 1 / (n : ℝ)) 1)
  else if function = 130 then under (Bbob.gallagherProblem .bbob 130 inst (21 + 10000 * inst) 101 0 n)
    (.cauchy 1 0.2)
  else .error

/-- Evaluation of a noisy problem: the `evaluate_function`s of the noise models (see `Noise.evaluate`), with the
inner problem's best value, the coordinates of the point and the bounds of the problem. The inner problem is evaluated
first here; in the code the first random number is drawn before, which makes a difference only if the process stops.
The recorded noise-free value is the second component. -/
def evaluate (P : Problem n) (x : Vec n) (s : Noise.Seeds) : Res ((ℝ × ℝ) × Noise.Seeds) :=
  (P.inner.eval x).bind fun y =>
  match P.inner.bestValue with
  | none => .ub
  | some fopt => Noise.evaluate P.noise fopt y (List.ofFn fun i => (x i, P.inner.lo i, P.inner.hi i)) s

end Noisy
