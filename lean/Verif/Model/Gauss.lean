import Mathlib.Analysis.SpecialFunctions.Trigonometric.Basic
import Mathlib.Analysis.SpecialFunctions.Pow.Real
import Verif.Model.Legacy

/-!
# Model of optimal solutions, offsets and Gaussian numbers of the bbob suites, and of the noise models

Real (exact) arithmetic with the exact functions `sqrt`, `log`, `cos`, `exp` and powers. Modelled:
`/repo/src/suite_bbob_legacy_code.c` (`bbob2009_gauss`, `bbob2009_compute_xopt`, `sbox_cost_compute_xopt`,
`bbob2009_compute_fopt`), `/repo/src/suite_bbob_noisy_utilities.c` and the `evaluate_function` parts of
`/repo/src/transform_obj_gaussian_noise.c`, `transform_obj_uniform_noise.c` and `transform_obj_cauchy_noise.c`.
-/

namespace Legacy

/-- `bbob2009_round`, `/repo/src/suite_bbob_legacy_code.c` line 24. -/
noncomputable def round (x : ℝ) : ℝ := ⌊x + 1 / 2⌋

/-- The body of the loop of `bbob2009_compute_xopt`, `/repo/src/suite_bbob_legacy_code.c` lines 175-177. -/
def xoptCoord (u : ℚ) : ℚ :=
  let v := 8 * (⌊10 ^ 4 * u⌋ : ℚ) / 10 ^ 4 - 4
  if v = 0 then -1 / 10 ^ 5 else v

/-- `bbob2009_compute_xopt`, `/repo/src/suite_bbob_legacy_code.c` lines 171-179. -/
def computeXopt (seed : Int) (dim : Nat) : Res (List ℚ) := (unif dim seed).bind fun us => .ok (us.map xoptCoord)

/-- The body of the loop of `sbox_cost_compute_xopt`, `/repo/src/suite_bbob_legacy_code.c` lines 189-191. -/
def sboxCoord (u : ℚ) : ℚ :=
  let v := 10 * (⌊10 ^ 4 * u⌋ : ℚ) / 10 ^ 4 - 5
  if v = 0 then -1 / 10 ^ 5 else v

/-- `sbox_cost_compute_xopt`, `/repo/src/suite_bbob_legacy_code.c` lines 185-193. -/
def sboxComputeXopt (seed : Int) (dim : Nat) : Res (List ℚ) := (unif dim seed).bind fun us => .ok (us.map sboxCoord)

/-- The body of the loop of `bbob2009_gauss`, `/repo/src/suite_bbob_legacy_code.c` lines 117-119. -/
noncomputable def gaussNumber (u v : ℝ) : ℝ :=
  let g := Real.sqrt (-2 * Real.log u) * Real.cos (2 * Real.pi * v)
  if g = 0 then 1 / 10 ^ 99 else g

/-- `bbob2009_gauss`, `/repo/src/suite_bbob_legacy_code.c` lines 110-122. -/
noncomputable def gauss (N : Nat) (seed : Int) : Res (List ℝ) :=
  (Res.assert (decide (2 * N < 6000))).bind fun _ =>
  (unif (2 * N) seed).bind fun us =>
  .ok ((List.range N).map fun i => gaussNumber ((us.getD i 0 : ℚ) : ℝ) ((us.getD (N + i) 0 : ℚ) : ℝ))

/-- The seed for the function, `/repo/src/suite_bbob_legacy_code.c` lines 202-225. -/
def rseed (function : Nat) : Nat :=
  if function = 4 then 3
  else if function = 18 then 17
  else if function = 101 ∨ function = 102 ∨ function = 103 ∨ function = 107 ∨ function = 108 ∨ function = 109 then 1
  else if function = 104 ∨ function = 105 ∨ function = 106 ∨ function = 110 ∨ function = 111 ∨ function = 112 then 8
  else if function = 113 ∨ function = 114 ∨ function = 115 then 7
  else if function = 116 ∨ function = 117 ∨ function = 118 then 10
  else if function = 119 ∨ function = 120 ∨ function = 121 then 14
  else if function = 122 ∨ function = 123 ∨ function = 124 then 17
  else if function = 125 ∨ function = 126 ∨ function = 127 then 19
  else if function = 128 ∨ function = 129 ∨ function = 130 then 21
  else function

/-- `bbob2009_compute_fopt`, `/repo/src/suite_bbob_legacy_code.c` lines 198-231. The seed is not reduced to the
range of `long`; it is in range for the instances for which the theorems are stated. -/
noncomputable def computeFopt (function inst : Nat) : Res ℝ :=
  let rrseed : Int := rseed function + 10000 * inst
  (gauss 1 rrseed).bind fun g =>
  (gauss 1 (rrseed + 1)).bind fun g2 =>
  .ok (min 1000 (max (-1000) (round (100 * 100 * g.getD 0 0 / g2.getD 0 0) / 100)))

end Legacy

namespace Noise
open Legacy

/-- The two global seeds, `/repo/src/suite_bbob_noisy_utilities.c` lines 18-19. -/
structure Seeds where
  rand : Int
  randn : Int
deriving DecidableEq

/-- The initial values (`/repo/src/suite_bbob_noisy_utilities.c` lines 18-19), restored by `coco_reset_seeds`
(lines 44-47). -/
def reset : Seeds := ⟨30, 30⟩

/-- The new value of a seed in `increase_random_n_seed` and `increase_random_seed`,
`/repo/src/suite_bbob_noisy_utilities.c` lines 25-39. -/
def increase (z : Int) : Int := if z + 1 > 10 ^ 9 then 1 else z + 1

/-- `coco_sample_gaussian_noise`, `/repo/src/suite_bbob_noisy_utilities.c` lines 54-61. -/
noncomputable def sampleGaussian (s : Seeds) : Res (ℝ × Seeds) :=
  let s := { s with randn := increase s.randn }
  (gauss 1 s.randn).bind fun g => .ok (g.getD 0 0, s)

/-- `coco_sample_uniform_noise`, `/repo/src/suite_bbob_noisy_utilities.c` lines 68-75. -/
def sampleUniform (s : Seeds) : Res (ℚ × Seeds) :=
  let s := { s with rand := increase s.rand }
  (unif 1 s.rand).bind fun u => .ok (u.getD 0 0, s)

/-- `coco_boundary_handling`, `/repo/src/suite_bbob_noisy_utilities.c` lines 87-101, for the list of coordinates
with their lower and upper bounds. -/
noncomputable def boundary (xs : List (ℝ × ℝ × ℝ)) : ℝ :=
  100 * xs.foldl (fun p (x, lo, hi) =>
    if x > hi then p + (x - hi) * (x - hi) else if x < lo then p + (x - lo) * (x - lo) else p) 0

/-- The three noise models with their parameters: the data types in `/repo/src/transform_obj_gaussian_noise.c`
lines 11-13, `transform_obj_uniform_noise.c` lines 11-14 and `transform_obj_cauchy_noise.c` lines 11-14. -/
inductive Model where
  | gaussian (β : ℝ)
  | uniform (α β : ℝ)
  | cauchy (α p : ℝ)

/-- The `evaluate_function` of the three noise models for a single objective,
`/repo/src/transform_obj_gaussian_noise.c` lines 18-33, `/repo/src/transform_obj_uniform_noise.c` lines 19-40 and
`/repo/src/transform_obj_cauchy_noise.c` lines 19-38: `inner` is the value of the inner problem, `fopt` its best
value. The result is the noisy value with the recorded noise-free value. Powers are those of positive reals; the
ratio of the Cauchy model is 0 if its denominator is 0 (the code has an infinity there, which is then either
replaced by 0 or kept as an infinite noise). -/
noncomputable def evaluate (m : Model) (fopt inner : ℝ) (xs : List (ℝ × ℝ × ℝ)) (s : Seeds) :
    Res ((ℝ × ℝ) × Seeds) :=
  match m with
  | .gaussian β =>
    (sampleGaussian s).bind fun (g, s) =>
    let noise := Real.exp (β * g)
    let y := inner - fopt
    let y := y * noise + 1.01 * (1 / 10 ^ 8)
    .ok ((y + fopt + boundary xs, inner), s)
  | .uniform α β =>
    (sampleUniform s).bind fun (u1, s) =>
    (sampleUniform s).bind fun (u2, s) =>
    let factor := ((u1 : ℚ) : ℝ) ^ β
    let y := inner - fopt
    let scaling := 10 ^ 9 / (y + 1 / 10 ^ 99)
    let scaling := scaling ^ (α * ((u2 : ℚ) : ℝ))
    let scaling := if scaling > 1 then scaling else 1
    let y := y * (factor * scaling) + 1.01 * (1 / 10 ^ 8)
    .ok ((y + fopt + boundary xs, inner), s)
  | .cauchy α p =>
    (sampleUniform s).bind fun (u, s) =>
    (sampleGaussian s).bind fun (num, s) =>
    (sampleGaussian s).bind fun (den, s) =>
    let den := |den + 1 / 10 ^ 199|
    let noise := num / den
    let noise := if ((u : ℚ) : ℝ) < p then 10 ^ 3 + noise else 10 ^ 3
    let noise := α * noise
    let noise := if noise > 0 then noise else 0
    .ok ((inner + noise + 1.01 * (1 / 10 ^ 8) + boundary xs, inner), s)

/-- Calls that use the global seeds (`/repo/src/suite_bbob_noisy_utilities.c` lines 44-75 and the evaluations
above). -/
inductive Op where
  | reset
  | uniform
  | gaussian
  | evaluate (m : Model) (fopt inner : ℝ) (xs : List (ℝ × ℝ × ℝ))

/-- One call; the numbers delivered by it are appended to the output. -/
noncomputable def step (s : Seeds) : Op → Res (List ℝ × Seeds)
  | .reset => .ok ([], Noise.reset)
  | .uniform => (sampleUniform s).bind fun (u, s) => .ok ([((u : ℚ) : ℝ)], s)
  | .gaussian => (sampleGaussian s).bind fun (g, s) => .ok ([g], s)
  | .evaluate m fopt inner xs => (evaluate m fopt inner xs s).bind fun ((y, y0), s) => .ok ([y, y0], s)

/-- A sequence of calls and all numbers delivered. -/
noncomputable def run : List Op → Seeds → Res (List ℝ × Seeds)
  | [], s => .ok ([], s)
  | op :: ops, s => (step s op).bind fun (o, s) => (run ops s).bind fun (os, s) => .ok (o ++ os, s)

end Noise
