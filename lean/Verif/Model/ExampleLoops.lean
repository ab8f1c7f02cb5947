import Mathlib.Tactic.Common

/-!
# Budgets of the example experiments in Python and Matlab (C136)

`coco_optimize` of `/repo/build/python/example/example_experiment.py`, the loop over restarts of `example_experiment2.py`, and the one of
`/repo/build/matlab/exampleexperiment.m`, each for one problem. Numbers do not overflow; printed warnings are left out.
-/

namespace ExampleLoops

/-- An algorithm: the function and constraint evaluations that it makes in a run (from 0) with the given budget, and whether the final
target has been hit after it (the calls in `/repo/build/python/example/example_experiment.py` lines 139-169,
`example_experiment2.py` lines 150-169 and `/repo/build/matlab/exampleexperiment.m` lines 106-111). -/
abbrev Algorithm := Nat → Int → Nat × Nat × Bool

/-- Why a loop has ended, `/repo/build/python/example/example_experiment.py` lines 171-182 and `/repo/build/matlab/exampleexperiment.m`
lines 116-130. -/
inductive End
  | targetHit | exhausted | noEvaluations | maxRuns
deriving DecidableEq, Repr

/-- One run: the budget that was given, and all evaluations from its beginning to its end
(`/repo/build/python/example/example_experiment.py` lines 131-175, `/repo/build/matlab/exampleexperiment.m` lines 93-115). -/
structure Call where
  given : Int
  used : Nat
deriving DecidableEq, Repr

/-- `coco_optimize`, `/repo/build/python/example/example_experiment.py` lines 115-183: `budget` is `max_evals`, `fuel` the number of
restarts that are left, `t` the number of all evaluations so far. A point is evaluated before the algorithm is called (line 137), after the
budget of the algorithm has been computed (line 134). -/
def optimize (budget : Nat) (alg : Algorithm) : (fuel run t : Nat) → List Call × Nat × End
  | 0, _, t => ([], t, .maxRuns)
  | fuel + 1, run, t =>
    let remaining : Int := budget - t
    let (f, g, hit) := alg run remaining
    let t' := t + 1 + f + g
    let call : Call := ⟨remaining, 1 + f + g⟩
    if t' ≥ budget then ([call], t', .exhausted)
    else if hit then ([call], t', .targetHit)
    else
      let still : Int := budget - t'
      if still ≥ remaining then ([call], t', .noEvaluations)
      else
        let r := optimize budget alg fuel (run + 1) t'
        (call :: r.1, r.2)

/-- `evalsleft`, `/repo/build/python/example/example_experiment2.py` lines 141-142, where `budget` is the dimension times the multiplier. -/
def left (budget f g : Nat) : Int := budget + 1 - max f g

/-- The loop of `/repo/build/python/example/example_experiment2.py` lines 146-169, at most `fuel` rounds (`none` if it has not ended by
then): the runs, with the evaluations of functions and constraints. -/
def restarts (budget : Nat) (alg : Algorithm) : (fuel run f g : Nat) → Bool → Option (Nat × Nat × Nat)
  | 0, _, _, _, _ => none
  | fuel + 1, run, f, g, hit =>
    if left budget f g > 0 ∧ hit = false then
      let (df, dg, h) := alg run (left budget f g)
      restarts budget alg fuel (run + 1) (f + df) (g + dg) h
    else some (run, f, g)

/-- A problem in `/repo/build/python/example/example_experiment2.py` lines 138-169: the zero vector is evaluated first; `hit` says whether
it hits the final target. -/
def experiment2 (budget : Nat) (alg : Algorithm) (hit : Bool) (fuel : Nat) : Option (Nat × Nat × Nat) :=
  restarts budget alg fuel 0 1 0 hit

/-- The loop of `/repo/build/matlab/exampleexperiment.m` lines 92-131; `fuel` is the number of runs that are left, at first
`NUM_OF_INDEPENDENT_RESTARTS` plus one. -/
def matlab (budget : Nat) (alg : Algorithm) : (fuel run t : Nat) → List Call × Nat × End
  | 0, _, t => ([], t, .maxRuns)
  | fuel + 1, run, t =>
    if budget > t then
      let remaining : Int := budget - t
      let (f, g, hit) := alg run remaining
      let t' := t + f + g
      let call : Call := ⟨remaining, f + g⟩
      if hit then ([call], t', .targetHit)
      else if t' ≥ budget then ([call], t', .exhausted)
      else if t' = t then ([call], t', .noEvaluations)
      else
        let r := matlab budget alg fuel (run + 1) t'
        (call :: r.1, r.2)
    else ([], t, .exhausted)

/-- `my_optimizer`, `/repo/build/matlab/my_optimizer.m`: each round evaluates the function, and the constraints if there are any; `hit`
says whether the final target is hit. -/
def myOptimizer (constraints : Nat) (hit : Bool) : Algorithm := fun _ budget =>
  (budget.toNat, if constraints > 0 then budget.toNat else 0, hit)

/-- `random_search` without constraints (C135), as called in `/repo/build/python/example/example_experiment.py` lines 139-141. -/
def randomSearch (hit : Bool) : Algorithm := fun _ budget => (budget.toNat, 0, hit)

end ExampleLoops
