/-!
# Model of the example experiment in C

`/repo/build/c/example_experiment.c`: the loop over the independent restarts on one problem (`example_experiment`) and the
random search called by it.
-/

namespace Experiment

/-- The numbers of evaluations of the problem, `coco_problem_get_evaluations` and
`coco_problem_get_evaluations_constraints`, `/repo/src/coco_problem.c` lines 426-434 (see C17). They are assumed not to wrap. -/
structure Counters where
  f : Nat
  g : Nat
deriving DecidableEq, Repr

/-- Values of type `uint64_t` and `size_t`. -/
def word : Nat := 2 ^ 64

/-- `evaluations_done`, `/repo/build/c/example_experiment.c` lines 192-194. -/
def done (c : Counters) : Nat := (c.f + c.g) % word

/-- `evaluations_remaining`, lines 195-196: a difference of unsigned numbers; `b` is `BUDGET_MULTIPLIER` (line 25). -/
def remaining (b d : Nat) (c : Counters) : Nat := (d * b % word + word - done c) % word

/-- An optimization algorithm: how many function and constraint evaluations it makes in its call with the given number
(from 1), budget and previous evaluations. -/
abbrev Optimizer := Nat → Nat → Counters → Nat × Nat

/-- Why the loop ended; `decreased` is the fatal error of lines 226-228. -/
inductive End
  | targetHit | exhausted | noEvaluations | maxRestarts | decreased
deriving DecidableEq, Repr

/-- A call of the algorithm: its budget and the evaluations it made. Before each call the restart is signalled to the
observer (line 206). -/
structure Call where
  budget : Nat
  f : Nat
  g : Nat
deriving DecidableEq, Repr

/-- The loop over `run`, lines 190-229: `b` is `BUDGET_MULTIPLIER`, `d` the dimension, `m` the number of constraints, `hit`
says whether the final target has been reached after the given evaluations (`coco_problem_final_target_hit`). `fuel` is the
number of values of `run` that are left. -/
def loop (b d m : Nat) (hit : Counters → Bool) (opt : Optimizer) :
    (fuel run : Nat) → Counters → List Call × Counters × End
  | 0, _, c => ([], c, .maxRestarts)
  | fuel + 1, run, c =>
    if hit c && m == 0 then ([], c, .targetHit)
    else if remaining b d c = 0 then ([], c, .exhausted)
    else
      let (df, dg) := opt run (remaining b d c) c
      let c' : Counters := ⟨c.f + df, c.g + dg⟩
      let call : Call := ⟨remaining b d c, df, dg⟩
      if c'.f % word = done c then ([call], c', .noEvaluations)
      else if c'.f % word < done c then ([call], c', .decreased)
      else
        let r := loop b d m hit opt fuel (run + 1) c'
        (call :: r.1, r.2)

/-- `INDEPENDENT_RESTARTS`, line 31. -/
def restarts : Nat := 10000

/-- The experiment on a new problem. -/
def run (b d m : Nat) (hit : Counters → Bool) (opt : Optimizer) : List Call × Counters × End :=
  loop b d m hit opt (1 + restarts) 1 ⟨0, 0⟩

/-- `my_random_search`, lines 262-308: as many iterations as the budget says, each of which evaluates the constraints if
there are any, and the objective function. (The points are finite, `C119_random_in_box`, and so are counted.) -/
def randomSearch (m : Nat) : Optimizer := fun _ budget _ => (budget, if 0 < m then budget else 0)

end Experiment
