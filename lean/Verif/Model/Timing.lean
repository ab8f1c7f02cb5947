import Verif.Base.Res

/-!
# The timing table of the example experiment (C120)

`timing_data_initialize`, `timing_data_time_problem` and `timing_data_finalize`, `/repo/build/c/example_experiment.c`
lines 424-522. Times are whole seconds as returned by `time`.
-/

namespace Timing

/-- A problem as seen when its experiment is over, `/repo/build/c/example_experiment.c` line 232: its dimension, its number of
evaluations, and the time. -/
structure Done where
  dimension : Nat
  evaluations : Nat
  now : Int
  deriving DecidableEq, Repr

/-- What an output line is computed from, lines 466-473: the dimension, the seconds and the evaluations by which they are
divided. -/
structure Line where
  dimension : Nat
  seconds : Int
  evaluations : Nat
  deriving DecidableEq, Repr

/-- `timing_data_t`, lines 91-99 with the allocated length of `output`; `current_idx` is the number of lines. -/
structure State where
  numberOfDimensions : Nat
  output : List Line
  previousDimension : Nat
  cumulativeEvaluations : Nat
  startTime : Int
  overallStartTime : Int

/-- `timing_data_initialize`, lines 427-450: the number of dimensions is that of the suite, the index of the dimension of its
last problem plus one. -/
def start (numberOfDimensions : Nat) (now : Int) : State :=
  ⟨numberOfDimensions, [], 0, 0, now, now⟩

/-- The output of existing timing information, lines 465-474; writing beyond the end of `output` is undefined. -/
def flush (s : State) (now : Int) : Res State :=
  if 0 < s.cumulativeEvaluations then
    if s.output.length < s.numberOfDimensions then
      .ok { s with output := s.output ++ [⟨s.previousDimension, now - s.startTime, s.cumulativeEvaluations⟩] }
    else .ub
  else .ok s

/-- `timing_data_time_problem` with a problem, lines 457-488. -/
def timeProblem (s : State) (p : Done) : Res State :=
  if s.previousDimension ≠ p.dimension then
    (flush s p.now).bind fun s =>
    .ok { s with previousDimension := p.dimension, cumulativeEvaluations := p.evaluations, startTime := p.now }
  else .ok { s with cumulativeEvaluations := s.cumulativeEvaluations + p.evaluations }

/-- The calls for the problems of the experiment in order, line 232 in the loop of lines 175-233. -/
def timeAll : State → List Done → Res State
  | s, [] => .ok s
  | s, p :: ps => (timeProblem s p).bind fun s => timeAll s ps

/-- The whole experiment: `timing_data_finalize`, lines 493-522, begins with a call for no problem (line 496). The lines printed
and the total number of seconds (line 505). -/
def table (numberOfDimensions : Nat) (begin_ : Int) (ps : List Done) (end_ : Int) : Res (List Line × Int) :=
  (timeAll (start numberOfDimensions begin_) ps).bind fun s =>
  (flush s end_).bind fun s => .ok (s.output, end_ - s.overallStartTime)

/-- Hours, minutes and seconds of the total time, lines 514-516. -/
def clock (elapsed : Nat) : Nat × Nat × Nat :=
  let hours := elapsed / 3600
  let minutes := elapsed % 3600 / 60
  (hours, minutes, elapsed - hours * 3600 - minutes * 60)

end Timing
