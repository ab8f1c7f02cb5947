/-!
# The timing of the example experiment in Java

Models `build/java/Timing.java`, lines 4-73. The clock (`System.nanoTime`) is an input: each problem comes with the time at which it
is recorded. The two readings of the clock in one call (lines 36 and 45, and lines 36 and 61 at the end) are taken as equal.
A line of text is kept as its numbers; the quotient of line 37 and its formatting are not modelled. Counts do not overflow.
-/

namespace JavaTiming

/-- A problem at its recording: its dimension and evaluations as read in lines 32, 43, 44 and 49 of `build/java/Timing.java`, and
the time in nanoseconds (lines 36, 45). -/
structure Done where
  dimension : Nat
  evaluations : Nat
  now : Int
  deriving DecidableEq, Repr

/-- A line of the table, lines 37-38 of `build/java/Timing.java`: dimension, and the elapsed nanoseconds and the evaluations whose
quotient is printed. -/
structure Line where
  dimension : Nat
  elapsed : Int
  evaluations : Nat
  deriving DecidableEq, Repr

/-- The fields of the class, lines 6-10 of `build/java/Timing.java`. -/
structure Timing where
  output : List Line
  previousDimension : Nat
  cumulativeEvaluations : Nat
  startTime : Int
  overallStartTime : Int
  deriving DecidableEq, Repr

/-- The constructor, lines 15-24 of `build/java/Timing.java`. -/
def new (now : Int) : Timing := ⟨[], 0, 0, now, now⟩

/-- The output of existing information, lines 34-39 of `build/java/Timing.java`. -/
def emit (t : Timing) (now : Int) : Timing :=
  if t.cumulativeEvaluations > 0 then
    { t with output := t.output ++ [⟨t.previousDimension, now - t.startTime, t.cumulativeEvaluations⟩] }
  else t

/-- `timeProblem` for a problem, lines 30-51 of `build/java/Timing.java`. -/
def timeProblem (t : Timing) (p : Done) : Timing :=
  if t.previousDimension ≠ p.dimension then
    { emit t p.now with
      previousDimension := p.dimension, cumulativeEvaluations := p.evaluations, startTime := p.now }
  else { t with cumulativeEvaluations := t.cumulativeEvaluations + p.evaluations }

/-- `timeProblem(null)`, lines 32-39 of `build/java/Timing.java`: the branch of lines 41-46 is not taken. -/
def timeNull (t : Timing) (now : Int) : Timing := emit t now

/-- Hours, minutes and seconds, lines 62-64 of `build/java/Timing.java`. `TimeUnit.convert` truncates; the time elapsed is not
negative. -/
def clock (elapsedTime : Nat) : Nat × Nat × Nat :=
  let hours := elapsedTime / (3600 * 1000000000)
  let minutes := elapsedTime / (60 * 1000000000) - hours * 60
  let seconds := elapsedTime / 1000000000 - hours * 3600 - minutes * 60
  (hours, minutes, seconds)

/-- `output`, lines 56-72 of `build/java/Timing.java`: the lines printed and the total number of nanoseconds. -/
def output (t : Timing) (now : Int) : List Line × Int :=
  let t := timeNull t now
  (t.output, now - t.overallStartTime)

/-- A whole experiment: the object is made (line 15), each problem is recorded after its run, and the table is printed
(`build/java/ExampleExperiment.java` lines 122, 163 and 167). -/
def experiment (begin_ : Int) (ps : List Done) (end_ : Int) : List Line × Int :=
  output (ps.foldl timeProblem (new begin_)) end_

end JavaTiming
