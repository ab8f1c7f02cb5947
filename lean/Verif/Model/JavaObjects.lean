import Verif.Model.Lifecycle

/-!
# The objects of the Java interface (C129)

The classes `Suite`, `Observer`, `Benchmark` and `Problem` of `/repo/build/java` with the functions of `/repo/build/java/CocoJNI.c` that
they call, on top of the objects of the library (C96). Java objects keep pointers as numbers of type `long`, which are never reset.
-/

namespace JavaObjects

open Lifecycle

/-- The Java objects that a program has made: the pointers of suites and observers, the two pointers of each benchmark, and pointer and
dimension of each problem (`/repo/build/java/Suite.java` lines 8-11, `Observer.java` lines 8-11, `Benchmark.java` lines 6-12,
`Problem.java` lines 8-23). Other attributes of problems are copies of numbers and texts. -/
structure Java where
  suites : List Nat
  observers : List Nat
  benchmarks : List (Nat × Nat)
  problems : List (Nat × Nat)

/-- At the start of the program, `/repo/build/java/ExampleExperiment.java`. -/
def Java.init : Java := ⟨[], [], [], []⟩

/-- Calls of the methods, with the objects they are called for: a benchmark is its suite and its observer, a problem its pointer and its
dimension. `next` and `t` are the construction of the returned problem and its dimension, `none` if there is none; `len` is the length of
the array `x`. (`/repo/build/java/Suite.java`, `Observer.java`, `Benchmark.java`, `Problem.java`; the calls of `CocoJNI` by programs
themselves and `signalRestart` are left out, the latter is C113.) -/
inductive Call where
  | newSuite
  | newObserver (k : Kind) (name : String)
  | newBenchmark (s o : Nat)
  | getNextProblem (s o : Nat) (next : Option (Shape × Nat))
  | getProblemByFuncDimInst (s : Nat) (t : Option (Shape × Nat))
  | evaluateFunction (p dim len : Nat)
  | recommendSolution (p dim len : Nat)
  | getEvaluations (p dim : Nat)
  | finalizeObserver (o : Nat)
  | finalizeSuite (s : Nat)
  | finalizeBenchmark (s o : Nat)

/-- What the Java compiler accepts: methods are called for objects that have been made (`/repo/build/java/Benchmark.java` lines 9-12). -/
def Typed (j : Java) : Call → Prop
  | .newSuite => True
  | .newObserver _ _ => True
  | .newBenchmark s o => s ∈ j.suites ∧ o ∈ j.observers
  | .getNextProblem s o _ => (s, o) ∈ j.benchmarks
  | .getProblemByFuncDimInst s _ => s ∈ j.suites
  | .evaluateFunction p dim _ => (p, dim) ∈ j.problems
  | .recommendSolution p dim _ => (p, dim) ∈ j.problems
  | .getEvaluations p dim => (p, dim) ∈ j.problems
  | .finalizeObserver o => o ∈ j.observers
  | .finalizeSuite s => s ∈ j.suites
  | .finalizeBenchmark s o => (s, o) ∈ j.benchmarks

/-- A new problem object for a pointer, unless it is 0 (`/repo/build/java/Benchmark.java` lines 22-25, `Suite.java` lines 45-48, with the
constructor `Problem.java` lines 25-49). -/
def Java.wrap (j : Java) (t : Option (Shape × Nat)) (p : Option Nat) : Java :=
  match t, p with
  | some (_, dim), some p => { j with problems := (p, dim) :: j.problems }
  | _, _ => j

/-- The reading of the first `dim` entries of the array `x` of length `len`
(`/repo/build/java/CocoJNI.c` lines 342-345 and 413-414; the number of entries is not compared with the dimension). -/
def readArray (dim len : Nat) : Res Unit := if len < dim then .ub else .ok ()

/-- One call, with the returned or new pointer: the constructors (`/repo/build/java/CocoJNI.c` lines 46-66 and 164-187),
`getNextProblem` (lines 242-262), `getProblemByFuncDimInst` (lines 295-315), the evaluation (lines 322-352), the recommendation
(lines 396-419), the counter (lines 637-651), and the functions that free objects (lines 122-138 and 194-209); `finalizeBenchmark` frees
the observer and then the suite (`/repo/build/java/Benchmark.java` lines 38-43). -/
def step (h : Heap) (j : Java) : Call → Res (Heap × Java × Option Nat)
  | .newSuite =>
    (Lifecycle.step h .newSuite).bind fun (h, s) => .ok (h, { j with suites := s.toList ++ j.suites }, s)
  | .newObserver k name =>
    (Lifecycle.step h (.newObserver k name)).bind fun (h, o) => .ok (h, { j with observers := o.toList ++ j.observers }, o)
  | .newBenchmark s o => .ok (h, { j with benchmarks := (s, o) :: j.benchmarks }, none)
  | .getNextProblem s o next =>
    (Lifecycle.step h (.nextProblem s (next.map (·.1)) (some o))).bind fun (h, p) => .ok (h, j.wrap next p, p)
  | .getProblemByFuncDimInst s t =>
    match t with
    | none => (deref (h.suite s)).bind fun _ => .ok (h, j, none)
    | some (shape, dim) => (Lifecycle.step h (.getProblem s shape)).bind fun (h, p) => .ok (h, j.wrap (some (shape, dim)) p, p)
  | .evaluateFunction p dim len =>
    (readArray dim len).bind fun _ => (Lifecycle.step h (.evaluate p)).bind fun (h, _) => .ok (h, j, none)
  | .recommendSolution p dim len =>
    (readArray dim len).bind fun _ => (Lifecycle.step h (.recommend p)).bind fun (h, _) => .ok (h, j, none)
  | .getEvaluations p _ => (deref (h.prob p)).bind fun _ => .ok (h, j, none)
  | .finalizeObserver o => (Lifecycle.step h (.freeObserver o)).bind fun (h, _) => .ok (h, j, none)
  | .finalizeSuite s => (Lifecycle.step h (.freeSuite s)).bind fun (h, _) => .ok (h, j, none)
  | .finalizeBenchmark s o =>
    (Lifecycle.step h (.freeObserver o)).bind fun (h, _) =>
    (Lifecycle.step h (.freeSuite s)).bind fun (h, _) => .ok (h, j, none)

/-- A program, `/repo/build/java/ExampleExperiment.java`. -/
def run : Heap → Java → List Call → Res (Heap × Java)
  | h, j, [] => .ok (h, j)
  | h, j, c :: cs => (step h j c).bind fun (h, j, _) => run h j cs

end JavaObjects
