import Mathlib.Data.List.Basic
import Verif.Base.Res

/-!
# Arrays that pass the interfaces (C131)

The points that programs in Python, Matlab, Java and Rust give to problems and the numbers they get back:
`/repo/build/python/src/cocoex/interface.pyx`, `/repo/build/python/src/cocoex/bare_problem.pyx`, `/repo/build/matlab/cocoCall.c`,
`/repo/build/java/CocoJNI.c` and `/repo/build/rust/src/problem.rs`.
-/

namespace Interfaces

/-- An array with its shape and its entries one after the other, `/repo/build/python/src/cocoex/interface.pyx` line 833
(`np.asarray` with `order='C'`). The type of numbers does not matter. -/
structure Arr (α : Type) where
  shape : List Nat
  data : List α

/-- Arrays have as many entries as their shape says, `/repo/build/python/src/cocoex/interface.pyx` line 834 (`np.size`). -/
def Arr.Wf {α : Type} (a : Arr α) : Prop := a.data.length = a.shape.prod

/-- `coco_evaluate_function(problem, x, y)` for a pointer to the entries: it reads `dim` of them, and `f` is the result
(`/repo/src/coco_problem.c` lines 29-69). -/
def evaluate {α β : Type} (dim : Nat) (f : List α → β) (data : List α) : Res β :=
  if data.length < dim then .ub else .ok (f (data.take dim))

/-- `Problem.__call__`, `/repo/build/python/src/cocoex/interface.pyx` lines 829-847: the size is compared with the number of variables, and
the conversion to `np.ndarray[double, ndim=1]` refuses arrays with other numbers of dimensions. `constraint` (lines 586-606) and
`recommend` (lines 607-623) convert their arguments in the same way. -/
def pyCall {α β : Type} (dim : Nat) (f : List α → β) (x : Arr α) : Res β :=
  if x.data.length ≠ dim then .error
  else if x.shape.length ≠ 1 then .error
  else evaluate dim f x.data

/-- The loop over the rows, from row `i` on, `/repo/build/python/src/cocoex/bare_problem.pyx` lines 159-162; `fuel` is the number of rows
left. The pointer `&xi[0]` points to the whole rest of the array. -/
def rows {α β : Type} (dim : Nat) (f : List α → β) (data : List α) (d : Nat) : Nat → Nat → Res (List β)
  | 0, _ => .ok []
  | fuel + 1, i =>
    (evaluate dim f (data.drop (i * d))).bind fun y => (rows dim f data d fuel (i + 1)).bind fun ys => .ok (y :: ys)

/-- What `BareProblem.__call__` returns: a number, an array, or `None` (`/repo/build/python/src/cocoex/bare_problem.pyx` lines 146-165). -/
inductive Answer (β : Type) where
  | one (y : β)
  | many (ys : List β)
  | nothing
deriving DecidableEq

/-- `BareProblem.__call__`, `/repo/build/python/src/cocoex/bare_problem.pyx` lines 139-165, for contiguous arrays of doubles (the bounds of
`xi[0]` are not checked, line 2). -/
def bareCall {α β : Type} (dim : Nat) (f : List α → β) (x : Arr α) : Res (Answer β) :=
  match x.shape with
  | [_] => (evaluate dim f x.data).bind fun y => .ok (.one y)
  | [n, d] => (rows dim f x.data d n 0).bind fun ys => .ok (.many ys)
  | _ => .ok .nothing

/-- `cocoEvaluateFunction` of Matlab for an `m` times `n` matrix, `/repo/build/matlab/cocoCall.c` lines 12-46: `&` is applied to the results
of comparisons. `cocoEvaluateConstraint` (lines 48-82) and `cocoRecommendSolution` (lines 84-111) have the same test. `double` says whether
the entries are doubles. -/
def mexEvaluate {α β : Type} (dim : Nat) (f : List α → β) (double : Bool) (m n : Nat) (data : List α) : Res β :=
  if !double then .error
  else if !(n == 1 && m == dim) && !(m == 1 && n == dim) then .error
  else evaluate dim f data

/-- `cocoEvaluateFunction` of Java, `/repo/build/java/CocoJNI.c` lines 322-352; `cocoEvaluateConstraint` (lines 359-390) and
`cocoRecommendSolution` (lines 397-419) do not look at the length either. -/
def jniEvaluate {α β : Type} (dim : Nat) (f : List α → β) (data : List α) : Res β := evaluate dim f data

/-- `Problem::evaluate_function` of Rust, `/repo/build/rust/src/problem.rs` lines 92-99: `assert_eq!` panics. `ny` is the length of `y`,
`outs` the number of objectives; `evaluate_constraint` (lines 105-112) is the same with the number of constraints. -/
def rustEvaluate {α β : Type} (dim outs : Nat) (f : List α → β) (data : List α) (ny : Nat) : Res β :=
  if dim ≠ data.length then .assertFail
  else if outs ≠ ny then .assertFail
  else evaluate dim f data

/-- The bytes of a number of type `size_t`, lowest first: the writing of `*res = (size_t)problem`, `/repo/build/matlab/cocoCall.c` line 652. -/
def bytes : Nat → Nat → List Nat
  | 0, _ => []
  | k + 1, v => v % 256 :: bytes k (v / 256)

/-- The number with the given bytes: the reading of `*ref`, `/repo/build/matlab/cocoCall.c` line 641. -/
def number : List Nat → Nat
  | [] => 0
  | b :: bs => b + 256 * number bs

/-- The assignment of a number of type `size_t` through a pointer to an array of bytes, `/repo/build/matlab/cocoCall.c` lines 652 and 219. -/
def store (mem : List Nat) (v : Nat) : Res (List Nat) :=
  if mem.length < 8 then .ub else .ok (bytes 8 v ++ mem.drop 8)

/-- The reading of a number of type `size_t` through a pointer to an array of bytes, `/repo/build/matlab/cocoCall.c` lines 28-29. -/
def load (mem : List Nat) : Res Nat := if mem.length < 8 then .ub else .ok (number (mem.take 8))

/-- `mxCreateNumericMatrix(1, 1, class, mxREAL)` with elements of `size` bytes, `/repo/build/matlab/cocoCall.c` line 650. -/
def scalar (size : Nat) : List Nat := List.replicate size 0

/-- The functions that return a pointer, `/repo/build/matlab/cocoCall.c` lines 113-134 (`cocoObserver`), 174-200, 537-564, 584-608, 626-653
and 655-679: a scalar of class INT64, which has 8 bytes. -/
def mexPointer (p : Nat) : Res (List Nat) := store (scalar 8) p

/-- The functions that return a number: `cocoProblemFinalTargetHit`, `cocoProblemGetDimension`, `cocoProblemGetEvaluations`,
`cocoProblemGetEvaluationsConstraints`, `cocoProblemGetNumberOfObjectives`, `cocoProblemGetNumberOfConstraints` and
`cocoProblemGetNumberOfIntegerVariables`: a scalar of class INT32, which has 4 bytes, written through a pointer to `size_t`
(`/repo/build/matlab/cocoCall.c` lines 202-220, 238-256, 258-276, 278-296, 413-431, 433-451 and 453-471). -/
def mexNumber (v : Nat) : Res (List Nat) := store (scalar 4) v

end Interfaces
