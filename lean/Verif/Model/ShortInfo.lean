import Mathlib.Data.Nat.Digits.Defs
import Mathlib.Data.Nat.Log
import Mathlib.Algebra.Order.Field.Rat
import Verif.Base.Res

/-!
# Progress and timing in Python (C134)

The class `ShortInfo`, `/repo/build/python/src/cocoex/utilities.py` lines 485-560, and its use in `batch_loop`,
`/repo/build/python/example/example_experiment.py` lines 80-112. Times are rational numbers, the results of `time.time()` are arguments.
An exception is `error`.
-/

namespace ShortInfo

/-- What is printed, without white space between the pieces: the number of runs of a function, the line at the end of a dimension, the
line at the beginning of a dimension (with a time stamp, which is left out), and a function
(`/repo/build/python/src/cocoex/utilities.py` lines 519, 527, 541-552). -/
inductive Piece where
  | runs (n : Nat)
  | done (d : Nat) (q : ℚ)
  | heading (d : Nat)
  | func (f : List Char)

/-- The attributes, `/repo/build/python/src/cocoex/utilities.py` lines 500-506. -/
structure Info where
  f : Option (List Char)
  d : Nat
  t0 : ℚ
  evals : Nat
  table : List (Nat × ℚ)
  runs : Nat

/-- `__init__` at a time, `/repo/build/python/src/cocoex/utilities.py` lines 500-506. -/
def Info.init (t : ℚ) : Info := ⟨none, 0, t, 0, [], 0⟩

/-- `self.evals_by_dimension[d] = q`, `/repo/build/python/src/cocoex/utilities.py` line 517. -/
def put : List (Nat × ℚ) → Nat → ℚ → List (Nat × ℚ)
  | [], d, q => [(d, q)]
  | e :: l, d, q => if e.1 = d then (d, q) :: l else e :: put l d q

/-- `add_evals`, `/repo/build/python/src/cocoex/utilities.py` lines 512-514. -/
def add (s : Info) (evals runs : Nat) : Info := { s with evals := s.evals + evals, runs := s.runs + runs }

/-- `dimension_done`, with the two times it reads, `/repo/build/python/src/cocoex/utilities.py` lines 516-522; a division by zero is an
exception. -/
def dimensionDone (s : Info) (t1 t2 : ℚ) : Res (Info × Piece) :=
  if s.evals = 0 then .error
  else
    let q := (t1 - s.t0) / s.evals
    .ok ({ s with table := put s.table s.d q, evals := 0, t0 := t2 }, .done s.d q)

/-- `function_done`, `/repo/build/python/src/cocoex/utilities.py` lines 524-527; `int` of the logarithm of 0, which is minus infinity, is
an exception. -/
def functionDone (s : Info) : Res (Info × Piece) :=
  if s.runs = 0 then .error else .ok ({ s with runs := 0 }, .runs s.runs)

/-- The text of a number of runs, `/repo/build/python/src/cocoex/utilities.py` line 525 (a text times a negative number is empty). -/
def runsText (n : Nat) : List Char :=
  '(' :: ((Nat.digits 10 n).reverse.map Nat.digitChar ++ ')' :: List.replicate (2 - Nat.log 10 n) ' ')

/-- The text after the first `_f`, `/repo/build/python/src/cocoex/utilities.py` line 532: `split('_f')[1]` up to the next `_f`, of which
only the part before the next underscore is used. -/
def after : List Char → Option (List Char)
  | [] => none
  | c :: r => if c = '_' ∧ r.head? = some 'f' then some r.tail else after r

/-- The function of an id, `/repo/build/python/src/cocoex/utilities.py` line 532; `none` for the exception `IndexError`. -/
def funcOf (id : List Char) : Option (List Char) :=
  (after (id.map Char.toLower)).map fun r => 'f' :: r.takeWhile fun c => c ≠ '_'

/-- `__call__` for a problem with this id and dimension, `/repo/build/python/src/cocoex/utilities.py` lines 529-552. -/
def call (s : Info) (id : List Char) (dim : Nat) (t1 t2 : ℚ) : Res (Info × List Piece) :=
  match funcOf id with
  | none => .error
  | some f =>
    let ran := s.f.isSome
    let fChanged := some f ≠ s.f
    let dChanged := dim ≠ s.d
    (if ran ∧ (fChanged ∨ dChanged) then (functionDone s).bind fun (s, p) => .ok (s, [p]) else .ok (s, [])).bind fun (s, a) =>
    (if dChanged then
      (if s.d ≠ 0 then (dimensionDone s t1 t2).bind fun (s, p) => .ok (s, [p]) else .ok (s, [])).bind fun (s, b) =>
        .ok ({ s with d := dim }, b ++ [.heading dim])
      else .ok (s, [])).bind fun (s, b) =>
    .ok ({ s with f := some f }, a ++ b ++ (if fChanged ∨ dChanged then [.func f] else []))

/-- One problem of an experiment: its id and dimension, the times read by the call, and what is passed to `add_evals` afterwards
(`/repo/build/python/src/cocoex/utilities.py` lines 488-489, `/repo/build/python/example/example_experiment.py` lines 94-99). -/
structure Run where
  id : List Char
  dim : Nat
  t1 : ℚ
  t2 : ℚ
  evals : Nat
  runs : Nat

/-- An experiment as the documentation of the class describes it: the object is called before each problem is run
(`/repo/build/python/src/cocoex/utilities.py` lines 486-489). -/
def experiment : Info → List Run → Res (Info × List Piece)
  | s, [] => .ok (s, [])
  | s, r :: rs =>
    (call s r.id r.dim r.t1 r.t2).bind fun (s, a) =>
    (experiment (add s r.evals r.runs) rs).bind fun (s, b) => .ok (s, a ++ b)

/-- The end of an experiment, `/repo/build/python/example/example_experiment.py` line 102. -/
def finish (s : Info) (t1 t2 : ℚ) : Res (Info × List Piece) :=
  (functionDone s).bind fun (s, a) => (dimensionDone s t1 t2).bind fun (s, b) => .ok (s, [a, b])

/-- An experiment with its end, `/repo/build/python/src/cocoex/utilities.py` lines 486-489 and
`/repo/build/python/example/example_experiment.py` line 102. -/
def whole (t : ℚ) (rs : List Run) (t1 t2 : ℚ) : Res (Info × List Piece) :=
  (experiment (.init t) rs).bind fun (s, a) => (finish s t1 t2).bind fun (s, b) => .ok (s, a ++ b)

/-- `batch_loop`, `/repo/build/python/example/example_experiment.py` lines 92-103, which does not call the object: the numbers passed to
`add_evals`, then the end. -/
def batchLoop (t : ℚ) (rs : List Run) (t1 t2 : ℚ) : Res (Info × List Piece) :=
  finish (rs.foldl (fun s r => add s r.evals r.runs) (.init t)) t1 t2

end ShortInfo
