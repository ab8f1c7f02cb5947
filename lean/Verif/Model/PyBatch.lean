/-!
# The batches of an experiment in Python (C121)

`BatchScheduler`, `/repo/build/python/src/cocoex/utilities.py` lines 907-974. A problem is what the class reads of it: its
function and its dimension.
-/

namespace PyBatch

/-- `(problem.id_function, problem.dimension)`, `/repo/build/python/src/cocoex/utilities.py` lines 968-972. -/
abbrev Key := Nat × Nat

/-- The attributes of a `BatchScheduler`, lines 941-943 and the parameters `number_of_batches` and `batch_to_execute`
(integers). -/
structure Scheduler where
  number : Int
  execute : Int
  first : Option Key
  current : Option Key
  batch : Int
deriving DecidableEq, Repr

/-- `__init__`, lines 934-953; `execute` is `none` if `None` is given, and `none` as the result is an exception (comparing
`None` with a number, line 947, raises `TypeError`). -/
def create (number : Int) (execute : Option Int) : Option Scheduler :=
  if number = 1 ∧ (execute = some 0 ∨ execute = some 1 ∨ execute = none) then some ⟨number, 0, none, none, -1⟩
  else match execute with
    | none => none
    | some e => if e < 0 ∨ number ≤ e then none else some ⟨number, e, none, none, -1⟩

/-- `is_in_batch`, lines 954-974. The remainder is that of Python, which for a positive divisor is `Int.emod`. -/
def isInBatch (s : Scheduler) (p : Key) : Bool × Scheduler :=
  let s := if s.first = none then { s with first := some p } else s
  let s :=
    if s.current ≠ some p then
      let s := if some p = s.first then { s with batch := -1 } else s
      { s with current := some p, batch := s.batch + 1 }
    else s
  (decide (s.batch % s.number = s.execute), s)

/-- The loop `for problem in suite`, lines 919-922: which problems are run. -/
def loop : Scheduler → List Key → List Bool × Scheduler
  | s, [] => ([], s)
  | s, p :: ps =>
    let (b, s) := isInBatch s p
    let (bs, s) := loop s ps
    (b :: bs, s)

end PyBatch
