import Verif.Model.PyArgs

/-!
# Counting instances of the same function in Python (C133)

The class `SameFunction`, `/repo/build/python/src/cocoex/utilities.py` lines 368-419.
-/

namespace SameFunction

/-- `SameFunction.filter`, `/repo/build/python/src/cocoex/utilities.py` lines 402-405: the parts of the id between underscores, without
those that start with `i`. -/
def filter (id : List Char) : List (List Char) :=
  (PyArgs.split '_' id).filter fun part => part.head? != some 'i'

/-- The attributes `count` and `last`, `/repo/build/python/src/cocoex/utilities.py` lines 406-415 (`none` if there is no attribute `last`). -/
structure State where
  count : Nat
  last : Option (List (List Char))

/-- `__init__`, `/repo/build/python/src/cocoex/utilities.py` lines 406-407. -/
def State.init : State := ⟨0, none⟩

/-- `__call__`, `/repo/build/python/src/cocoex/utilities.py` lines 408-416. -/
def call (s : State) (id : List Char) : State × Nat :=
  let new := filter id
  let s := if s.count = 0 ∨ some new ≠ s.last then { count := 0, last := some new } else s
  let s := { s with count := s.count + 1 }
  (s, s.count - 1)

/-- The answers to a sequence of calls, `/repo/build/python/src/cocoex/utilities.py` lines 408-416. -/
def run (s : State) : List (List Char) → List Nat
  | [] => []
  | id :: ids => (call s id).2 :: run (call s id).1 ids

/-- The loop of the example, `/repo/build/python/src/cocoex/utilities.py` lines 379-385: the problems that are not skipped by
`if already_seen(problem.id) > limit: continue`. -/
def loop (limit : Nat) (s : State) : List (List Char) → List (List Char)
  | [] => []
  | id :: ids =>
    if (call s id).2 > limit then loop limit (call s id).1 ids else id :: loop limit (call s id).1 ids

end SameFunction
