import Mathlib.Data.Real.Basic

/-!
# Benchmarking algorithms with a budget parameter in Python (C123)

`ProblemNonAnytime`, `/repo/build/python/src/cocoex/utilities.py` lines 249-365: a problem made of an observed and an unobserved
copy. `X` is the type of points, `f` the objective function (single-objective and without noise).
-/

namespace PyNonAnytime

variable {X : Type}

/-- The attributes of the class, `/repo/build/python/src/cocoex/utilities.py` lines 285-290: the points evaluated by `p_observed`
in order, the number of evaluations of `p_unobserved`, `evaluations`, and whether `_p` is `p_observed`. -/
structure State (X : Type) where
  observed : List X
  unobserved : Nat
  evaluations : Nat
  useObserved : Bool

/-- `__init__`, `/repo/build/python/src/cocoex/utilities.py` lines 285-293. -/
def init : State X := ⟨[], 0, 0, true⟩

/-- `best_observed_fvalue1` of the observed problem, `/repo/build/python/src/cocoex/utilities.py` lines 357-359: the first smallest value as updated in
`coco_evaluate_function`, `/repo/src/coco_problem.c`; `none` before the first evaluation, when the field is larger than all
values. -/
noncomputable def best (f : X → ℝ) : List X → Option ℝ
  | [] => none
  | x :: xs => some (xs.foldl (fun b y => if f y < b then f y else b) (f x))

/-- `__call__`, `/repo/build/python/src/cocoex/utilities.py` lines 295-303; `none` is the exception `ValueError`. -/
def call (f : X → ℝ) (s : State X) (x : X) : Option (ℝ × State X) :=
  if s.observed.length < s.evaluations then none
  else
    let s := if s.observed.length ≤ s.evaluations then { s with useObserved := true } else s
    let s := { s with evaluations := s.evaluations + 1 }
    some (f x, if s.useObserved then { s with observed := s.observed ++ [x] } else { s with unobserved := s.unobserved + 1 })

/-- `reset`, `/repo/build/python/src/cocoex/utilities.py` lines 328-331. -/
def reset (s : State X) : State X := { s with evaluations := 0, useObserved := false }

/-- `delivered`, `/repo/build/python/src/cocoex/utilities.py` lines 305-326; `none` is the exception `ValueError`. -/
noncomputable def delivered (f : X → ℝ) (s : State X) (x : X) : Option (State X) :=
  open Classical in
  if s.evaluations < s.observed.length then none
  else
    let s := { s with unobserved := s.unobserved + 1 }
    let s := if some (f x) ≠ best f s.observed then { s with observed := s.observed ++ [x] } else s
    some (reset s)

/-- The evaluations of an algorithm, `/repo/build/python/src/cocoex/utilities.py` line 262 (`fmin`). -/
def calls (f : X → ℝ) : State X → List X → Option (List ℝ × State X)
  | s, [] => some ([], s)
  | s, x :: xs => do
    let (v, s) ← call f s x
    let (vs, s) ← calls f s xs
    return (v :: vs, s)

/-- The loop over the budgets, `/repo/build/python/src/cocoex/utilities.py` lines 259-263: the points an algorithm evaluates and the solution it delivers for each budget; the
values it received. -/
noncomputable def runs (f : X → ℝ) : State X → List (List X × X) → Option (List (List ℝ) × State X)
  | s, [] => some ([], s)
  | s, (xs, d) :: rs => do
    let (vs, s) ← calls f s xs
    let s ← delivered f s d
    let (vss, s) ← runs f s rs
    return (vs :: vss, s)

end PyNonAnytime
