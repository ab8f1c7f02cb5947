import Mathlib.Data.Real.Basic
import Mathlib.Tactic.Common

/-!
# Random search in Python (C135)

`random_search`, `/repo/build/python/src/cocoex/solvers.py` lines 6-29. The drawn points are a sequence; budgets are whole numbers; the
values are elements of a linear order (no NaN).
-/

namespace PySearch

variable {X V : Type} [LinearOrder V]

/-- A drawn coordinate from a number in [0, 1), `/repo/build/python/src/cocoex/solvers.py` line 16; real numbers for doubles. -/
def coordinate (lo hi u : ℝ) : ℝ := lo + (hi - lo) * u

/-- The problem: the numbers of constraints and objectives, the value of the objective function at a point, and whether all constraint
values are at most 0 (`/repo/build/python/src/cocoex/solvers.py` lines 17-22; the value matters for one objective only). -/
structure Prob (X V : Type) where
  constraints : Nat
  objectives : Nat
  f : X → V
  feasible : X → Bool

/-- `max_chunk_size`, rounded down, `/repo/build/python/src/cocoex/solvers.py` line 12. -/
def maxChunk (dim : Nat) : Nat := 1 + 40000 / dim

/-- The number of points drawn at once, `/repo/build/python/src/cocoex/solvers.py` line 14. -/
def chunk (dim : Nat) (budget : Int) : Nat := max 1 (min budget (maxChunk dim)).toNat

/-- `np.argmin`: the first index of the smallest value, `none` for the empty list (`/repo/build/python/src/cocoex/solvers.py` line 24). -/
def argmin : List V → Option Nat
  | [] => none
  | v :: vs =>
    match argmin vs with
    | none => some 0
    | some j => if ∃ w ∈ vs[j]?, w < v then some (j + 1) else some 0

/-- The values of a chunk: of all points, or of the feasible ones if there are constraints
(`/repo/build/python/src/cocoex/solvers.py` lines 17-22). -/
def values (P : Prob X V) (xs : List X) : List V :=
  if P.constraints > 0 then (xs.filter P.feasible).map P.f else xs.map P.f

/-- The update of `x_min` and `f_min`, `/repo/build/python/src/cocoex/solvers.py` lines 23-26: the index is one of the list of values, and
the point is taken from the list of all points of the chunk. -/
def update (P : Prob X V) (xs : List X) (best : Option (X × V)) : Option (X × V) :=
  if P.objectives = 1 then
    match argmin (values P xs) with
    | none => best
    | some i =>
      match xs[i]?, (values P xs)[i]? with
      | some x, some v =>
        match best with
        | none => some (x, v)
        | some b => if v < b.2 then some (x, v) else some b
      | _, _ => best
  else best

/-- What a chunk takes from the budget, `/repo/build/python/src/cocoex/solvers.py` lines 20 and 27. -/
def cost (P : Prob X V) (c : Nat) : Nat := if P.constraints > 0 then 2 * c else c

/-- The loop, `/repo/build/python/src/cocoex/solvers.py` lines 13-27: `k` points have been drawn. The result is the number of points drawn
(each one is evaluated once, with the constraints if there are any) and `x_min` with `f_min`. -/
def loop (P : Prob X V) (dim : Nat) (pts : Nat → X) (budget : Int) (k : Nat) (best : Option (X × V)) : Nat × Option (X × V) :=
  if budget > 0 then
    loop P dim pts (budget - cost P (chunk dim budget)) (k + chunk dim budget)
      (update P ((List.range (chunk dim budget)).map fun i => pts (k + i)) best)
  else (k, best)
termination_by budget.toNat
decreasing_by
  have : 1 ≤ chunk dim budget := Nat.le_max_left _ _
  have h2 : 1 ≤ cost P (chunk dim budget) := by unfold cost; split <;> omega
  omega

/-- `random_search`: the number of points and the returned point, `/repo/build/python/src/cocoex/solvers.py` lines 6-28. -/
def search (P : Prob X V) (dim : Nat) (pts : Nat → X) (budget : Int) : Nat × Option X :=
  let r := loop P dim pts budget 0 none
  (r.1, r.2.map (·.1))

/-- Evaluations of functions and constraints together, `/repo/build/python/src/cocoex/solvers.py` lines 17-22. -/
def evaluations (P : Prob X V) (points : Nat) : Nat := if P.constraints > 0 then 2 * points else points

end PySearch
