import Mathlib.Data.Real.Basic
import Mathlib.Algebra.Order.Floor.Ring
import Mathlib.Algebra.Order.Archimedean.Real.Basic

/-!
# Proposals of initial solutions in Python (C130)

`Problem.initial_solution_proposal`, `/repo/build/python/src/cocoex/interface.pyx` lines 676-722. Real numbers stand for doubles; the
random numbers of a call are arguments.
-/

namespace PyProposal

/-- What the method reads of a problem: the numbers of integer variables and of constraints, the bounds, and the stored initial solution
(`none` = NULL). `/repo/build/python/src/cocoex/interface.pyx` lines 565-582 (both bounds are given). -/
structure Prob (n : Nat) where
  integers : Nat
  constraints : Nat
  lo : Fin n → ℝ
  hi : Fin n → ℝ
  stored : Option (Fin n → ℝ)

/-- `self.initial_solution`, `/repo/build/python/src/cocoex/interface.pyx` lines 723-728 with `coco_problem_get_initial_solution`,
`/repo/src/coco_problem.c` lines 575-595, and `coco_double_round`, `/repo/src/coco_utilities.c` line 916. -/
noncomputable def initial {n : Nat} (P : Prob n) : Fin n → ℝ :=
  match P.stored with
  | some x => x
  | none => fun i =>
    let m := P.lo i + 0.5 * (P.hi i - P.lo i)
    if i.val < P.integers then (⌊m + 0.5⌋ : ℝ) else m

/-- The random numbers of one call: the two results of `np.random.rand` and those of `np.random.randint`,
`/repo/build/python/src/cocoex/interface.pyx` lines 711-713. -/
structure Draw (n : Nat) where
  u : Fin n → ℝ
  v : Fin n → ℝ
  k : Fin n → ℤ

/-- What numpy promises: `rand` is in [0, 1), `randint(low, high)` in [low, high), here for the bounds of an integer variable
(`/repo/build/python/src/cocoex/interface.pyx` lines 711-713). -/
def Draw.Valid {n : Nat} (P : Prob n) (d : Draw n) : Prop :=
  (∀ i, 0 ≤ d.u i ∧ d.u i < 1) ∧ (∀ i, 0 ≤ d.v i ∧ d.v i < 1) ∧
    ∀ i, i.val < P.integers → P.lo i ≤ d.k i ∧ (d.k i : ℝ) < P.hi i + 1

/-- The random proposal, `/repo/build/python/src/cocoex/interface.pyx` lines 711-722. -/
noncomputable def proposal {n : Nat} (P : Prob n) (d : Draw n) : Fin n → ℝ := fun i =>
  if i.val < P.integers then d.k i
  else if P.constraints > 0 then d.u i + d.v i + (-1 + initial P i)
  else (d.u i + d.v i) * ((P.hi i - P.lo i) / 2) + P.lo i

/-- One call, with the number of calls without argument so far, `/repo/build/python/src/cocoex/interface.pyx` lines 706-722. -/
noncomputable def call {n : Nat} (P : Prob n) (calls : Nat) (restart : Option Int) (d : Draw n) : Nat × (Fin n → ℝ) :=
  let (number, calls) := match restart with
    | none => ((calls : Int), calls + 1)
    | some r => (r, calls)
  if number ≤ 0 then (calls, initial P) else (calls, proposal P d)

/-- The answers to a sequence of calls, `/repo/build/python/src/cocoex/interface.pyx` lines 706-722. -/
noncomputable def run {n : Nat} (P : Prob n) : Nat → List (Option Int × Draw n) → List (Fin n → ℝ)
  | _, [] => []
  | c, (r, d) :: l => (call P c r d).2 :: run P (call P c r d).1 l

/-- The answers of a new problem, whose counter is 0: `/repo/build/python/src/cocoex/interface.pyx` line 572. -/
noncomputable def answers {n : Nat} (P : Prob n) (l : List (Option Int × Draw n)) : List (Fin n → ℝ) := run P 0 l

end PyProposal
