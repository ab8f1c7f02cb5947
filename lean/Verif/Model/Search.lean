import Mathlib.Data.Real.Basic
import Mathlib.Algebra.Order.Floor.Defs
import Mathlib.Algebra.Order.Archimedean.Basic
import Mathlib.Data.Real.Archimedean
import Verif.Base.Res

/-!
# Model of the two search algorithms of the example experiment in C

`my_random_search` and `my_grid_search`, `/repo/build/c/example_experiment.c` lines 262-422. Floating-point numbers are
real numbers here.
-/

namespace Search

/-- The bounds of a variable, `lower_bounds[j]` and `upper_bounds[j]` of the two searches,
`/repo/build/c/example_experiment.c` lines 262-280 and 330-347. -/
structure Bounds where
  lo : ℝ
  hi : ℝ

/-! ### Random search -/

/-- A coordinate of a random point, `/repo/build/c/example_experiment.c` lines 286-293; `u` is the uniform random number and
`int` says whether the variable is an integer variable. -/
noncomputable def coordinate (b : Bounds) (int : Bool) (u : ℝ) : ℝ :=
  let x := b.lo + u * (b.hi - b.lo)
  if int then (⌊x + 0.5⌋ : ℝ) else x

/-! ### Grid search -/

/-- The step and the largest node of an integer variable, lines 352-355, with the two assertions of lines 354-355. -/
noncomputable def integerAxis (b : Bounds) : Res (ℝ × Nat) :=
  open Classical in
  if |b.lo| < 1e-6 ∧ 0 < ⌊b.hi + 0.5⌋ then .ok (1, ⌊b.hi + 0.5⌋.toNat) else .assertFail

/-- The same for a continuous variable, lines 358-366: `root` is the value of the expression with `floor` and `pow`. -/
noncomputable def continuousAxis (root : Int) (b : Bounds) : ℝ × Nat :=
  let m := if root - 1 < 1 then 1 else root - 1
  ((b.hi - b.lo) / m, m.toNat)

/-- The loop over the variables, lines 349-368: the first `ni` of them are integer variables, and `integer_nodes` is the
product of their largest nodes (line 356). -/
noncomputable def axes (root : Int) : Nat → List Bounds → Res (List (ℝ × Nat) × Nat)
  | _, [] => .ok ([], 1)
  | 0, b :: bs => (axes root 0 bs).bind fun r => .ok (continuousAxis root b :: r.1, r.2)
  | ni + 1, b :: bs =>
    (integerAxis b).bind fun a => (axes root ni bs).bind fun r => .ok (a :: r.1, a.2 * r.2)

/-- The loop over `j` from the second variable on, lines 400-407: the first node that is not the last one of its variable is
advanced, those before it are set back to 0. -/
def bump : List Nat → List Nat → Option (List Nat)
  | m :: ms, n :: ns => if n < m then some ((n + 1) :: ns) else (bump ms ns).map (0 :: ·)
  | _, _ => none

/-- Moving to the next node, lines 393-412; `none` is the end of the loop. The first of the nodes is also set back to 0 in
lines 403-404. -/
def advance : List Nat → List Nat → Option (List Nat)
  | m :: ms, n :: ns =>
    if n < m then some ((n + 1) :: ns)
    else if 0 < m then
      match bump ms ns with
      | some ns' => some (0 :: ns')
      | none => if (n :: ns).getLast? = (m :: ms).getLast? then none else some (n :: ns)
    else some (n :: ns)
  | _, _ => none

/-- The `while` loop, lines 373-413: the nodes that are evaluated. `left` is `max_budget - evaluations`. -/
def visit (allInteger : Bool) (integerNodes : Nat) (max : List Nat) : (left evaluations : Nat) → List Nat → List (List Nat)
  | 0, _, _ => []
  | left + 1, e, nodes =>
    if allInteger ∧ integerNodes ≤ e then []
    else nodes :: match advance max nodes with
      | none => []
      | some ns => visit allInteger integerNodes max left (e + 1) ns

/-- The point of a node, lines 381-383. -/
noncomputable def point : List Bounds → List (ℝ × Nat) → List Nat → List ℝ
  | b :: bs, a :: as, n :: ns => (b.lo + a.1 * n) :: point bs as ns
  | _, _, _ => []

/-- `my_grid_search`, lines 330-422: the points evaluated. -/
noncomputable def grid (root : Int) (ni : Nat) (bs : List Bounds) (budget : Nat) : Res (List (List ℝ)) :=
  (axes root ni bs).bind fun (as, integerNodes) =>
  .ok ((visit (ni == bs.length) integerNodes (as.map (·.2)) budget 0 (bs.map fun _ => 0)).map (point bs as))

end Search
