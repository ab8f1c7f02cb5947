import Mathlib.Data.Real.Archimedean
import Mathlib.Data.List.FinRange
import Verif.Model.Transform

/-!
# Model of the mixed-integer problems

`/repo/src/transform_vars_discretize.c` and the construction of the problems in `/repo/src/suite_bbob_mixint.c` and
`/repo/src/suite_biobj_mixint.c`. Exact real arithmetic, finite points and bounds.
-/

noncomputable section

namespace Discretize
open Classical Transform

/-- `coco_double_round`, `/repo/src/coco_utilities.c` line 916. -/
def round (x : ℝ) : ℤ := ⌊x + 1 / 2⌋

/-- `coco_double_to_int`, `/repo/src/coco_utilities.c` lines 973-983; the conversion discards the fraction. -/
def toInt (x : ℝ) : Res ℤ :=
  if x > 2147483647 then .error
  else if x < -2147483648 then .error
  else
    let r := if 0 ≤ x + 1 / 2 then ⌊x + 1 / 2⌋ else ⌈x + 1 / 2⌉
    if -2147483648 ≤ r ∧ r ≤ 2147483647 then .ok r else .ub

/-- `n` in lines 59-60 and 117-118 of `/repo/src/transform_vars_discretize.c`: the difference of two `int` values plus
one (undefined beyond `int`), and the assertion on it. -/
def count (outerL outerU : ℝ) : Res ℤ :=
  (toInt outerU).bind fun b =>
  (toInt outerL).bind fun a =>
  if -2147483648 ≤ b - a ∧ b - a + 1 ≤ 2147483647 then
    if b - a + 1 > 1 then .ok (b - a + 1) else .assertFail
  else .ub

/-- `inner_l`, lines 61 and 119. -/
def innerL (l u : ℝ) (n : ℤ) : ℝ := l + (u - l) / (n + 1)

/-- `inner_u`, lines 62 and 120. -/
def innerU (l u : ℝ) (n : ℤ) : ℝ := u - (u - l) / (n + 1)

/-- The two lines that respect the bounds, 65-68 and 126-129. -/
def clip (lo hi d : ℝ) : ℝ :=
  let d := if d < lo then lo else d
  if d > hi then hi else d

/-- The value that corresponds to an outer value in the coordinates of the inner problem, lines 69-70 (without the
offset) and 132. -/
def place (l u outerL outerU : ℝ) (n : ℤ) (d : ℝ) : ℝ :=
  innerL l u n + (innerU l u n - innerL l u n) * (d - outerL) / (outerU - outerL)

/-- `outer_xopt`, lines 122-129. -/
def outerOpt (l u outerL outerU : ℝ) (n : ℤ) (innerXopt : ℝ) : ℝ :=
  let o := outerL + (outerU - outerL) * (innerXopt - innerL l u n) / (innerU l u n - innerL l u n)
  clip outerL outerU (round (o + 1 / 10 ^ 7))

/-- The checks in the loop of lines 106-136, in the order of the variables. -/
def checks {n : Nat} (lo hi : Vec n) (k : Nat) : List (Fin n) → Res Unit
  | [] => .ok ()
  | i :: is =>
    if lo i < hi i then
      (if i.1 < k then (count (lo i) (hi i)).bind fun _ => Res.ok () else Res.ok ()).bind fun _ => checks lo hi k is
    else .assertFail

/-- The number of values of an integer variable, after it was checked. -/
def card (lo hi : ℝ) : ℤ :=
  match count lo hi with
  | .ok c => c
  | _ => 0

/-- The point at which the inner problem is evaluated, lines 52-71; `p` is the best parameter of the inner problem,
which enters through `data->offset`, lines 110 and 122-134. -/
def image {n : Nat} (P : Prob n) (lo hi : Vec n) (k : Nat) (p x : Vec n) : Vec n := fun i =>
  if i.1 < k then
    let c := card (lo i) (hi i)
    let opt := outerOpt (P.lo i) (P.hi i) (lo i) (hi i) c (p i)
    let offset := place (P.lo i) (P.hi i) (lo i) (hi i) c opt - p i
    place (P.lo i) (P.hi i) (lo i) (hi i) c (clip (lo i) (hi i) (round (x i))) - offset
  else x i

/-- `transform_vars_discretize`, `/repo/src/transform_vars_discretize.c` lines 88-150, with its `evaluate_function` of
lines 36-75. One objective, no constraints. More integer variables than variables read outside the arrays. A problem
whose best parameter is NaN is left out (the model has the outcome `ub` for it). -/
def discretize {n : Nat} (P : Prob n) (lo hi : Vec n) (k : Nat) : Res (Prob n) :=
  (Res.assert (decide (k > 0))).bind fun _ =>
  (checks lo hi k (List.finRange n)).bind fun _ =>
  match P.bestParam with
  | none => .ub
  | some p => .ok
    { eval := fun x => if k ≤ n then P.eval (image P lo hi k p x) else .ub
      lo := lo
      hi := hi
      bestParam := some fun i =>
        if i.1 < k then outerOpt (P.lo i) (P.hi i) (lo i) (hi i) (card (lo i) (hi i)) (p i) else p i
      bestValue := P.bestValue }

/-- The loop over the variables in `/repo/src/suite_bbob_mixint.c` lines 81-102 and
`/repo/src/suite_biobj_mixint.c` lines 109-129: the cardinalities of the variables from `i` on and `num_integer`. -/
def loop (dimension : Nat) : Nat → Nat → Nat → Res (List Nat × Nat)
  | 0, _, num => .ok ([], num)
  | r + 1, i, num =>
    (Res.readNat [2, 4, 8, 16, 0] (i / (dimension / 5))).bind fun c =>
    let num := if c = 0 then (if num = dimension then i else num) else num
    (loop dimension r (i + 1) num).bind fun (cs, num) => .ok (c :: cs, num)

/-- Allocation, the test of the dimension, and the loop: `/repo/src/suite_bbob_mixint.c` lines 68-102,
`/repo/src/suite_biobj_mixint.c` lines 75-129. For dimension 0 the allocation stops the process. -/
def cardinalities (dimension : Nat) : Res (List Nat × Nat) :=
  if dimension = 0 then .error
  else if dimension % 5 ≠ 0 then .error
  else loop dimension dimension 0 dimension

/-- The outer bounds of a variable: `bound` is 5 in `/repo/src/suite_bbob_mixint.c` lines 86-97 and 100 in
`/repo/src/suite_biobj_mixint.c` lines 111-121. -/
def outerBounds (bound : ℝ) (c : Nat) : ℝ × ℝ := if c = 0 then (-bound, bound) else (0, (c : ℝ) - 1)

/-- `suite_bbob_mixint_scaling_factors`, `/repo/src/suite_bbob_mixint.c` lines 21-27. -/
def factors : List ℝ :=
  [1, 1 / 10 ^ 3, 1 / 10, 1 / 10, 1,
   1 / 10 ^ 2, 1, 1 / 10 ^ 2, 1 / 10 ^ 2, 1 / 10 ^ 3,
   1 / 10 ^ 2, 1 / 10 ^ 4, 1 / 10, 1, 1 / 10,
   1, 10, 1, 10, 1 / 10,
   1, 1, 10, 1 / 10]

/-- `coco_get_bbob_mixint_problem`, `/repo/src/suite_bbob_mixint.c` lines 62-118, for the continuous problem `P` that
`coco_get_problem_function` delivers (identifier and name are left out); with `bound` 100 the treatment of each of the
two problems in `/repo/src/suite_biobj_mixint.c` lines 107-141. -/
def mixint {n : Nat} (bound : ℝ) (function : Nat) (P : Prob n) : Res (Prob n) :=
  (cardinalities n).bind fun (cs, num) =>
  let c := fun i : Fin n => cs.getD i.1 0
  let P := { P with
    lo := fun i => if c i = 0 then P.lo i else -4
    hi := fun i => if c i = 0 then P.hi i else 4 }
  (discretize P (fun i => (outerBounds bound (c i)).1) (fun i => (outerBounds bound (c i)).2) num).bind fun P =>
  (Res.readAt factors ((function : Int) - 1)).bind fun f => .ok (objScale f P)

end Discretize
