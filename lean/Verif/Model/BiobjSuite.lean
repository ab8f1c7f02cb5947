import Verif.Model.Biobj
import Verif.Model.Mixint

/-!
# Model of the problems of the bi-objective suites

`/repo/src/suite_biobj.c`, `/repo/src/suite_biobj_mixint.c`, `/repo/src/suite_biobj_utilities.c` and
`coco_problem_stacked_allocate` in `/repo/src/coco_problem.c` for two problems with one objective and no constraints.
Exact real arithmetic, finite points, conventions of `Verif.Model.Transform`. Identifiers, names, types and the counters
of the two problems are not modelled. (`/repo/src/suite_biobj_ext.c` is an older copy that is not compiled: the suite
bbob-biobj-ext is made by `/repo/src/suite_biobj.c` lines 41-42.)
-/

noncomputable section

namespace BiobjSuite
open Classical Transform

variable {n : Nat}

/-- A problem with two objectives (`coco_problem_t`): the evaluation, the region of interest, the ideal point
(`best_value`) and the nadir point (`nadir_value`), with `none` for NaN, and the two single-objective problems. -/
structure Problem (n : Nat) where
  eval : Vec n → Res (ℝ × ℝ)
  lo : Vec n
  hi : Vec n
  ideal : Option ℝ × Option ℝ
  nadir : Option ℝ × Option ℝ
  first : Prob n
  second : Prob n

/-- `coco_evaluate_function` (`/repo/src/coco_problem.c` lines 29-70) at a best parameter: NaN if the parameter is. -/
def evalAt (P : Prob n) (p : Option (Vec n)) : Res (Option ℝ) :=
  match p with
  | some p => (P.eval p).bind fun y => .ok (some y)
  | none => .ok none

/-- `coco_problem_stacked_allocate`, `/repo/src/coco_problem.c` lines 970-1043, with the evaluation of lines 887-914. -/
def stacked (P1 P2 : Prob n) (lo hi : Vec n) : Res (Problem n) :=
  (evalAt P1 P2.bestParam).bind fun n1 =>
  (evalAt P2 P1.bestParam).bind fun n2 =>
  .ok
    { eval := fun x => (P1.eval x).bind fun y1 => (P2.eval x).bind fun y2 => .ok (y1, y2)
      lo := lo
      hi := hi
      ideal := (P1.bestValue, P2.bestValue)
      nadir := (n1, n2)
      first := P1
      second := P2 }

/-- `mo_get_norm` of two points with two components compared with a bound, `/repo/src/mo_utilities.c` lines 30-40; a
comparison with NaN is false. -/
def pointsClose (a b : Option ℝ × Option ℝ) (bound : ℝ) : Prop :=
  match a.1, a.2, b.1, b.2 with
  | some a1, some a2, some b1, some b2 => Real.sqrt ((a1 - b1) ^ 2 + (a2 - b2) ^ 2) < bound
  | _, _, _, _ => False

/-- The same for two best parameters. -/
def paramsClose (p q : Option (Vec n)) (bound : ℝ) : Prop :=
  match p, q with
  | some p, some q => Real.sqrt (∑ i, (p i - q i) ^ 2) < bound
  | _, _ => False

/-- `suite_biobj_check_inst_consistency`, `/repo/src/suite_biobj_utilities.c` lines 66-113. -/
def inconsistent : Biobj.Breaks := fun d f1 i1 f2 i2 =>
  (Bbob.get .bbob f1 i1 d).bind fun P1 =>
  (Bbob.get .bbob f2 i2 d).bind fun P2 =>
  (stacked P1 P2 (fun _ => -100) (fun _ => 100)).bind fun P =>
  .ok (decide (pointsClose P.ideal P.nadir (1 / 10) ∨ paramsClose P1.bestParam P2.bestParam (1 / 10 ^ 4)))

/-- `coco_get_biobj_problem`, `/repo/src/suite_biobj_utilities.c` lines 240-478, with a null pointer for the data on new
instances: `getProblem` is `coco_get_problem_function`, `count` the number of instances and `dims` the dimensions of the
suite. The result also contains the numbers of the two functions (lines 453-460). -/
def getWith (getProblem : Nat → Nat → (n : Nat) → Res (Prob n)) (count : Nat) (dims : List Nat)
    (function inst n : Nat) : Res (Problem n × Nat × Nat) :=
  if n = 0 then .error
  else
    (Biobj.functions function).bind fun (f1, f2) =>
    (Biobj.instances inconsistent dims count inst .null).bind fun ((i1, i2), _) =>
    (getProblem f1 i1 n).bind fun P1 =>
    (getProblem f2 i2 n).bind fun P2 =>
    (stacked P1 P2 (fun _ => -100) (fun _ => 100)).bind fun P =>
    .ok (P, f1, f2)

/-- `suite_biobj_get_problem`, `/repo/src/suite_biobj.c` lines 76-95, for the suites bbob-biobj and bbob-biobj-ext. -/
def get (count : Nat) (dims : List Nat) (function inst n : Nat) : Res (Problem n) :=
  (getWith (fun f i n => Bbob.get .bbob f i n) count dims function inst n).bind fun (P, _) => .ok P

/-- `suite_biobj_mixint_get_problem`, `/repo/src/suite_biobj_mixint.c` lines 173-196, with
`coco_get_biobj_mixint_problem`, lines 65-160: the two problems of the continuous bi-objective problem are discretised and
scaled (`Discretize.mixint` with the bound 100), and stacked. -/
def getMixint (qsort : Permutation.SortFn) (count : Nat) (dims : List Nat) (function inst n : Nat) :
    Res (Problem n) :=
  (Discretize.cardinalities n).bind fun (cs, _) =>
  (getWith (fun f i n => if n < 50 then Bbob.get .bbob f i n else LargeScale.get qsort f i n) count dims
    function inst n).bind fun (P, f1, f2) =>
  (Discretize.mixint 100 f1 P.first).bind fun P1 =>
  (Discretize.mixint 100 f2 P.second).bind fun P2 =>
  stacked P1 P2 (fun i => (Discretize.outerBounds 100 (cs.getD i.1 0)).1)
    (fun i => (Discretize.outerBounds 100 (cs.getD i.1 0)).2)

end BiobjSuite
