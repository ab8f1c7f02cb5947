import Verif.Base.Res
import Verif.Base.Dbl

/-!
# Model of the boxed problems of the sbox-cost suite

`/repo/src/transform_vars_enforce_box.c`, with the screening of the points by `coco_evaluate_function`. Points and
values are doubles of which only comparisons are used; the sum in the assertion is exact.
-/

namespace Box

/-- The fields the function uses: the region of interest and the best value of the problem (copied from the inner
problem, `/repo/src/coco_problem.c` lines 732-874), the objective function of the inner problem, and, for a problem with
constraints, the result of `coco_is_feasible`. -/
structure Prob where
  lo : List Dbl
  hi : List Dbl
  best : Dbl
  inner : List Dbl → Dbl
  feasible : Option (List Dbl → Bool)

/-- What a call leaves behind: the value, and the points at which the inner function was called. -/
structure Out where
  y : Dbl
  calls : List (List Dbl)
deriving DecidableEq

/-- `|x|` for an infinite number, `/repo/src/coco_problem.c` line 43. -/
def absInf : Dbl → Dbl
  | .ninf => .pinf
  | d => d

/-- `coco_evaluate_function`, `/repo/src/coco_problem.c` lines 39-55, for an `evaluate_function` `f` (the counters are
left out, see `Verif.Model.Problem`). -/
def screened (f : List Dbl → Res Out) (x : List Dbl) : Res Out :=
  match x.find? Dbl.isInf with
  | some d => .ok ⟨absInf d, []⟩
  | none => if x.any Dbl.isNan then .ok ⟨.nan, []⟩ else f x

/-- The loop in lines 27-33 of `/repo/src/transform_vars_enforce_box.c`: is there a coordinate outside? -/
def violated : List Dbl → List Dbl → List Dbl → Bool
  | x :: xs, l :: ls, h :: hs => if x.lt l || h.lt x then true else violated xs ls hs
  | _, _, _ => false

/-- `assert(y[0] + 1e-13 >= problem->best_value[0])`. -/
def check (best : Dbl) (o : Out) : Res Out :=
  if best.le (o.y.addRat (1 / 10 ^ 13)) then .ok o else .assertFail

/-- `transform_vars_enforce_box_evaluate_function`, `/repo/src/transform_vars_enforce_box.c` lines 14-47. -/
def evaluateFunction (P : Prob) (x : List Dbl) : Res Out :=
  if x.any Dbl.isNan then .ok ⟨.nan, []⟩
  else if violated x P.lo P.hi then .ok ⟨.pinf, []⟩
  else
    (screened (fun x => .ok ⟨P.inner x, [x]⟩) x).bind fun o =>
    match P.feasible with
    | some f => if f x then check P.best o else .ok o
    | none => check P.best o

/-- `coco_evaluate_function` of the boxed problem (files as above). -/
def evaluate (P : Prob) (x : List Dbl) : Res Out := screened (evaluateFunction P) x

end Box
