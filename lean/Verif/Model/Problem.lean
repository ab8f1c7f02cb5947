import Verif.Base.Res
import Verif.Base.Dbl

/-!
Model of problems and their evaluation, `/repo/src/coco_problem.c` and the feasibility check of
`/repo/src/coco_utilities.c`.

A problem is the tree of objects built by the allocation functions: a basic problem, a problem wrapped by
a transformation or a logger, or two stacked problems. Objective and constraint functions of basic
problems are arbitrary functions; the objective function may depend on how often it has been evaluated
before (this covers the noisy problems). Vectors are lists of `Dbl`; output vectors are returned.
-/

namespace Problem

/-- The fields of `coco_problem_s` that matter here (`/repo/src/coco_internal.h`; initial values
`/repo/src/coco_problem.c` lines 155-206). `bestValue` is `best_value[0]`, `none` for a NULL pointer;
`hasBestParameter` says whether `best_parameter` is not NULL. -/
structure Info where
  nvar : Nat
  nobj : Nat
  ncons : Nat
  evals : Nat := 0
  evalsCons : Nat := 0
  bestF : Dbl := .fin Dbl.dblMax
  bestEval : Nat := 0
  bestValue : Option Dbl
  delta : ℚ := 1 / 10 ^ 8
  tainted : Bool := false
  hasBestParameter : Bool := true

/-- The problem objects: basic problems; transformed problems (`/repo/src/coco_problem.c` lines 850-874),
where `tx` gives the point at which the inner problem is evaluated (`none`: it is not evaluated, as in
`/repo/src/transform_vars_enforce_box.c`), `ty`/`tc` give the returned objective/constraint vector from
the point and the inner vector; stacked problems (`/repo/src/coco_problem.c` lines 964-1043).
A basic problem without constraint function has `c = none`. -/
inductive Prob where
  | base (i : Info) (f : Nat → List Dbl → List Dbl) (c : Option (List Dbl → List Dbl))
  | wrap (i : Info) (tx : List Dbl → Option (List Dbl)) (ty : List Dbl → List Dbl → List Dbl)
      (txc : List Dbl → List Dbl) (tc : List Dbl → List Dbl → List Dbl) (inner : Prob)
  | stacked (i : Info) (p1 p2 : Prob)

/-- The object's own fields. -/
def Prob.info : Prob → Info
  | .base i _ _ => i
  | .wrap i _ _ _ _ _ => i
  | .stacked i _ _ => i

/-- Assignment to the object's own fields. -/
def Prob.setInfo (p : Prob) (i : Info) : Prob :=
  match p with
  | .base _ f c => .base i f c
  | .wrap _ tx ty txc tc q => .wrap i tx ty txc tc q
  | .stacked _ p1 p2 => .stacked i p1 p2

/-- `evaluate_constraint != NULL`: basic problems as given, transformed problems always
(`/repo/src/coco_problem.c` line 864), stacked problems iff there are constraints (lines 995-996). -/
def Prob.hasCons : Prob → Bool
  | .base _ _ c => c.isSome
  | .wrap _ _ _ _ _ _ => true
  | .stacked i _ _ => decide (i.ncons > 0)

/-- `coco_vector_isfinite`, `/repo/src/coco_utilities.c` lines 1046-1053. -/
def vectorIsFinite (x : List Dbl) : Bool := x.all Dbl.isFinite

/-- `coco_evaluate_constraint_optional_update`, `/repo/src/coco_problem.c` lines 81-109, around the call
`raw` of the problem's `evaluate_constraint`. -/
def guardCons (p : Prob) (x : List Dbl) (update : Bool) (raw : Res (Prob × List Dbl)) : Res (Prob × List Dbl) :=
  if p.hasCons = false then .error
  else if x.any Dbl.isInf then .ok (p, List.replicate p.info.ncons .pinf)
  else if x.any Dbl.isNan then .ok (p, List.replicate p.info.ncons .nan)
  else raw.bind fun (p', y) =>
    .ok (if update then p'.setInfo { p'.info with evalsCons := p'.info.evalsCons + 1 } else p', y)

/-- `problem->evaluate_constraint(problem, x, y, update)`: basic problems; transformed problems,
`/repo/src/coco_problem.c` lines 767-777; stacked problems, lines 921-936. Calling a NULL pointer is
undefined. -/
def rawCons : Prob → List Dbl → Bool → Res (Prob × List Dbl)
  | .base i f c, x, _ =>
    match c with
    | none => .ub
    | some g => .ok (.base i f c, g x)
  | .wrap i tx ty txc tc q, x, update =>
    (guardCons q (txc x) update (rawCons q (txc x) update)).bind fun (q', y) =>
      .ok (.wrap i tx ty txc tc q', tc x y)
  | .stacked i p1 p2, x, update =>
    (Res.assert (decide (i.ncons = p1.info.ncons + p2.info.ncons))).bind fun _ =>
    (if p1.info.ncons > 0 then guardCons p1 x update (rawCons p1 x update) else .ok (p1, [])).bind fun (p1', y1) =>
    (if p2.info.ncons > 0 then guardCons p2 x update (rawCons p2 x update) else .ok (p2, [])).bind fun (p2', y2) =>
      .ok (.stacked i p1' p2', y1 ++ y2)

/-- `coco_evaluate_constraint`, `/repo/src/coco_problem.c` lines 111-113. -/
def evalCons (p : Prob) (x : List Dbl) : Res (Prob × List Dbl) := guardCons p x true (rawCons p x true)

/-- `coco_is_feasible`, `/repo/src/coco_utilities.c` lines 1071-1102. -/
def isFeasible (p : Prob) (x : List Dbl) : Res (Prob × Bool) :=
  if vectorIsFinite x = false then .ok (p, false)
  else if p.info.ncons = 0 then .ok (p, true)
  else
    (Res.assert p.hasCons).bind fun _ =>
    (rawCons p x false).bind fun (p', z) =>
      .ok (p', !(z.any fun v => Dbl.lt (.fin 0) v))

/-- `coco_evaluate_function`, `/repo/src/coco_problem.c` lines 29-70, around the call `raw` of the problem's
`evaluate_function`. Reading `y[0]` of an empty objective vector is undefined. -/
def guardF (p : Prob) (x : List Dbl) (raw : Res (Prob × List Dbl)) : Res (Prob × List Dbl) :=
  if x.any Dbl.isInf then .ok (p, List.replicate p.info.nobj .pinf)
  else if x.any Dbl.isNan then .ok (p, List.replicate p.info.nobj .nan)
  else raw.bind fun (p', y) =>
    let p1 := p'.setInfo { p'.info with evals := p'.info.evals + 1 }
    match y with
    | [] => .ub
    | y0 :: _ =>
      if Dbl.lt y0 p1.info.bestF then
        (if p1.info.ncons > 0 then isFeasible p1 x else .ok (p1, true)).bind fun (p2, feasible) =>
          .ok (if feasible then p2.setInfo { p2.info with bestF := y0, bestEval := p2.info.evals } else p2, y)
      else .ok (p1, y)

/-- `problem->evaluate_function(problem, x, y)`: basic problems; transformed problems,
`/repo/src/coco_problem.c` lines 754-762 and the `evaluate` functions of the transformations; stacked
problems, lines 887-916 with the assertion of line 914 (without rounding). -/
def rawF : Prob → List Dbl → Res (Prob × List Dbl)
  | .base i f c, x => .ok (.base i f c, f i.evals x)
  | .wrap i tx ty txc tc q, x =>
    match tx x with
    | none => .ok (.wrap i tx ty txc tc q, ty x [])
    | some x' => (guardF q x' (rawF q x')).bind fun (q', y) => .ok (.wrap i tx ty txc tc q', ty x y)
  | .stacked i p1 p2, x =>
    (Res.assert (decide (i.nobj = p1.info.nobj + p2.info.nobj))).bind fun _ =>
    (if p1.info.nobj > 0 then guardF p1 x (rawF p1 x) else .ok (p1, [])).bind fun (p1', y1) =>
    (if p2.info.nobj > 0 then guardF p2 x (rawF p2 x) else .ok (p2, [])).bind fun (p2', y2) =>
      let p := Prob.stacked i p1' p2'
      let y := y1 ++ y2
      if i.ncons > 0 then
        (isFeasible p x).bind fun (p', feasible) =>
          if feasible then
            match y, i.bestValue with
            | y0 :: _, some b =>
              (Res.assert (Dbl.le b (y0.addRat (1 / 10 ^ 13)))).bind fun _ => .ok (p', y)
            | _, _ => .ub
          else .ok (p', y)
      else .ok (p, y)

/-- `coco_evaluate_function`, `/repo/src/coco_problem.c` lines 29-70. -/
def evalF (p : Prob) (x : List Dbl) : Res (Prob × List Dbl) := guardF p x (rawF p x)

/-- `coco_problem_get_best_parameter`, `/repo/src/coco_problem.c` lines 634-650 (the copied vector is not
part of the result): returns whether it was successful. -/
def getBestParameter (p : Prob) : Prob × Bool :=
  if p.info.hasBestParameter = false ∨ p.info.nobj ≠ 1 then (p, false)
  else (p.setInfo { p.info with tainted := true }, true)

/-- `coco_problem_final_target_hit`, `/repo/src/coco_problem.c` lines 457-464 (sum without rounding). -/
def finalTargetHit (p : Prob) : Bool :=
  if p.info.nobj ≠ 1 ∨ p.info.evals < 1 then false
  else
    match p.info.bestValue with
    | none => false
    | some b => Dbl.le p.info.bestF (b.addRat p.info.delta)

/-- Calls of the public functions that change a problem. -/
inductive Op where
  | evalF (x : List Dbl)
  | evalC (x : List Dbl)
  | bestParameter

/-- What a call returns. -/
inductive Out where
  | values (y : List Dbl)
  | flag (b : Bool)

/-- One call: `coco_evaluate_function` (`/repo/src/coco_problem.c` 29-70), `coco_evaluate_constraint`
(111-113) or `coco_problem_get_best_parameter` (634-650). -/
def step (p : Prob) : Op → Res (Prob × Out)
  | .evalF x => (evalF p x).bind fun (p', y) => .ok (p', .values y)
  | .evalC x => (evalCons p x).bind fun (p', y) => .ok (p', .values y)
  | .bestParameter => let (p', b) := getBestParameter p; .ok (p', .flag b)

/-- A sequence of calls (the calling program). -/
def run (p : Prob) : List Op → Res (Prob × List Out)
  | [] => .ok (p, [])
  | op :: ops =>
    (step p op).bind fun (p', o) => (run p' ops).bind fun (p'', os) => .ok (p'', o :: os)

/-- `coco_problem_id_is_fine` on the formatted string, `/repo/src/coco_problem.c` lines 352-376. -/
def idIsFine (s : List Char) : Bool :=
  s.all fun c =>
    (decide ('A' ≤ c) && decide (c ≤ 'Z')) || (decide ('a' ≤ c) && decide (c ≤ 'z')) || (c == '_' || c == '-')
      || (decide ('0' ≤ c) && decide (c ≤ '9'))

end Problem
