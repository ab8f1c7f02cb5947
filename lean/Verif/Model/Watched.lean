import Verif.Model.Problem
import Verif.Model.LoggerBbob

/-!
# Model of problems under observers

What the loggers (`/repo/src/logger_toy.c`, `/repo/src/logger_rw.c`, `/repo/src/logger_bbob.c`, `/repo/src/logger_biobj.c`) do with
the problem they observe: which functions of the inner problem they call, and when they stop the process. What they write
is modelled in `Verif.Model.LoggerRw`, `Verif.Model.LoggerBbob` and `Verif.Model.LoggerBiobj`. An observer is always added on top of
a complete problem, so an observed problem is a problem of `Verif.Model.Problem` under any number of loggers.
-/

namespace Watched
open Problem

/-- The loggers. `bbob` has the fields `is_opt_known` of the problem and `optimal_value` of the logger and, if the inner problem is
noisy, the value that it records as `last_noise_free_values[0]` when it is evaluated at a point. -/
inductive Kind where
  | toy
  | rw
  | biobj
  | bbob (optKnown : Bool) (optimum : ℚ) (noiseFree : Option (List Dbl → Dbl))

/-- Objects `coco_problem_t`: problems without observers, and the objects made by `coco_problem_transformed_allocate`
(`/repo/src/coco_problem.c` lines 850-874) for a logger, with their own fields and the inner object. -/
inductive Obj where
  | plain (p : Prob)
  | logger (k : Kind) (i : Info) (inner : Obj)

/-- The object's own fields. -/
def Obj.info : Obj → Info
  | .plain p => p.info
  | .logger _ i _ => i

/-- Assignment to the object's own fields. -/
def Obj.setInfo (o : Obj) (i : Info) : Obj :=
  match o with
  | .plain p => .plain (p.setInfo i)
  | .logger k _ q => .logger k i q

/-- `evaluate_constraint != NULL`, as `Prob.hasCons` (`/repo/src/coco_problem.c` line 864). -/
def Obj.hasCons : Obj → Bool
  | .plain p => p.hasCons
  | .logger _ _ _ => true

/-- `coco_evaluate_constraint_optional_update`, `/repo/src/coco_problem.c` lines 81-109, as `Problem.guardCons`. -/
def guardCons (o : Obj) (x : List Dbl) (update : Bool) (raw : Res (Obj × List Dbl)) : Res (Obj × List Dbl) :=
  if o.hasCons = false then .error
  else if x.any Dbl.isInf then .ok (o, List.replicate o.info.ncons .pinf)
  else if x.any Dbl.isNan then .ok (o, List.replicate o.info.ncons .nan)
  else raw.bind fun (o', y) =>
    .ok (if update then o'.setInfo { o'.info with evalsCons := o'.info.evalsCons + 1 } else o', y)

/-- `problem->evaluate_constraint(problem, x, y, update)`: that of the problem, or
`coco_problem_transformed_evaluate_constraint`, `/repo/src/coco_problem.c` lines 767-777, which no logger replaces. -/
def rawCons : Obj → List Dbl → Bool → Res (Obj × List Dbl)
  | .plain p, x, update => (Problem.rawCons p x update).bind fun (p', y) => .ok (.plain p', y)
  | .logger k i q, x, update =>
    (guardCons q x update (rawCons q x update)).bind fun (q', y) => .ok (.logger k i q', y)

/-- `coco_evaluate_constraint`, `/repo/src/coco_problem.c` lines 111-113. -/
def evalCons (o : Obj) (x : List Dbl) : Res (Obj × List Dbl) := guardCons o x true (rawCons o x true)

/-- `coco_is_feasible`, `/repo/src/coco_utilities.c` lines 1071-1102, as `Problem.isFeasible`. -/
def isFeasible (o : Obj) (x : List Dbl) : Res (Obj × Bool) :=
  if vectorIsFinite x = false then .ok (o, false)
  else if o.info.ncons = 0 then .ok (o, true)
  else
    (Res.assert o.hasCons).bind fun _ =>
    (rawCons o x false).bind fun (o', z) => .ok (o', !(z.any fun v => Dbl.lt (.fin 0) v))

/-- The loggers' evaluation of the constraints if there are any: `/repo/src/logger_rw.c` lines 80-83,
`/repo/src/logger_bbob.c` lines 407-410 and 505-508, `/repo/src/logger_biobj.c` lines 764-767 and 820-823. -/
def peek (ncons : Nat) (o : Obj) (x : List Dbl) : Res Obj :=
  if ncons > 0 then (rawCons o x false).bind fun (o', _) => .ok o' else .ok o

/-- `coco_evaluate_function`, `/repo/src/coco_problem.c` lines 29-70, as `Problem.guardF`. -/
def guardF (o : Obj) (x : List Dbl) (raw : Res (Obj × List Dbl)) : Res (Obj × List Dbl) :=
  if x.any Dbl.isInf then .ok (o, List.replicate o.info.nobj .pinf)
  else if x.any Dbl.isNan then .ok (o, List.replicate o.info.nobj .nan)
  else raw.bind fun (o', y) =>
    let o1 := o'.setInfo { o'.info with evals := o'.info.evals + 1 }
    match y with
    | [] => .ub
    | y0 :: _ =>
      if Dbl.lt y0 o1.info.bestF then
        (if o1.info.ncons > 0 then isFeasible o1 x else .ok (o1, true)).bind fun (o2, feasible) =>
          .ok (if feasible then o2.setInfo { o2.info with bestF := y0, bestEval := o2.info.evals } else o2, y)
      else .ok (o1, y)

/-- The assertion in `/repo/src/logger_bbob.c` lines 401-404 and 500-503 (sum without rounding). -/
def sane (optKnown : Bool) (optimum : ℚ) (feasible : Bool) (y : Dbl) : Res Unit :=
  if optKnown && feasible then Res.assert (decide (LoggerBbob.loggedValue y + 1 / 10 ^ 13 ≥ optimum)) else .ok ()

/-- `is_feasible` in `/repo/src/logger_bbob.c` lines 369 and 482. The check leaves the inner problem as it is
(`isFeasible_ok` in `Verif.Props.Watched`), so that it is not returned. -/
def feasibility (ncons : Nat) (q : Obj) (x : List Dbl) : Res Bool :=
  if ncons = 0 then .ok true else (isFeasible q x).bind fun (_, b) => .ok b

/-- `problem->evaluate_function(problem, x, y)`: that of the problem, `logger_toy_evaluate` (`/repo/src/logger_toy.c` lines 50-71),
`logger_rw_evaluate` (`/repo/src/logger_rw.c` lines 56-118), `logger_biobj_evaluate` (`/repo/src/logger_biobj.c` lines 748-796) or
`logger_bbob_evaluate` (`/repo/src/logger_bbob.c` lines 363-471). What happens to the files and to the archive is left out. -/
def rawF : Obj → List Dbl → Res (Obj × List Dbl)
  | .plain p, x => (Problem.rawF p x).bind fun (p', y) => .ok (.plain p', y)
  | .logger k i q, x =>
    match k with
    | .toy => (guardF q x (rawF q x)).bind fun (q', y) => .ok (.logger k i q', y)
    | .rw => (guardF q x (rawF q x)).bind fun (q', y) => (peek i.ncons q' x).bind fun q' => .ok (.logger k i q', y)
    | .biobj => (guardF q x (rawF q x)).bind fun (q', y) => (peek i.ncons q' x).bind fun q' => .ok (.logger k i q', y)
    | .bbob optKnown optimum noiseFree =>
      (feasibility i.ncons q x).bind fun feasible =>
      if i.tainted || q.info.tainted then .error
      else
        (guardF q x (rawF q x)).bind fun (q', y) =>
        match y with
        | [] => .ub
        | y0 :: _ =>
          (sane optKnown optimum feasible (match noiseFree with | some g => g x | none => y0)).bind fun _ =>
          (peek i.ncons q' x).bind fun q' => .ok (.logger k i q', y)

/-- `coco_evaluate_function`, `/repo/src/coco_problem.c` lines 29-70. -/
def evalF (o : Obj) (x : List Dbl) : Res (Obj × List Dbl) := guardF o x (rawF o x)

/-- `coco_recommend_solution`, `/repo/src/coco_problem.c` lines 140-148: problems without observers do nothing (basic and stacked
problems have no such function, transformed ones pass the call on, lines 792-800); so do the toy and the rw logger;
`logger_bbob_recommend` (`/repo/src/logger_bbob.c` lines 477-553) and `logger_biobj_recommend` (`/repo/src/logger_biobj.c` lines
802-853) evaluate the inner problem. -/
def recommend : Obj → List Dbl → Res Obj
  | .plain p, _ => .ok (.plain p)
  | .logger k i q, x =>
    match k with
    | .toy => (recommend q x).bind fun q' => .ok (.logger k i q')
    | .rw => (recommend q x).bind fun q' => .ok (.logger k i q')
    | .biobj => (evalF q x).bind fun (q', _) => (peek i.ncons q' x).bind fun q' => .ok (.logger k i q')
    | .bbob optKnown optimum _ =>
      (feasibility i.ncons q x).bind fun feasible =>
      (evalF q x).bind fun (q', y) =>
      match y with
      | [] => .ub
      | y0 :: _ =>
        (sane optKnown optimum feasible y0).bind fun _ =>
        (peek i.ncons q' x).bind fun q' => .ok (.logger k i q')

/-- `coco_problem_get_best_parameter`, `/repo/src/coco_problem.c` lines 634-650, as `Problem.getBestParameter`. -/
def getBestParameter (o : Obj) : Obj × Bool :=
  if o.info.hasBestParameter = false ∨ o.info.nobj ≠ 1 then (o, false)
  else (o.setInfo { o.info with tainted := true }, true)

/-- `coco_problem_add_observer`, `/repo/src/coco_observer.c` lines 804-818, with an active observer: the logger's object gets copies
of the fields of the problem (`coco_problem_duplicate`, `/repo/src/coco_problem.c` lines 211-275). -/
def observe (k : Kind) (o : Obj) : Obj := .logger k o.info o

/-- `coco_problem_remove_observer`, `/repo/src/coco_observer.c` lines 828-859, for the observer added last. -/
def unobserve : Obj → Obj
  | .plain p => .plain p
  | .logger _ _ q => q

/-- Calls of the public functions. -/
inductive Op where
  | evalF (x : List Dbl)
  | evalC (x : List Dbl)
  | recommend (x : List Dbl)
  | bestParameter

/-- What a call returns. -/
inductive Out where
  | values (y : List Dbl)
  | flag (b : Bool)
  | nothing

/-- One call of `coco_evaluate_function` (`/repo/src/coco_problem.c` lines 29-70), `coco_evaluate_constraint` (111-113),
`coco_recommend_solution` (140-148) or `coco_problem_get_best_parameter` (634-650). -/
def step (o : Obj) : Op → Res (Obj × Out)
  | .evalF x => (evalF o x).bind fun (o', y) => .ok (o', .values y)
  | .evalC x => (evalCons o x).bind fun (o', y) => .ok (o', .values y)
  | .recommend x => (recommend o x).bind fun o' => .ok (o', .nothing)
  | .bestParameter => let (o', b) := getBestParameter o; .ok (o', .flag b)

/-- A sequence of calls (the calling program). -/
def run (o : Obj) : List Op → Res (Obj × List Out)
  | [] => .ok (o, [])
  | op :: ops => (step o op).bind fun (o', out) => (run o' ops).bind fun (o'', outs) => .ok (o'', out :: outs)

end Watched
