import Verif.Model.Triggers
import Verif.Base.Dbl

/-!
Model of the bbob logger, `/repo/src/logger_bbob.c`. The objective value (for noisy problems the noise-free
value, lines 395-398) and the constraint values of an evaluated or recommended solution are inputs. A line of a
data file is modelled by the values it shows, before formatting. Sums and differences are exact. Files are opened
at the first evaluation or recommendation; names and headers are not modelled, and the observer is assumed to
exist until then.
-/

namespace LoggerBbob

/-- NAN_FOR_LOGGING and INFINITY_FOR_LOGGING, `/repo/src/coco.h` lines 87 and 89, and the conversion of
`/repo/src/logger_bbob.c` lines 399-402. -/
def loggedValue : Dbl → ℚ
  | .nan => 2 * 10 ^ 21
  | .ninf => 3 * 10 ^ 21
  | .pinf => 3 * 10 ^ 21
  | .fin q => q

/-- The sum of two doubles, without rounding. -/
def addDbl : Dbl → Dbl → Dbl
  | .nan, _ => .nan
  | _, .nan => .nan
  | .pinf, .ninf => .nan
  | .ninf, .pinf => .nan
  | .pinf, _ => .pinf
  | _, .pinf => .pinf
  | .ninf, _ => .ninf
  | _, .ninf => .ninf
  | .fin a, .fin b => .fin (a + b)

/-- The sum of the positive constraint values, `/repo/src/logger_bbob.c` lines 418-427. -/
def sumConstraints (c : List Dbl) : ℚ :=
  loggedValue (c.foldl (fun s v => if Dbl.lt (.fin 0) v then addDbl s v else s) (.fin 0))

/-- `max_value`, `/repo/src/logger_bbob.c` lines 429-437. -/
def maxValue (optKnown : Bool) (opt y sum : ℚ) : ℚ :=
  if optKnown then (if y ≥ opt then y else opt) else if sum > 0 then 10 ^ 10 else y

/-- `logger_bbob_single_digit_constraint`, `/repo/src/logger_bbob.c` lines 142-150. -/
def digitFrom (c : Dbl) : Nat → List ℚ → Nat
  | i, [] => i
  | i, l :: ls => if Dbl.le c (.fin l) then i else digitFrom c (i + 1) ls

/-- `logger_bbob_single_digit_constraint`, `/repo/src/logger_bbob.c` lines 142-150 (the limits). -/
def digit (c : Dbl) : Nat :=
  digitFrom c 0 [0, 1 / 10 ^ 7, 1 / 10 ^ 6, 1 / 10 ^ 5, 1 / 10 ^ 4, 1 / 10 ^ 3, 1 / 10 ^ 2, 1 / 10, 1]

/-- The fifth column of a line, `/repo/src/logger_bbob.c` lines 180-187. -/
inductive Col where
  | best (v : ℚ)
  | digits (d : List Nat)
deriving DecidableEq

/-- A line of a data file, `logger_bbob_output`, `/repo/src/logger_bbob.c` lines 171-204 (all variables; the
code leaves them out from 22 on). -/
structure Line where
  f : Nat
  g : Nat
  best : ℚ
  cur : ℚ
  col : Col
  x : List Dbl
deriving DecidableEq

/-- `logger_bbob_output`, `/repo/src/logger_bbob.c` lines 171-204; `cons = none` is a NULL pointer. -/
def outputLine (ncons : Nat) (opt : ℚ) (f g : Nat) (x : List Dbl) (cur best : ℚ) (cons : Option (List Dbl)) : Line :=
  ⟨f, g, best - opt, cur,
    match cons with
    | some c => if ncons > 0 then .digits (c.map digit) else .best best
    | none => .best best, x⟩

/-- What the logger is created with. `trigger` is `coco_observer_targets_trigger`, `/repo/src/coco_observer.c`
lines 257-265, see `Triggers.targetsTrigger`. -/
structure Params (T : Type) where
  ncons : Nat
  optKnown : Bool
  opt : ℚ
  trigger : T → ℚ → Res (Bool × T)

/-- `logger_bbob_data_t`, `/repo/src/logger_bbob.c` lines 54-93, with the lines written to its files; `none`
stands for an indeterminate value. `tainted` is `problem->is_tainted || inner_problem->is_tainted` and `consEvals`
is `problem->evaluations_constraints`. -/
structure State (T : Type) where
  tainted : Bool
  consEvals : Nat
  initialized : Bool
  restarted : Bool
  evals : Nat
  numCons : Nat
  lastDat : Option Nat
  lastTdat : Option Nat
  lastMdat : Nat
  best : ℚ
  bestX : Option (List Dbl)
  bestRec : ℚ
  bestRecX : Option (List Dbl)
  targets : T
  evaluations : Triggers.Evaluations
  mTargets : T
  dat : List Line
  tdat : List Line
  rdat : List Line
  mdat : List Line
  info : List (Nat × ℚ)

variable {T : Type}

/-- `logger_bbob`, `/repo/src/logger_bbob.c` lines 664-737. -/
def init (t : T) (base : List Nat) (dim : Nat) : State T :=
  { tainted := false, consEvals := 0, initialized := false, restarted := false, evals := 0, numCons := 0,
    lastDat := none, lastTdat := none, lastMdat := 0, best := Dbl.dblMax, bestX := none, bestRec := 3 * 10 ^ 21,
    bestRecX := none, targets := t, evaluations := Triggers.evalInit base dim, mTargets := t, dat := [], tdat := [],
    rdat := [], mdat := [], info := [] }

/-- `coco_is_feasible` of the inner problem at a finite solution, given its constraint values
(`/repo/src/coco_utilities.c` lines 1071-1102, modelled in `Verif.Model.Problem`). -/
def feasible (cons : List Dbl) : Bool := !(cons.any fun v => Dbl.lt (.fin 0) v)

/-- The value used by the logger for a solution, `/repo/src/logger_bbob.c` lines 394-442. -/
def value (P : Params T) (y : Dbl) (cons : List Dbl) : ℚ :=
  maxValue P.optKnown P.opt (loggedValue y) (sumConstraints cons) + sumConstraints cons

/-- The update of the best value and the dat file, `/repo/src/logger_bbob.c` lines 439-455. -/
def updateBest (P : Params T) (s : State T) (x : List Dbl) (y : Dbl) (cons : List Dbl) : Res (State T) :=
  let v := value P y cons
  let line := outputLine P.ncons P.opt s.evals s.numCons x (loggedValue y) v (some cons)
  if s.evals = 1 then
    .ok { s with best := v, bestX := some x, dat := s.dat ++ [line], lastDat := some s.evals }
  else if v < s.best then
    (P.trigger s.targets (v - P.opt)).bind fun (fire, t) =>
    if fire then
      .ok { s with best := v, bestX := some x, targets := t, dat := s.dat ++ [line], lastDat := some s.evals }
    else .ok { s with best := v, bestX := some x, targets := t }
  else .ok s

/-- `logger_bbob_evaluate` on a finite solution, `/repo/src/logger_bbob.c` lines 363-471. -/
noncomputable def evaluate (P : Params T) (s : State T) (x : List Dbl) (y : Dbl) (cons : List Dbl) : Res (State T) :=
  if s.tainted then .error
  else
    (Res.assert (decide (P.optKnown = true ∧ feasible cons = true → loggedValue y + 1 / 10 ^ 13 ≥ P.opt))).bind fun _ =>
    let s := { s with initialized := true, evals := s.evals + 1, numCons := s.consEvals }
    (updateBest P s x y cons).bind fun s =>
    (Triggers.evalTrigger s.evaluations (s.evals + s.numCons)).bind fun (b, e) =>
    let line := outputLine P.ncons P.opt s.evals s.numCons x (loggedValue y) s.best (some cons)
    let s := { s with evaluations := e }
    let s := if b then { s with tdat := s.tdat ++ [line], lastTdat := some s.evals } else s
    .ok (if s.restarted then { s with rdat := s.rdat ++ [line], restarted := false } else s)

/-- `coco_evaluate_function` of the observed problem, `/repo/src/coco_problem.c` lines 29-70: the logger is not
called for a solution that is not finite. -/
noncomputable def evaluateOp (P : Params T) (s : State T) (x : List Dbl) (y : Dbl) (cons : List Dbl) : Res (State T) :=
  if x.all Dbl.isFinite then evaluate P s x y cons else .ok s

/-- `logger_bbob_recommend`, `/repo/src/logger_bbob.c` lines 477-553. -/
def recommend (P : Params T) (s : State T) (x : List Dbl) (y : Dbl) (cons : List Dbl) : Res (State T) :=
  let s := { s with initialized := true }
  (Res.assert (decide (P.optKnown = true ∧ (feasible cons && x.all Dbl.isFinite || decide (P.ncons = 0)) = true →
    loggedValue y + 1 / 10 ^ 13 ≥ P.opt))).bind fun _ =>
  let v := value P y cons
  if v < s.bestRec then
    (P.trigger s.mTargets (v - P.opt)).bind fun (fire, t) =>
    let s := { s with bestRec := v, bestRecX := some x, mTargets := t }
    if fire then
      .ok { s with mdat := s.mdat ++ [outputLine P.ncons P.opt s.evals s.numCons x (loggedValue y) s.bestRec (some cons)]
                   lastMdat := s.evals }
    else .ok s
  else .ok s

/-- The last line of the dat or tdat file, `/repo/src/logger_bbob.c` lines 576-579 and 584-587. Reading an
indeterminate field is undefined. -/
def finalLine (P : Params T) (s : State T) (last : Option Nat) : Res (List Line) :=
  match last with
  | none => .ub
  | some l =>
    if s.evals ≠ l then
      match s.bestX with
      | none => .ub
      | some x => .ok [outputLine P.ncons P.opt s.evals s.numCons x s.best s.best none]
    else .ok []

/-- The last line of the mdat file, `/repo/src/logger_bbob.c` lines 597-600. -/
def finalRecLine (P : Params T) (s : State T) : Res (List Line) :=
  if s.evals ≠ s.lastMdat ∧ s.lastMdat ≠ 0 then
    match s.bestRecX with
    | none => .ub
    | some x => .ok [outputLine P.ncons P.opt s.evals s.numCons x s.bestRec s.bestRec none]
  else .ok []

/-- `logger_bbob_free`, `/repo/src/logger_bbob.c` lines 558-640. -/
def finish (P : Params T) (s : State T) : Res (State T) :=
  if s.initialized then
    (finalLine P s s.lastDat).bind fun l1 =>
    (finalLine P s s.lastTdat).bind fun l2 =>
    (finalRecLine P s).bind fun l3 =>
      .ok { s with info := s.info ++ [(s.evals, s.best - P.opt)], dat := s.dat ++ l1, tdat := s.tdat ++ l2,
                   mdat := s.mdat ++ l3 }
  else .ok s

/-- The calls on an observed problem. -/
inductive Op where
  | evaluate (x : List Dbl) (y : Dbl) (cons : List Dbl)
  | evaluateConstraint (x : List Dbl)
  | recommend (x : List Dbl) (y : Dbl) (cons : List Dbl)
  | restart
  | bestParameter

/-- One call. `coco_evaluate_constraint` (`/repo/src/coco_problem.c` lines 81-113) counts finite solutions,
`logger_bbob_signal_restart` is `/repo/src/logger_bbob.c` lines 655-662, and `coco_problem_get_best_parameter`
(`/repo/src/coco_problem.c` lines 634-650) marks the problem (it has one objective and a best parameter). -/
noncomputable def step (P : Params T) (s : State T) : Op → Res (State T)
  | .evaluate x y cons => evaluateOp P s x y cons
  | .evaluateConstraint x => .ok (if x.all Dbl.isFinite then { s with consEvals := s.consEvals + 1 } else s)
  | .recommend x y cons => recommend P s x y cons
  | .restart => .ok (if s.evals > 0 then { s with restarted := true } else s)
  | .bestParameter => .ok { s with tainted := true }

/-- A sequence of calls. -/
noncomputable def run (P : Params T) (s : State T) : List Op → Res (State T)
  | [] => .ok s
  | op :: ops => (step P s op).bind fun s => run P s ops

end LoggerBbob
