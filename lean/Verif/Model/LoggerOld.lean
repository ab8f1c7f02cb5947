import Verif.Model.LoggerBbob

/-!
# Model of the lines written by the old bbob logger

`/repo/src/logger_bbob_old.c`, lines 29-182 and 405-623 (files and names are in `Verif.Model.OldFiles`). As for the bbob logger
(`Verif.Model.LoggerBbob`), the objective value and the constraint values of a solution are inputs, a line of a data file is modelled by
the values it shows, before formatting, and with all its variables (the code leaves them out if 22 or more are continuous, line 170).
Sums and differences are exact.
-/

namespace LoggerOld
open LoggerBbob (Line Col Params loggedValue addDbl feasible)

/-- `single_digit_constraint_value`, `/repo/src/logger_bbob_old.c` lines 107-115 (the loop). -/
def digitLoop (c : Dbl) : Nat → List ℚ → Nat
  | _, [] => 9
  | i, l :: ls => if Dbl.le c (.fin l) then i else digitLoop c (i + 1) ls

/-- `single_digit_constraint_value`, `/repo/src/logger_bbob_old.c` lines 107-115. -/
def digit (c : Dbl) : Nat :=
  digitLoop c 0 [0, 1 / 10 ^ 7, 1 / 10 ^ 6, 1 / 10 ^ 5, 1 / 10 ^ 4, 1 / 10 ^ 3, 1 / 10 ^ 2, 1 / 10, 1]

/-- `logger_bbob_old_write_data`, `/repo/src/logger_bbob_old.c` lines 149-182; `cons = none` is a NULL pointer. -/
def writeData (f g : Nat) (cur best opt : ℚ) (x : List Dbl) (cons : Option (List Dbl)) (ncons : Nat) : Line :=
  ⟨f, g, best - opt, cur,
    if ncons > 0 then
      .digits (match cons with
        | some c => c.map digit
        | none => (List.range ncons).map (· % 10))
    else .best best, x⟩

/-- `sum_cons`, `/repo/src/logger_bbob_old.c` lines 448-457 (the weight of line 32 is 1). -/
def sumConstraints (cons : List Dbl) : ℚ :=
  loggedValue (cons.foldl (fun s v => if Dbl.lt (.fin 0) v then addDbl s v else s) (.fin 0))

/-- `logger_bbob_old_data_t`, `/repo/src/logger_bbob_old.c` lines 64-95, with the lines written to its files. `none` stands for an
indeterminate value. `consEvals` is `problem->evaluations_constraints`. -/
structure State (T : Type) where
  consEvals : Nat
  initialized : Bool
  evals : Nat
  numCons : Nat
  best : Option ℚ
  bestX : Option (List Dbl)
  writtenLast : Bool
  targets : T
  evaluations : Triggers.Evaluations
  dat : List Line
  tdat : List Line
  info : List (Nat × ℚ)

variable {T : Type}

/-- `logger_bbob_old`, `/repo/src/logger_bbob_old.c` lines 567-623. -/
def init (t : T) (base : List Nat) (dim : Nat) : State T :=
  { consEvals := 0, initialized := false, evals := 0, numCons := 0, best := none, bestX := none, writtenLast := false, targets := t,
    evaluations := Triggers.evalInit base dim, dat := [], tdat := [], info := [] }

/-- The optimal value, `/repo/src/logger_bbob_old.c` lines 590-597: 0 if it is not known. -/
def optimal (best : Option ℚ) : ℚ := best.getD 0

/-- What the logger is created with, `/repo/src/logger_bbob_old.c` lines 567-623: number of constraints, best value of the problem (`none`
if it is not known), and `coco_observer_log_targets_trigger`, see `Triggers.logTrigger`. The old logger takes every optimal value as known. -/
def params (ncons : Nat) (best : Option ℚ) (trigger : T → ℚ → Res (Bool × T)) : Params T := ⟨ncons, true, optimal best, trigger⟩

/-- Lines 459-479 of `/repo/src/logger_bbob_old.c`: the best value and the `.dat` file. -/
def updateBest (P : Params T) (s : State T) (x : List Dbl) (yLogged sum : ℚ) (cons : Option (List Dbl)) : Res (State T) :=
  let v := (if yLogged > P.opt then yLogged else P.opt) + sum
  let line := writeData s.evals s.numCons yLogged v P.opt x cons P.ncons
  if s.evals = 1 then .ok { s with best := some v, bestX := some x, dat := s.dat ++ [line] }
  else
    match s.best with
    | none => .ub
    | some b =>
      if v < b then
        (P.trigger s.targets (v - P.opt)).bind fun (fire, t) =>
        let s := { s with best := some v, bestX := some x, targets := t }
        .ok (if fire then { s with dat := s.dat ++ [line] } else s)
      else .ok s

/-- Lines 481-490 of `/repo/src/logger_bbob_old.c`: the `.tdat` file. -/
noncomputable def updateTdat (P : Params T) (s : State T) (x : List Dbl) (yLogged : ℚ) (cons : Option (List Dbl)) : Res (State T) :=
  (Triggers.evalTrigger s.evaluations (s.evals + s.numCons)).bind fun (b, e) =>
  let s := { s with evaluations := e }
  if b then
    match s.best with
    | none => .ub
    | some best => .ok { s with tdat := s.tdat ++ [writeData s.evals s.numCons yLogged best P.opt x cons P.ncons], writtenLast := true }
  else .ok s

/-- `logger_bbob_old_evaluate` on a finite solution, `/repo/src/logger_bbob_old.c` lines 408-496. `P.opt` is the value of `optimal`;
`cons` are the values of the constraints, used only if there are any (lines 444-448). -/
noncomputable def evaluate (P : Params T) (s : State T) (x : List Dbl) (y : Dbl) (cons : List Dbl) : Res (State T) :=
  let s := { s with initialized := true, numCons := s.consEvals, evals := s.evals + 1, writtenLast := false }
  let yLogged := loggedValue y
  (Res.assert (decide ((P.ncons = 0 ∨ feasible cons = true) → yLogged + 1 / 10 ^ 13 ≥ P.opt))).bind fun _ =>
  let given := if P.ncons > 0 then some cons else none
  let sum := sumConstraints (given.getD [])
  (updateBest P s x yLogged sum given).bind fun s =>
  updateTdat P s x yLogged given

/-- `logger_bbob_old_free`, `/repo/src/logger_bbob_old.c` lines 505-565: the files are open if a solution was evaluated. -/
def finish (P : Params T) (s : State T) : Res (State T) :=
  if s.initialized then
    match s.best with
    | none => .ub
    | some b =>
      let s := { s with info := s.info ++ [(s.evals, b - P.opt)] }
      if s.writtenLast then .ok s
      else
        match s.bestX with
        | none => .ub
        | some x => .ok { s with tdat := s.tdat ++ [writeData s.evals s.numCons b b P.opt x none 0] }
  else .ok s

/-- The calls that the logger sees. -/
inductive Op where
  | evaluate (x : List Dbl) (y : Dbl) (cons : List Dbl)
  | evaluateConstraint (x : List Dbl)

/-- One call: `coco_evaluate_function` (`/repo/src/coco_problem.c` lines 29-70: the logger is called for finite solutions only) and
`coco_evaluate_constraint` (lines 81-113: finite solutions are counted). -/
noncomputable def step (P : Params T) (s : State T) : Op → Res (State T)
  | .evaluate x y cons => if x.all Dbl.isFinite then evaluate P s x y cons else .ok s
  | .evaluateConstraint x => .ok (if x.all Dbl.isFinite then { s with consEvals := s.consEvals + 1 } else s)

/-- A sequence of calls. -/
noncomputable def run (P : Params T) (s : State T) : List Op → Res (State T)
  | [] => .ok s
  | op :: ops => (step P s op).bind fun s => run P s ops

end LoggerOld
