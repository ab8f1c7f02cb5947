import Verif.Model.Triggers

/-!
# Model of the toy logger

`/repo/src/logger_toy.c` and the log file of `/repo/src/observer_toy.c`. All problems observed by one observer share its
log file. The file is a list of entries; how numbers are printed (`precision_x`, `precision_f`), the empty line before a
heading and the line of column titles after it are not modelled. The value the inner problem gives is an input of the
model: a real number, or the infinity that `/repo/src/transform_vars_enforce_box.c` gives outside the box. (A point with
NaN or infinite coordinates does not reach the logger, `/repo/src/coco_problem.c`, see C19.) Targets as in
`Verif.Model.Triggers`, in exact arithmetic.
-/

noncomputable section

namespace LoggerToy
open Triggers

/-- The value of an objective function, see above. -/
inductive Value where
  | real (v : ℝ)
  | infinite

/-- What is printed about a problem, `/repo/src/logger_toy.c` lines 98-103: suite, id, name, number of variables. -/
structure Info where
  suite : String
  id : String
  name : String
  dimension : Nat
  deriving DecidableEq

/-- A heading (`/repo/src/logger_toy.c` lines 98-103) or a line (lines 60-65) of the log file: number of evaluations, value, target, solution. -/
inductive Entry where
  | heading (info : Info)
  | line (number : Nat) (value : ℝ) (target : ℝ) (solution : List ℝ)

/-- `logger_toy_data_t`, `/repo/src/logger_toy.c` lines 22-28, without the precisions and the file, which belongs to the
observer (line 89). -/
structure Logger where
  evaluations : Nat
  targets : LogTargets

/-- The log file of the observer and the loggers made so far, with `none` for a freed one. -/
structure State where
  file : List Entry
  loggers : List (Option Logger)

/-- The observer opens the file for appending, `/repo/src/observer_toy.c` line 66: `old` is what the file contains. -/
def start (old : List Entry) : State := ⟨old, []⟩

/-- Settings of the observer: `number_target_triggers` and `log_target_precision` (`/repo/src/logger_toy.c` line 88),
and `DBL_MAX`. -/
structure Settings where
  triggers : Nat
  precision : ℝ
  dblMax : ℝ

/-- `coco_observer_log_targets_trigger` for any value: the conversion of infinity to `int`
(`/repo/src/coco_observer.c` line 155) is undefined. -/
def trigger (t : LogTargets) : Value → Res (Bool × LogTargets)
  | .real v => logTrigger t v
  | .infinite => .ub

/-- What the user does: observe a problem, evaluate a solution `x` on the problem observed as number `k` (from 0), which
gives `y`, or free that problem. -/
inductive Op where
  | observe (info : Info)
  | evaluate (k : Nat) (x : List ℝ) (y : Value)
  | free (k : Nat)

/-- `logger_toy` (`/repo/src/logger_toy.c` lines 75-106), `logger_toy_evaluate` (lines 50-71) and `logger_toy_free` (lines
33-44). To use a freed problem is undefined. -/
def step (c : Settings) (s : State) : Op → Res State
  | .observe info =>
    .ok { file := s.file ++ [.heading info]
          loggers := s.loggers ++ [some ⟨0, logInit c.dblMax c.triggers c.precision⟩] }
  | .evaluate k x y =>
    match s.loggers[k]? with
    | some (some l) =>
      (trigger l.targets y).bind fun r =>
      let l' : Logger := ⟨l.evaluations + 1, r.2⟩
      let written := match r.1, y with
        | true, .real v => [Entry.line (l.evaluations + 1) v r.2.value x]
        | _, _ => []
      .ok { file := s.file ++ written
            loggers := s.loggers.set k (some l') }
    | _ => .ub
  | .free k =>
    match s.loggers[k]? with
    | some (some _) => .ok { s with loggers := s.loggers.set k none }
    | _ => .ub

/-- A sequence of calls. -/
def run (c : Settings) (s : State) : List Op → Res State
  | [] => .ok s
  | op :: ops => (step c s op).bind fun s => run c s ops

end LoggerToy
