import Verif.Base.Res

/-!
# Model of the signalling of restarts to observers

`coco_observer_signal_restart` of `/repo/src/coco_observer.c`, the functions it calls in `/repo/src/logger_bbob.c` and
`/repo/src/logger_biobj.c`, and what the loggers of an observed problem do with the signal at the next evaluation.
-/

namespace Restart

/-- The kinds of observers, `/repo/src/observer_bbob.c`, `observer_biobj.c`, `observer_toy.c`, `observer_rw.c` and
`observer_bbob_old.c`. -/
inductive Kind
  | bbob | biobj | toy | rw | old
deriving DecidableEq

/-- Whether `restart_function` is set: `/repo/src/observer_bbob.c` line 94 and `/repo/src/observer_biobj.c` line 147, but
`/repo/src/observer_toy.c` line 77, `/repo/src/observer_rw.c` line 104 and `/repo/src/observer_bbob_old.c` line 30. -/
def Kind.hasRestart : Kind → Bool
  | .bbob => true
  | .biobj => true
  | _ => false

/-- An observer (`coco_observer_s`, `/repo/src/coco_internal.h`), with a number that identifies it, `is_active`, and whether a
bi-objective observer computes indicators (`compute_indicators` of `/repo/src/observer_biobj.c`; of no meaning for the other kinds). The
other fields are left out. -/
structure Observer where
  id : Nat
  kind : Kind
  active : Bool
  indicators : Bool
deriving DecidableEq

/-- The data of a logger: the observer it belongs to, `num_func_evaluations` and `algorithm_restarted` (`/repo/src/logger_bbob.c` lines
57 and 65, `/repo/src/logger_biobj.c` lines 130 and 132), and the evaluation numbers of the lines in its rdat file. The other columns
and the other files are left out (see `LoggerBbob` and `LoggerBiobj`). Toy, rw and old loggers have no `algorithm_restarted`. -/
structure Layer where
  observer : Observer
  evals : Nat
  restarted : Bool
  rdat : List Nat
deriving DecidableEq

/-- A problem with its loggers, outermost first; `plainData` says whether the problem below them has data of its own
(`problem->data` and the `data` in it are not `NULL`). -/
structure State where
  layers : List Layer
  plainData : Bool
deriving DecidableEq

/-- A logger as allocated: `logger_bbob` (`/repo/src/logger_bbob.c` lines 664-760, here lines 692 and 700) and `logger_biobj`
(`/repo/src/logger_biobj.c`, here lines 1047 and 1054). -/
def fresh (o : Observer) : Layer := ⟨o, 0, false, []⟩

/-- `coco_problem_add_observer`, `/repo/src/coco_observer.c` lines 803-817: nothing for no observer or an inactive one. Errors of the
allocation of the logger are left out. -/
def add (o : Option Observer) (s : State) : State :=
  match o with
  | none => s
  | some o => if o.active then { s with layers := fresh o :: s.layers } else s

/-- `logger_bbob_evaluate` (`/repo/src/logger_bbob.c` lines 363-471, here 388 and 461-464), `logger_biobj_evaluate` with
`logger_biobj_output` (`/repo/src/logger_biobj.c` lines 748-796 and 660-742, here 761 and 731-739): the rdat line is written only if
indicators are computed, the flag is cleared in either case. The other loggers only count (the old logger and the toy logger have no
restart at all). -/
def layerEvaluate (l : Layer) : Layer :=
  let n := l.evals + 1
  match l.observer.kind with
  | .bbob => { l with evals := n, restarted := false, rdat := if l.restarted then l.rdat ++ [n] else l.rdat }
  | .biobj =>
    { l with evals := n, restarted := false,
             rdat := if l.restarted && l.observer.indicators then l.rdat ++ [n] else l.rdat }
  | _ => { l with evals := n }

/-- `coco_evaluate_function` (`/repo/src/coco_problem.c` lines 29-70) at a point without `NaN` and infinite coordinates, for which every
logger calls that of its inner problem. Evaluations that stop the program are left out. -/
def evaluate (s : State) : State := { s with layers := s.layers.map layerEvaluate }

/-- `logger_bbob_signal_restart`, `/repo/src/logger_bbob.c` lines 655-662, and `logger_biobj_signal_restart`,
`/repo/src/logger_biobj.c` lines 1003-1010: the data of the outermost object (`coco_problem_transformed_get_data`,
`/repo/src/coco_problem.c` lines 732-738) is taken for data of a logger of the kind of the function, whatever it is. A problem without
data fails the assertion. -/
def restartFunction (k : Kind) (s : State) : Res State :=
  match s.layers with
  | [] => if s.plainData then .ub else .assertFail
  | l :: ls =>
    if l.observer.kind = k then
      .ok { s with layers := (if l.evals > 0 then { l with restarted := true } else l) :: ls }
    else .ub

/-- `coco_observer_signal_restart`, `/repo/src/coco_observer.c` lines 889-903. Messages are left out. -/
def signal (o : Option Observer) (s : State) : Res State :=
  match o with
  | none => .ok s
  | some o =>
    if o.active = false then .ok s
    else if o.kind.hasRestart then restartFunction o.kind s
    else .ok s

/-- Calls of the user: `coco_evaluate_function` (`/repo/src/coco_problem.c` lines 29-70) and `coco_observer_signal_restart`
(`/repo/src/coco_observer.c` lines 889-903). -/
inductive Op
  | evaluate
  | signal (o : Option Observer)
deriving DecidableEq

/-- One call, `/repo/src/coco_problem.c` lines 29-70 and `/repo/src/coco_observer.c` lines 889-903. -/
def step (s : State) : Op → Res State
  | .evaluate => .ok (evaluate s)
  | .signal o => signal o s

/-- A sequence of calls (of the functions in `/repo/src/coco_problem.c` lines 29-70 and `/repo/src/coco_observer.c` lines 889-903). -/
def run : State → List Op → Res State
  | s, [] => .ok s
  | s, op :: ops => (step s op).bind fun s => run s ops

end Restart
