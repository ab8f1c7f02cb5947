import Verif.Base.Res
import Mathlib.Data.Real.Basic

/-!
# Model of revealing the optimum of an observed problem

`coco_problem_get_best_parameter`, `coco_problem_is_tainted` and `bbob_problem_best_parameter_print` of
`/repo/src/coco_problem.c`, adding and removing observers (`/repo/src/coco_observer.c`) and the check of the bbob logger
(`/repo/src/logger_bbob.c`), for a problem with one objective under any number of loggers.
-/

namespace Tainted

/-- The kinds of observers for problems with one objective, `/repo/src/observer_bbob.c`, `observer_bbob_old.c`,
`observer_toy.c` and `observer_rw.c`. An observer is represented by its kind, since removing one compares only names
(`/repo/src/coco_observer.c` lines 845-846). -/
inductive Kind
  | bbob | old | toy | rw
deriving DecidableEq

/-- A logger around a problem: the kind of its observer and `is_tainted` of the wrapping problem
(`/repo/src/coco_internal.h` line 160). -/
structure Layer where
  kind : Kind
  tainted : Bool
deriving DecidableEq

/-- A problem with one objective and a known optimal solution (`best_parameter`, the same for all wrapping problems,
`/repo/src/coco_problem.c` lines 231-236), `is_tainted` of the problem itself, and its loggers, outermost first. The
transformations inside the problem are not distinguished. -/
structure State where
  optimum : List ℝ
  plain : Bool
  layers : List Layer

/-- A problem without observers, as allocated (`/repo/src/coco_problem.c` line 189). -/
def start (optimum : List ℝ) : State := ⟨optimum, false, []⟩

/-- `is_tainted` of the object the user holds: the outermost logger or the problem itself
(`coco_problem_is_tainted`, `/repo/src/coco_problem.c` line 659). -/
def isTainted (s : State) : Bool :=
  match s.layers with
  | [] => s.plain
  | l :: _ => l.tainted

/-- `coco_problem_add_observer` with an active observer, `/repo/src/coco_observer.c` lines 804-817: the wrapping problem
is a copy of the wrapped one including `is_tainted` (`/repo/src/coco_problem.c` line 237). -/
def add (k : Kind) (s : State) : State := { s with layers := ⟨k, isTainted s⟩ :: s.layers }

/-- `coco_problem_remove_observer` with an active observer, `/repo/src/coco_observer.c` lines 828-857: an error if the
outermost logger has another name; names of problems are not those of observers. The inner problem is returned as it is. -/
def remove (k : Kind) (s : State) : Res State :=
  match s.layers with
  | [] => .error
  | l :: ls => if l.kind = k then .ok { s with layers := ls } else .error

/-- `coco_problem_get_best_parameter`, `/repo/src/coco_problem.c` lines 634-651, for a problem with one objective: only
the object given is marked. -/
def ask (s : State) : State × List ℝ :=
  (match s.layers with
    | [] => { s with plain := true }
    | l :: ls => { s with layers := { l with tainted := true } :: ls }, s.optimum)

/-- The evaluation by the loggers, from the outermost (`/repo/src/logger_bbob.c` lines 363-374): only the bbob logger
checks whether its problem or the inner one is tainted; `logger_bbob_old_evaluate`, `logger_toy_evaluate` and
`logger_rw_evaluate` do not. The result is the list of the loggers that took part. -/
def evaluateLayers (plain : Bool) : List Layer → Res (List Kind)
  | [] => .ok []
  | l :: ls =>
    if l.kind = .bbob ∧ (l.tainted ∨ isTainted ⟨[], plain, ls⟩) then .error
    else (evaluateLayers plain ls).bind fun ks => .ok (l.kind :: ks)

/-- Calls of the user. -/
inductive Op
  | add (k : Kind)
  | remove (k : Kind)
  | ask
  | asked
  | print
  | evaluate
deriving DecidableEq

/-- What a call returns: the loggers that recorded an evaluation, the optimum in memory, the optimum in the file
`._bbob_problem_best_parameter.txt`, or `is_tainted`. -/
inductive Out
  | nothing
  | point (x : List ℝ)
  | file (x : List ℝ)
  | flag (b : Bool)
  | logged (ks : List Kind)

/-- One call. `print` is `bbob_problem_best_parameter_print`, `/repo/src/coco_problem.c` lines 661-672 (the file can be
opened; numbers are written exactly); `evaluate` is `coco_evaluate_function` at a point without `NaN` and infinite
coordinates, `/repo/src/coco_problem.c` lines 29-70, without other reasons to stop. -/
def step (s : State) : Op → Res (State × Out)
  | .add k => .ok (add k s, .nothing)
  | .remove k => (remove k s).bind fun s => .ok (s, .nothing)
  | .ask => .ok ((ask s).1, .point (ask s).2)
  | .asked => .ok (s, .flag (isTainted s))
  | .print => .ok (s, .file s.optimum)
  | .evaluate => (evaluateLayers s.plain s.layers).bind fun ks => .ok (s, .logged ks)

/-- A sequence of calls with everything returned (of the functions of `step`, `/repo/src/coco_problem.c` lines 29-70 and
634-672, `/repo/src/coco_observer.c` lines 804-857). -/
def run : State → List Op → Res (State × List Out)
  | s, [] => .ok (s, [])
  | s, op :: ops => (step s op).bind fun (s, o) => (run s ops).bind fun (s, os) => .ok (s, o :: os)

end Tainted
