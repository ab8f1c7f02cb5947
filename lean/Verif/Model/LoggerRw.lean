import Verif.Model.Options
import Verif.Base.Dbl

/-!
Model of the logger and the observer for real-world problems, `/repo/src/logger_rw.c` and
`/repo/src/observer_rw.c`. The objective and constraint values of an evaluated solution are inputs. A line of
the log is modelled by the values it shows, before formatting. File names, the header and the evaluation time
are not modelled.
-/

namespace LoggerRw
open CStr Options

/-- `observer_rw_log_e`, `/repo/src/observer_rw.c` line 12. -/
inductive Mode where
  | never | lowDim | always
deriving DecidableEq

/-- `observer_rw_data_t`, `/repo/src/observer_rw.c` lines 17-25. `none` stands for an indeterminate value
(a field that was not assigned). -/
structure Observer where
  varsMode : Mode
  consMode : Mode
  lowDimVars : Option Nat
  lowDimCons : Option Nat
  onlyBetter : Option Int
  time : Option Int
deriving DecidableEq

/-- A mode option, `/repo/src/observer_rw.c` lines 72-80 and 82-90, with a buffer of `pathMax + 1` characters. -/
def modeOption (pathMax : Nat) (options key : List Char) : Res Mode :=
  (readString options key (pathMax + 1)).bind fun (n, v) =>
    if n > 0 then
      if v = some "none".toList then .ok .never
      else if v = some "all".toList then .ok .always
      else if v = some "low_dim".toList then .ok .lowDim
      else .ok .always
    else .ok .always

/-- `observer_rw`, `/repo/src/observer_rw.c` lines 60-107. A field keeps its (indeterminate) initial value when
the count is not 0 but nothing is stored. -/
def observer (pathMax : Nat) (options : List Char) : Res Observer :=
  (modeOption pathMax options "log_variables".toList).bind fun vm =>
  (modeOption pathMax options "log_constraints".toList).bind fun cm =>
  (readSizeT options "low_dim_vars".toList).bind fun (n1, lv) =>
  (readSizeT options "low_dim_cons".toList).bind fun (n2, lc) =>
  (readInt options "log_only_better".toList).bind fun (n3, ob) =>
  (readInt options "log_time".toList).bind fun (n4, lt) =>
  .ok ⟨vm, cm, if n1 = 0 then some 10 else lv, if n2 = 0 then some 10 else lc, if n3 = 0 then some 0 else ob,
    if n4 = 0 then some 0 else lt⟩

/-- The dimensions of the observed problem used by the logger. -/
structure Sizes where
  nvar : Nat
  nobj : Nat
  ncons : Nat

/-- One line of the log, `/repo/src/logger_rw.c` lines 94-115: the two counters, the objective values, and the
decision and constraint values if they are logged. -/
structure Line where
  f : Nat
  g : Nat
  y : List Dbl
  x : Option (List Dbl)
  cons : Option (List Dbl)
deriving DecidableEq

/-- `logger_rw_data_t`, `/repo/src/logger_rw.c` lines 32-50, with the written lines. -/
structure State where
  evals : Nat
  best : Dbl
  logVars : Bool
  logCons : Bool
  onlyBetter : Bool
  lines : List Line
deriving DecidableEq

/-- Reading an `int` or `size_t` field that may be indeterminate. -/
def readField {α : Type} (o : Option α) : Res α :=
  match o with
  | some v => .ok v
  | none => .ub

/-- The decisions of `logger_rw`, `/repo/src/logger_rw.c` lines 166-178 (`&&` and `||` are evaluated from left
to right). -/
def notLogged (mode : Mode) (size : Nat) (low : Option Nat) (never : Bool) : Res Bool :=
  if mode = .lowDim then (readField low).bind fun l => .ok (decide (size > l) || never)
  else .ok (decide (mode = .never) || never)

/-- `logger_rw`, `/repo/src/logger_rw.c` lines 148-226. -/
def init (o : Observer) (d : Sizes) : Res State :=
  (notLogged o.varsMode d.nvar o.lowDimVars false).bind fun nv =>
  (notLogged o.consMode d.ncons o.lowDimCons (decide (d.ncons = 0))).bind fun nc =>
  (readField o.onlyBetter).bind fun ob =>
  (readField o.time).bind fun _ =>
    .ok ⟨0, .fin Dbl.dblMax, !nv, !nc, decide (ob ≠ 0) && decide (d.nobj = 1), []⟩

/-- `logger_rw_evaluate`, `/repo/src/logger_rw.c` lines 56-121; `g` is `problem->evaluations_constraints`. The
first objective value of a problem with one objective is read. -/
def evaluate (d : Sizes) (s : State) (g : Nat) (x y cons : List Dbl) : Res State :=
  let evals := s.evals + 1
  (if d.nobj = 1 then
      match y with
      | [] => Res.ub
      | y0 :: _ => if Dbl.lt y0 s.best then Res.ok (y0, true) else Res.ok (s.best, !s.onlyBetter)
    else Res.ok (s.best, true)).bind fun (best, logThis) =>
  .ok { s with
    evals := evals, best := best
    lines := if decide (evals = 1) || logThis then
        s.lines ++ [⟨evals, g, y, if s.logVars then some x else none, if s.logCons then some cons else none⟩]
      else s.lines }

/-- The evaluations of an observed problem, one after the other: the number of constraint evaluations, the
solution, its objective values and its constraint values. -/
def run (d : Sizes) (s : State) : List (Nat × List Dbl × List Dbl × List Dbl) → Res State
  | [] => .ok s
  | (g, x, y, cons) :: es => (evaluate d s g x y cons).bind fun s => run d s es

end LoggerRw
