import Verif.Model.Options

/-!
Model of the log level (`/repo/src/coco_utilities.c`, `/repo/src/coco_runtime_c.c`), of formatted string
duplication (`/repo/src/coco_string.c`) and of wrapping problems in observers
(`/repo/src/coco_observer.c`, `/repo/src/coco_problem.c`).
-/

namespace Observer
open CStr Str Options

/-! ### Log level -/

/-- `coco_log_level_type_e`, `/repo/src/coco.h` lines 117-122, with the order of its values. -/
inductive Level where
  | error | warning | info | debug
deriving DecidableEq, Repr

/-- The numerical value of the enumerators of `coco_log_level_type_e`. -/
def Level.num : Level → Nat
  | .error => 0
  | .warning => 1
  | .info => 2
  | .debug => 3

/-- The strings returned in `/repo/src/coco_utilities.c` lines 66-73. -/
def Level.name : Level → List Char
  | .error => "error".toList
  | .warning => "warning".toList
  | .info => "info".toList
  | .debug => "debug".toList

/-- What reaches the user: a message of a level. -/
structure Msg where
  level : Level
  text : List Char
deriving DecidableEq

/-- Printing functions: `coco_warning`, `coco_info`, `coco_info_partial`, `coco_debug` of
`/repo/src/coco_runtime_c.c` lines 27-78. `coco_error` (lines 16-25) prints unconditionally and ends the
process. Prefixes and the stream are not modelled. -/
def emit (cur : Level) (m : Msg) : List Msg :=
  match m.level with
  | .error => [m]
  | .warning => if cur.num ≥ Level.warning.num then [m] else []
  | .info => if cur.num ≥ Level.info.num then [m] else []
  | .debug => if cur.num ≥ Level.debug.num then [m] else []

/-- The text of the warning of `/repo/src/coco_utilities.c` line 62. -/
def unknownLevel (name : List Char) : List Char := "coco_set_log_level(): unknown level ".toList ++ name

/-- `coco_set_log_level`, `/repo/src/coco_utilities.c` lines 47-77: new level, printed messages, returned
string. -/
def setLogLevel (cur : Level) (name : List Char) : Level × List Msg × List Char :=
  let prev := cur
  let (cur, out) :=
    if name = "error".toList then (Level.error, [])
    else if name = "warning".toList then (Level.warning, [])
    else if name = "info".toList then (Level.info, [])
    else if name = "debug".toList then (Level.debug, [])
    else if name = [] then (cur, [])
    else (cur, emit cur ⟨.warning, unknownLevel name⟩)
  (cur, out,
    match prev with
    | .error => "error".toList
    | .warning => "warning".toList
    | .info => "info".toList
    | .debug => "debug".toList)

/-- The initial value, `/repo/src/coco_utilities.c` line 33. -/
def initLevel : Level := .info

/-- A call concerning the log level. -/
inductive LevelCall where
  | set (name : List Char)
  | message (m : Msg)

/-- The effect of a sequence of calls: the final level, the printed messages and the strings returned by
the calls of `coco_set_log_level`. (Messages of level error are not followed by anything in the real
process; the model goes on.) -/
def levelRun (cur : Level) : List LevelCall → Level × List Msg × List (List Char)
  | [] => (cur, [], [])
  | .set n :: cs =>
    let (cur', out, r) := setLogLevel cur n
    let (fin, outs, rs) := levelRun cur' cs
    (fin, out ++ outs, r :: rs)
  | .message m :: cs =>
    let (fin, outs, rs) := levelRun cur cs
    (fin, emit cur m ++ outs, rs)

/-! ### Formatted duplication -/

/-- `coco_vstrdupf`, `/repo/src/coco_string.c` lines 42-68, and `coco_strdupf`, lines 75-83; the argument is
the formatted text, i.e. what `vsprintf` writes into the static buffer of 444 characters (terminator
included). The test of the length of the format string (always a literal here) is left out. -/
def strdupf (text : List Char) : Res (List Char) :=
  if 444 < text.length + 1 then .ub
  else if text.length > 444 - 3 then .error
  else .ok text

/-! ### Wrapping -/

/-- A problem as far as names and wrapping are concerned: a raw problem (with an identity) or a problem
wrapped by `coco_problem_transformed_allocate`, which keeps a pointer to the inner problem. -/
inductive Prob where
  | raw (id : Nat) (name : List Char)
  | wrapped (name : List Char) (inner : Prob)
deriving DecidableEq

/-- `problem->problem_name`, `/repo/src/coco_internal.h`. -/
def Prob.name : Prob → List Char
  | .raw _ n => n
  | .wrapped n _ => n

/-- The fields `observer_name` and `is_active` of an observer, `/repo/src/coco_internal.h`. -/
structure Obs where
  name : List Char
  active : Bool
deriving DecidableEq

/-- `coco_problem_transformed_allocate`, `/repo/src/coco_problem.c` lines 850-874, with
`coco_problem_set_name`, lines 401-409. -/
def transformedAllocate (inner : Prob) (pfx : List Char) : Res Prob :=
  (strdupf (pfx ++ ['('] ++ inner.name ++ [')'])).bind fun n => .ok (.wrapped n inner)

/-- `coco_problem_add_observer`, `/repo/src/coco_observer.c` lines 804-817. Every
`logger_allocate_function` wraps the problem with the prefix `observer_name`:
`/repo/src/logger_bbob.c` line 731, `/repo/src/logger_bbob_old.c` line 617, `/repo/src/logger_biobj.c` line
1121, `/repo/src/logger_rw.c` line 222, `/repo/src/logger_toy.c` line 93. What else the loggers do when
they are created is not modelled here. -/
def addObserver (p : Option Prob) (o : Option Obs) : Res (Option Prob) :=
  match p with
  | none => .ok none
  | some q =>
    match o with
    | none => .ok (some q)
    | some o => if o.active = false then .ok (some q) else (transformedAllocate q o.name).bind fun r => .ok (some r)

/-- `coco_problem_remove_observer`, `/repo/src/coco_observer.c` lines 828-862; the inner problem of a raw
problem is `problem->data` read as a different structure. -/
def removeObserver (p : Option Prob) (o : Option Obs) : Res (Option Prob) :=
  match o with
  | none => .ok p
  | some o =>
    if o.active = false then .ok p
    else
      match p with
      | none => .ub
      | some q =>
        (removeFromString q.name ['('] []).bind fun pfx =>
          if pfx ≠ o.name then .error
          else
            match q with
            | .raw _ _ => .ub
            | .wrapped _ inner => .ok (some inner)

/-! ### Creation of an observer -/

/-- The observer names recognised by `coco_observer`, `/repo/src/coco_observer.c` lines 735-759. -/
def known (name : List Char) : Bool :=
  decide (name ∈ ["toy".toList, "bbob".toList, "bbob-old".toList, "bbob-boxed".toList, "bbob-biobj".toList,
    "bbob-biobj-ext".toList, "bbob-largescale".toList, "bbob-mixint".toList, "bbob-biobj-mixint".toList,
    "rw".toList, "bbob-noisy".toList])
  || decide (name.take 16 = "bbob-constrained".toList)

/-- Whether `coco_observer` returns an observer or NULL, and its name and state:
`/repo/src/coco_observer.c` lines 596-602, 735-763 and 457. Folders, the data of the specific observers and
warnings are not modelled. -/
def observer (name : List Char) : Option Obs :=
  if name = "no_observer".toList then none
  else if name.length = 0 then none
  else if known name then some ⟨name, true⟩
  else none

/-- An integer option with its default and its check: `/repo/src/coco_observer.c` lines 678-686 (also
688-696, 698-706, 708-716). -/
def intOption (options key : List Char) (default lo hi : Int) : Res Int :=
  (readInt options key).bind fun (n, v) =>
    let x := v.getD default
    if n ≠ 0 then (if x < lo ∨ x > hi then .ok default else .ok x) else .ok default

/-- A `size_t` option with its default and lower bound: `/repo/src/coco_observer.c` lines 633-641 (lower
bound 0, the test `number_target_triggers < 0` is never true for an unsigned number) and 663-671. -/
def sizeOption (options key : List Char) (default lo : Nat) : Res Nat :=
  (readSizeT options key).bind fun (n, v) =>
    let x := v.getD default
    if n ≠ 0 then (if x < lo then .ok default else .ok x) else .ok default

/-- The integer settings of an observer. -/
structure Settings where
  targetTriggers : Nat
  evaluationTriggers : Nat
  precisionX : Int
  precisionF : Int
  precisionG : Int
  discreteAsInt : Int
deriving DecidableEq

/-- The integer options of `coco_observer`, `/repo/src/coco_observer.c` lines 633-641, 663-671 and
678-716. The string and the two floating-point options (lines 609-631, 643-661, 673-676) are left out. -/
def settings (options : List Char) : Res Settings :=
  (sizeOption options "number_target_triggers".toList 100 0).bind fun t =>
  (sizeOption options "number_evaluation_triggers".toList 20 4).bind fun e =>
  (intOption options "precision_x".toList 8 1 32).bind fun x =>
  (intOption options "precision_f".toList 15 1 32).bind fun f =>
  (intOption options "precision_g".toList 3 1 32).bind fun g =>
  (intOption options "log_discrete_as_int".toList 0 0 1).bind fun d =>
  .ok ⟨t, e, x, f, g, d⟩

end Observer
