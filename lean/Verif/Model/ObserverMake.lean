import Verif.Model.FileSystem
import Verif.Model.Observer
import Verif.Model.LoggerRw
import Verif.Model.LoggerBiobj
import Verif.Base.Dbl

/-!
# Model of the creation of observers

`coco_observer`, `/repo/src/coco_observer.c` lines 565-792, with the specific parts of the observers. The options NULL are the
empty text here. `COCO_PATH_MAX` is 4096 (`/repo/src/coco_platform.h`, Linux). The conversion of a text to a floating-point number
by `sscanf` is a parameter. The warnings, among them the one on unknown keys (lines 765-789, see `Verif.Model.OptionKeys`), and the
memory are left out.
-/

namespace ObserverMake
open CStr Str Options FileSystem

/-- A text option with its default, `/repo/src/coco_observer.c` lines 609-614, 625-631 and 673-676, `/repo/src/observer_toy.c`
lines 56-58, `/repo/src/observer_bbob.c` lines 88-90: the buffer of `cap` characters is not initialised, and only filled with the
default if 0 is returned. -/
def textOption (options key default : List Char) (cap : Nat) : Res (List Char) :=
  (readString options key cap).bind fun (n, v) =>
    if n = 0 then .ok default
    else match v with
      | some v => .ok v
      | none => .ub

/-- `coco_options_read_double`, `/repo/src/coco_utilities.c` lines 815-817 with 757-779; `scan` is `sscanf` with the format `%lf`:
the returned count and the value stored, if any. -/
def readDouble (scan : List Char → Int × Option Dbl) (options name : List Char) : Res (Int × Option Dbl) :=
  (valueStart options name).bind fun
  | none => .ok (0, none)
  | some i2 => .ok (scan (options.drop i2))

/-- A precision with its default, `/repo/src/coco_observer.c` lines 643-651 and 653-661. -/
def precisionOption (scan : List Char → Int × Option Dbl) (options key : List Char) (default : Dbl) : Res Dbl :=
  (readDouble scan options key).bind fun (n, v) =>
    let x := v.getD default
    if n ≠ 0 then (if x.le (.fin 0) then .ok default else .ok x) else .ok default

/-- `observer_biobj_log_vars_e`, `/repo/src/observer_biobj.c` line 16. -/
inductive VarsMode where
  | never | lowDim | always
deriving DecidableEq

/-- The options in `observer_biobj_data_t`, `/repo/src/observer_biobj.c` lines 33-37. `none` stands for an indeterminate value. -/
structure Biobj where
  nondom : LoggerBiobj.Mode
  vars : VarsMode
  indicators : Option Int
  allData : Option Int
deriving DecidableEq

/-- `observer_biobj`, `/repo/src/observer_biobj.c` lines 91-155: the options and whether the observer stays active. Testing an
indeterminate value is undefined. -/
def biobj (options : List Char) : Res (Biobj × Bool) :=
  (readString options "log_nondominated".toList 4097).bind fun (n, v) =>
  let nondom : LoggerBiobj.Mode :=
    if n > 0 then
      if v = some "none".toList then .none
      else if v = some "final".toList then .final
      else if v = some "all".toList then .all
      else if v = some "read".toList then .read
      else .all
    else .all
  (readString options "log_decision_variables".toList 4097).bind fun (n, v) =>
  let vars : VarsMode :=
    if n > 0 then
      if v = some "none".toList then .never
      else if v = some "all".toList then .always
      else if v = some "low_dim".toList then .lowDim
      else .lowDim
    else .lowDim
  (readInt options "compute_indicators".toList).bind fun (n, v) =>
  let indicators := if n = 0 then some 1 else v
  (readInt options "produce_all_data".toList).bind fun (n, v) =>
  let allData := if n = 0 then some 0 else v
  match allData with
  | none => .ub
  | some a =>
    let b : Biobj := if a ≠ 0 then ⟨.all, .lowDim, some 1, some a⟩ else ⟨nondom, vars, indicators, some a⟩
    match b.indicators with
    | none => .ub
    | some i => .ok (b, !(decide (b.nondom = .none) && decide (i = 0)))

/-- The data of the specific observers. -/
inductive Specific where
  | toy (path : List Char)
  | bbob (prefix_ : List Char)
  | bbobOld
  | biobj (b : Biobj)
  | rw (r : LoggerRw.Observer)
deriving DecidableEq

/-- `fopen(path, "a")`: the file is created if it does not exist; fails for directories and if there is no directory to put it in.
Used in `/repo/src/observer_toy.c` line 66. -/
def openAppend (fs : FS) (path : List Char) : Res FS :=
  match fs path with
  | some .file => .ok fs
  | some .dir => .error
  | none =>
    if path ≠ [] ∧ (parent path = [] ∨ fs (parent path) = some .dir) then .ok (Function.update fs path (some .file)) else .error

/-- `observer_toy`, `/repo/src/observer_toy.c` lines 41-80. -/
def toy (fs : FS) (folder options : List Char) : Res (Specific × FS) :=
  (textOption options "file_name".toList "first_hitting_times.dat".toList 4097).bind fun value =>
  (createDirectory fs folder).bind fun (_, fs) =>
  (joinPath folder 4096 [value]).bind fun path =>
  (openAppend fs path).bind fun fs => .ok (.toy path, fs)

/-- `observer_bbob`, `/repo/src/observer_bbob.c` lines 71-99. -/
def bbob (options : List Char) : Res Specific :=
  (textOption options "prefix".toList "bbobexp".toList 4097).bind fun p => .ok (.bbob p)

/-- The choice of the specific observer, `/repo/src/coco_observer.c` lines 735-763: `none` for an unknown name. The flag tells
whether the observer is active. -/
def specific (fs : FS) (name folder options : List Char) : Res (Option (Specific × Bool) × FS) :=
  let single := (bbob options).bind fun s => .ok (some (s, true), fs)
  let double := (biobj options).bind fun (b, a) => .ok (some (Specific.biobj b, a), fs)
  if name = "toy".toList then (toy fs folder options).bind fun (s, fs) => .ok (some (s, true), fs)
  else if name = "bbob".toList then single
  else if name = "bbob-old".toList then .ok (some (.bbobOld, true), fs)
  else if name = "bbob-boxed".toList then single
  else if name = "bbob-biobj".toList then double
  else if name = "bbob-biobj-ext".toList then double
  else if name.take 16 = "bbob-constrained".toList then single
  else if name = "bbob-largescale".toList then single
  else if name = "bbob-mixint".toList then single
  else if name = "bbob-biobj-mixint".toList then double
  else if name = "rw".toList then (LoggerRw.observer 4096 options).bind fun r => .ok (some (.rw r, true), fs)
  else if name = "bbob-noisy".toList then single
  else .ok (none, fs)

/-- `coco_observer_t`, `/repo/src/coco_internal.h`, as filled by `coco_observer_allocate` (`/repo/src/coco_observer.c` lines
430-459) and the specific observer. -/
structure Made where
  name : List Char
  folder : List Char
  algorithm : List Char
  info : List Char
  numbers : Observer.Settings
  logPrecision : Dbl
  linPrecision : Dbl
  baseTriggers : List Char
  specific : Specific
  active : Bool
deriving DecidableEq

/-- `coco_observer`, `/repo/src/coco_observer.c` lines 565-792: the observer or NULL, and the file system. The whole numbers (lines
633-641, 663-671 and 678-716) are read in one go. -/
def make (scan : List Char → Int × Option Dbl) (fs : FS) (name options : List Char) : Res (Option Made × FS) :=
  if name = "no_observer".toList then .ok (none, fs)
  else if name.length = 0 then .ok (none, fs)
  else
    (textOption options "outer_folder".toList "exdata".toList 4097).bind fun outer =>
    (textOption options "result_folder".toList "default".toList 4097).bind fun result =>
    (joinPath outer 4096 [result]).bind fun path =>
    (uniqueDirectory fs path).bind fun (folder, fs) =>
    (textOption options "algorithm_name".toList "ALG".toList 4097).bind fun algorithm =>
    (textOption options "algorithm_info".toList [] 20480).bind fun info =>
    (Observer.settings options).bind fun numbers =>
    (precisionOption scan options "log_target_precision".toList (.fin (1 / 10 ^ 8))).bind fun logP =>
    (precisionOption scan options "lin_target_precision".toList (.fin (1 / 10 ^ 5))).bind fun linP =>
    (textOption options "base_evaluation_triggers".toList "1,2,5".toList 4097).bind fun base =>
    (specific fs name folder options).bind fun
    | (some (s, active), fs) => .ok (some ⟨name, folder, algorithm, info, numbers, logP, linP, base, s, active⟩, fs)
    | (none, fs) => .ok (none, fs)

/-- What happens in a process (and to its file system): an observer is created, or something else is written. -/
inductive Act where
  | make (name options : List Char)
  | write (path : List Char) (kind : Kind)

/-- A sequence of calls: the observers created. Writing to a path that exists changes nothing here. -/
def run (scan : List Char → Int × Option Dbl) (fs : FS) : List Act → Res (List Made × FS)
  | [] => .ok ([], fs)
  | .make name options :: as =>
    (make scan fs name options).bind fun (o, fs) => (run scan fs as).bind fun (os, fs) => .ok (o.toList ++ os, fs)
  | .write path kind :: as =>
    run scan (if fs path = none then Function.update fs path (some kind) else fs) as

end ObserverMake
