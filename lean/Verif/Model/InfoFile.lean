import Verif.Model.FileSystem

/-!
# Model of the files made by the bbob observer

The names and the contents of the `.info`, `.dat`, `.tdat`, `.rdat` and `.mdat` files that the bbob logger
(`/repo/src/logger_bbob.c`) makes in the observer's result folder when one problem after the other is observed. (An observer refuses
a new problem while another one is observed, `/repo/src/logger_bbob.c` lines 683-685.) The lines of the data files are modelled in
`Verif.Model.LoggerBbob`; here they are texts. Directories (`/repo/src/logger_bbob.c` line 316, modelled in
`Verif.Model.FileSystem`) and failing system calls are left out, and what is written is on the disk.
-/

namespace InfoFile
open FileSystem (strncat joinPath uniqueFilename)
open Observer (strdupf)

/-- The texts of the files, by path (`/repo/src/logger_bbob.c` lines 209-217). -/
abbrev Disk := List Char → Option (List Char)

/-- Which paths are files, as `coco_file_exists` sees it (`/repo/src/coco_utilities.c` lines 156-168). -/
def kinds (disk : Disk) : FileSystem.FS := fun p => if (disk p).isSome then some .file else none

/-- `fopen(path, "a")` (`/repo/src/logger_bbob.c` line 211) followed by writing the text. -/
def append (disk : Disk) (path text : List Char) : Disk :=
  fun p => if p = path then some ((disk path).getD [] ++ text) else disk p

/-- The conversion `%lu`, e.g. in `/repo/src/logger_bbob.c` line 310. -/
def dec (n : Nat) : List Char := Nat.toDigits 10 n

/-- What stays the same for an observer: `result_folder`, `algorithm_name` and `observer_name` (`/repo/src/coco_internal.h`
lines 200-202), `prefix` (`/repo/src/observer_bbob.c` line 23) and the text of `coco_version`. -/
structure Conf where
  folder : List Char
  pre : List Char
  algorithm : List Char
  observer : List Char
  version : List Char

/-- The fields of the observer's data (`/repo/src/observer_bbob.c` lines 25-29) and the disk. -/
structure St where
  lastFunction : Nat
  lastDimension : Nat
  lastDat : List Char
  disk : Disk

/-- The life of one logger: suite, function, dimension and instance of the problem; whether a solution was evaluated or recommended,
so that `logger_bbob_initialize` was called (`/repo/src/logger_bbob.c` lines 379-380 and 489-490); the text of
`logger_bbob_header` with the reference value; the lines written to the four data files; the number of evaluations and
the text of `best_found_value - optimal_value` at the end. -/
structure Run where
  suite : List Char
  function : Nat
  dimension : Nat
  inst : Nat
  used : Bool
  header : List Char
  dat : List Char
  tdat : List Char
  rdat : List Char
  mdat : List Char
  evals : Nat
  best : List Char

/-- `logger_bbob_start_new_line`, `/repo/src/logger_bbob.c` lines 159-166. -/
def startNewLine (s : St) (dimension function : Nat) : Bool :=
  if function = s.lastFunction ∧ dimension = s.lastDimension then false else true

/-- `logger_bbob_open_data_file`, `/repo/src/logger_bbob.c` lines 222-230, and the text written to the file. -/
def writeDataFile (disk : Disk) (path name ext text : List Char) : Res Disk :=
  let relative := name.take (4096 - 1)
  let relative := strncat relative ext (4096 - relative.length - 1)
  (joinPath [] (4096 + 2) [path, relative]).bind fun p => .ok (append disk p text)

/-- The name of the info file, `/repo/src/logger_bbob.c` lines 254-258. -/
def infoPath (c : Conf) (function : List Char) : Res (List Char) :=
  let name := c.pre.take (4096 - 1)
  let name := strncat name "_f".toList (4096 - name.length - 1)
  let name := strncat name function (4096 - name.length - 1)
  let name := strncat name ".info".toList (4096 - name.length - 1)
  joinPath [] (4096 + 2) [c.folder, name]

/-- The lines started in `/repo/src/logger_bbob.c` lines 272-280. -/
def heading (c : Conf) (r : Run) (dataFile : List Char) : List Char :=
  "suite = '".toList ++ r.suite ++ "', funcId = ".toList ++ dec r.function ++ ", DIM = ".toList ++ dec r.dimension ++
    ", Precision = 1.000e-08, algId = '".toList ++ c.algorithm ++ "', coco_version = '".toList ++ c.version ++
    "', logger = '".toList ++ c.observer ++ "', data_format = 'bbob-new2'\n".toList ++ "%\n".toList ++ dataFile ++ ".dat".toList

/-- `logger_bbob_open_info_file`, `/repo/src/logger_bbob.c` lines 235-284: the new disk and the path of the file. -/
def openInfoFile (c : Conf) (r : Run) (disk : Disk) (function dataFile : List Char) (newLine : Bool) :
    Res (Disk × List Char) :=
  (infoPath c function).bind fun p =>
  let addEmptyLine := (disk p).isSome
  let disk := append disk p []
  if newLine then
    let disk := if addEmptyLine then append disk p "\n".toList else disk
    .ok (append disk p (heading c r (dataFile.take (4096 - 1))), p)
  else .ok (disk, p)

/-- The name of the data files without extension, `/repo/src/logger_bbob.c` lines 310-320. -/
def relativePath (function dimension : List Char) : List Char :=
  let p := "data_f".toList
  let p := strncat p function (4096 - p.length - 1)
  let p := strncat p "/bbobexp_f".toList (4096 - p.length - 1)
  let p := strncat p function (4096 - p.length - 1)
  let p := strncat p "_DIM".toList (4096 - p.length - 1)
  strncat p dimension (4096 - p.length - 1)

/-- `logger_bbob_initialize`, `/repo/src/logger_bbob.c` lines 289-356: the new state, the path of the info file and the name of
the data files. -/
def openFiles (c : Conf) (s : St) (r : Run) : Res (St × List Char × List Char) :=
  (strdupf (dec r.function)).bind fun function =>
  (strdupf (dec r.dimension)).bind fun dimension =>
  let newLine := startNewLine s r.dimension r.function
  (if newLine then
      (uniqueFilename (kinds s.disk) c.folder (relativePath function dimension) ".dat".toList).bind fun name =>
      .ok (({ s with lastFunction := r.function, lastDimension := r.dimension, lastDat := name.take 4096 } : St), name)
    else .ok (s, s.lastDat)).bind fun (s, name) =>
  (openInfoFile c r s.disk function name newLine).bind fun (disk, info) =>
  let disk := append disk info (", ".toList ++ dec r.inst)
  (writeDataFile disk c.folder name ".dat".toList r.header).bind fun disk =>
  (writeDataFile disk c.folder name ".tdat".toList r.header).bind fun disk =>
  (writeDataFile disk c.folder name ".rdat".toList r.header).bind fun disk =>
  (writeDataFile disk c.folder name ".mdat".toList r.header).bind fun disk =>
  .ok ({ s with disk := disk }, info, name)

/-- The life of a logger: `logger_bbob` (`/repo/src/logger_bbob.c` lines 664-737), which opens no file, `logger_bbob_initialize` if
a solution is evaluated or recommended, the lines written by `logger_bbob_output` (lines 171-204) in `logger_bbob_evaluate`,
`logger_bbob_recommend` and `logger_bbob_free`, and the end of the entry in the info file, written by `logger_bbob_free` (lines
571-576) if the file is open. -/
def life (c : Conf) (s : St) (r : Run) : Res St :=
  if r.used then
    (openFiles c s r).bind fun (s, info, name) =>
    (writeDataFile s.disk c.folder name ".dat".toList r.dat).bind fun disk =>
    (writeDataFile disk c.folder name ".tdat".toList r.tdat).bind fun disk =>
    (writeDataFile disk c.folder name ".rdat".toList r.rdat).bind fun disk =>
    (writeDataFile disk c.folder name ".mdat".toList r.mdat).bind fun disk =>
    .ok { s with disk := append disk info (":".toList ++ dec r.evals ++ "|".toList ++ r.best) }
  else .ok s

/-- The observer after `observer_bbob` (`/repo/src/observer_bbob.c` lines 76-99), in a new result folder. -/
def start : St := ⟨0, 0, "init".toList, fun _ => none⟩

/-- Problems observed one after the other (the user's loop, e.g. `/repo/src/coco_suite.c` lines 883-948 with
`coco_problem_add_observer`, `/repo/src/coco_observer.c` lines 804-818). -/
def experiment (c : Conf) : St → List Run → Res St
  | s, [] => .ok s
  | s, r :: rs => (life c s r).bind fun s => experiment c s rs

end InfoFile
