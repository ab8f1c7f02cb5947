import Verif.Model.InfoFile

/-!
# Model of the files made by the old bbob observer

The names and the contents of the `.info`, `.dat`, `.tdat` and `.rdat` files that the logger of the observer `bbob-old`
(`/repo/src/logger_bbob_old.c`, `/repo/src/observer_bbob_old.c`) makes when one problem after the other is observed. (A second logger
is refused while one is open, lines 579-580.) What it remembers is in variables of the program, not of the observer, so the model has
problems observed by several observers. The lines of the data files are texts here (which lines
are written is in `Verif.Model.LoggerOld`). Directories
(line 376, modelled in `Verif.Model.FileSystem`) and failing system calls are left out, and what is written is on the disk.
-/

namespace OldFiles
open FileSystem (strncat joinPath)
open Observer (strdupf)
open InfoFile (Disk append dec writeDataFile)

/-- What stays the same for an observer: `result_folder` and `algorithm_name` (`/repo/src/coco_internal.h` lines 201-202), and the
text of `coco_version`. -/
structure Conf where
  folder : List Char
  algorithm : List Char
  version : List Char

/-- The variables `bbob_old_current_dim`, `bbob_old_current_funId`, `bbob_old_infoFile_firstInstance` and
`bbob_old_dimensions_in_current_infoFile` (`/repo/src/logger_bbob_old.c` lines 38-47) and the disk. -/
structure St where
  dim : Nat
  fn : Nat
  first : Nat
  dims : List Nat
  disk : Disk

/-- The life of one logger: suite, function, dimension and instance of the problem; whether a solution was evaluated, so that
`logger_bbob_old_initialize` was called (`/repo/src/logger_bbob_old.c` lines 417-419); the text of `bbob_old_file_header_str` with the
optimal value (lines 134-141); the lines written to the `.dat` and `.tdat` files; the number of evaluations and the text of
`best_fvalue - optimal_fvalue` at the end. -/
structure Run where
  suite : List Char
  function : Nat
  dimension : Nat
  inst : Nat
  used : Bool
  header : List Char
  dat : List Char
  tdat : List Char
  evals : Nat
  best : List Char

/-- The name of an info file, `/repo/src/logger_bbob_old.c` lines 265-270 (with the prefix of lines 362-363). -/
def infoName (function first : List Char) : List Char :=
  let name := "bbobexp".toList.take (4096 - 1)
  let name := strncat name "_f".toList (4096 - name.length - 1)
  let name := strncat name function (4096 - name.length - 1)
  let name := strncat name "_i".toList (4096 - name.length - 1)
  let name := strncat name first (4096 - name.length - 1)
  strncat name ".info".toList (4096 - name.length - 1)

/-- The loop over the dimensions in the info file, `/repo/src/logger_bbob_old.c` lines 287-291: the index of the first element that is 0 or
the dimension, or the number of elements. -/
def scan (d : Nat) : List Nat → Nat
  | [] => 0
  | x :: xs => if x ≠ 0 ∧ x ≠ d then scan d xs + 1 else 0

/-- The path with another instance, `/repo/src/logger_bbob_old.c` lines 299-306: the end of the path is replaced in the buffer of
4098 characters. -/
def newInfoPath (path name first first' : List Char) : Res (List Char) :=
  let p := path.take (path.length - first.length - 7)
  let p := strncat p "_i".toList (4096 - name.length - 1)
  let p := strncat p first' (4096 - name.length - 1)
  let p := strncat p ".info".toList (4096 - name.length - 1)
  if p.length < 4098 then .ok p else .ub

/-- What is found for a problem with another function or dimension than before, `/repo/src/logger_bbob_old.c` lines 285-320: the path, the
first instance, the list of dimensions, and whether a new line is begun. With a seventh dimension (line 313) the write is
outside the array. -/
def place (s : St) (r : Run) (path name first : List Char) (firstNumber : Nat) : Res (List Char × Nat × List Nat × Bool) :=
  if s.dim ≠ r.dimension then
    let i := scan r.dimension s.dims
    if s.dims[i]? = some 0 then .ok (path, firstNumber, s.dims.set i r.dimension, true)
    else if i < 6 then
      (strdupf (dec r.inst)).bind fun first' =>
      (newInfoPath path name first first').bind fun path =>
      .ok (path, r.inst, (List.replicate 6 0).set i r.dimension, false)
    else .ub
  else .ok (path, firstNumber, s.dims, decide (s.fn ≠ r.function))

/-- The lines started in `/repo/src/logger_bbob_old.c` lines 333-342 (the function number is below 2^31, and not changed by
`strtol` and the conversion). -/
def heading (c : Conf) (r : Run) (dataFile : List Char) : List Char :=
  "suite = '".toList ++ r.suite ++ "', funcId = ".toList ++ dec r.function ++ ", DIM = ".toList ++ dec r.dimension ++
    ", Precision = 1.000e-08, algId = '".toList ++ c.algorithm ++ "', coco_version = '".toList ++ c.version ++
    "', logger = 'bbob_old', data_format = 'bbob-new2'\n".toList ++ "%\n".toList ++ dataFile ++ ".dat".toList

/-- `_i` and the number of the first instance after a name, `/repo/src/logger_bbob_old.c` lines 340-341 and 389-390. -/
def withFirst (name first : List Char) : List Char :=
  let name := strncat name "_i".toList (4096 - name.length - 1)
  strncat name first (4096 - name.length - 1)

/-- `logger_bbob_old_openIndexFile`, `/repo/src/logger_bbob_old.c` lines 246-348: the new state and the path of the info file. -/
def openIndexFile (c : Conf) (s : St) (r : Run) (dataFile : List Char) : Res (St × List Char) :=
  let firstNumber := if s.first = 0 then r.inst else s.first
  (strdupf (dec r.function)).bind fun function =>
  (strdupf (dec firstNumber)).bind fun first =>
  let name := infoName function first
  (joinPath [] (4096 + 2) [c.folder, name]).bind fun path =>
  let there := (s.disk path).isSome
  if there = true ∧ s.dim = r.dimension ∧ s.fn = r.function then
    .ok ({ s with first := firstNumber, disk := append s.disk path [] }, path)
  else
    (place s r path name first firstNumber).bind fun (path, firstNumber, dims, newLine) =>
    (strdupf (dec firstNumber)).bind fun first =>
    let disk := append s.disk path (if there = true ∧ newLine = true then "\n".toList else [])
    let disk := append disk path (heading c r (withFirst (dataFile.take (4096 - 1)) first))
    .ok (⟨r.dimension, r.function, firstNumber, dims, disk⟩, path)

/-- `logger_bbob_old_initialize`, `/repo/src/logger_bbob_old.c` lines 354-404: the new state, the path of the info file and the name of
the data files. The name of the data files without instance (lines 372-380) is that of the bbob logger. -/
def openFiles (c : Conf) (s : St) (r : Run) : Res (St × List Char × List Char) :=
  (strdupf (dec r.function)).bind fun function =>
  (strdupf (dec r.dimension)).bind fun dimension =>
  let dataFile := InfoFile.relativePath function dimension
  (openIndexFile c s r dataFile).bind fun (s, info) =>
  let disk := append s.disk info (", ".toList ++ dec r.inst)
  (strdupf (dec s.first)).bind fun first =>
  let name := withFirst dataFile first
  (writeDataFile disk c.folder name ".dat".toList r.header).bind fun disk =>
  (writeDataFile disk c.folder name ".tdat".toList r.header).bind fun disk =>
  (writeDataFile disk c.folder name ".rdat".toList r.header).bind fun disk =>
  .ok ({ s with disk := disk }, info, name)

/-- The life of a logger: `logger_bbob_old` (`/repo/src/logger_bbob_old.c` lines 567-623), which opens no file,
`logger_bbob_old_initialize` if a solution is evaluated, the lines written by `logger_bbob_old_write_data` (lines 149-183), and the end
of the entry in the info file, written by `logger_bbob_old_free` (lines 518-523) if the file is open. -/
def life (c : Conf) (s : St) (r : Run) : Res St :=
  if r.used then
    (openFiles c s r).bind fun (s, info, name) =>
    (writeDataFile s.disk c.folder name ".dat".toList r.dat).bind fun disk =>
    (writeDataFile disk c.folder name ".tdat".toList r.tdat).bind fun disk =>
    .ok { s with disk := append disk info (":".toList ++ dec r.evals ++ "|".toList ++ r.best) }
  else .ok s

/-- The program at its start (`/repo/src/logger_bbob_old.c` lines 38-47), with an empty disk. -/
def start : St := ⟨0, 0, 0, List.replicate 6 0, fun _ => none⟩

/-- Problems observed one after the other, each with the observer's settings (the user's loop, e.g. `/repo/src/coco_suite.c` lines
883-948 with `coco_problem_add_observer`, `/repo/src/coco_observer.c` lines 804-818). -/
def experiment : St → List (Conf × Run) → Res St
  | s, [] => .ok s
  | s, (c, r) :: rs => (life c s r).bind fun s => experiment s rs

end OldFiles
