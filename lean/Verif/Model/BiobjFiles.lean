import Verif.Model.InfoFile
import Verif.Model.LoggerBiobj
import Verif.Model.Str

/-!
# Model of the files made by the bi-objective observer

The names and the contents of the `.info`, `.dat`, `.tdat`, `.rdat`, `.mdat` and `.adat` files that the bi-objective logger
(`/repo/src/logger_biobj.c`) makes in the observer's result folder when one problem after the other is observed. (An observer refuses
a new problem while another one is observed, `/repo/src/logger_biobj.c` lines 1039-1041.) The lines of the data files are modelled in
`Verif.Model.LoggerBiobj`; here they are texts. Directories and failing system calls are left out, and what is written is on
the disk. The only indicator is `hyp` (`/repo/src/logger_biobj.c` lines 57-63).
-/

namespace BiobjFiles
open FileSystem (joinPath fileExists)
open Observer (strdupf)
open InfoFile (Disk append dec kinds)
open LoggerBiobj (Mode)

/-- The conversion `%2lu`, `/repo/src/logger_biobj.c` lines 557-558. -/
def dec2 (n : Nat) : List Char := List.replicate (2 - (dec n).length) ' ' ++ dec n

/-- What stays the same for an observer: `result_folder`, `algorithm_name`, `algorithm_info` (`/repo/src/coco_internal.h` lines
201-203), the text of `coco_version`, and the options `log_nondom_mode` and `compute_indicators`
(`/repo/src/observer_biobj.c` lines 33-36). -/
structure Conf where
  folder : List Char
  algorithm : List Char
  algorithmInfo : List Char
  version : List Char
  mode : Mode
  indicators : Bool

/-- The fields `previous_function` and `previous_dimension` of the observer's data (`/repo/src/observer_biobj.c` lines 40-41)
and the disk. -/
structure St where
  prevFunction : Int
  prevDimension : Int
  disk : Disk

/-- The life of one logger: the fields `problem_id`, `problem_type`, `suite_name`, `suite_dep_function`,
`number_of_variables`, `suite_dep_instance` of the problem; the headers of the data files (`/repo/src/logger_biobj.c` lines
455-462, 1083-1091 and 1150-1157); the lines written to the data files (the archive file with the line written
by `logger_biobj_free`); the number of evaluations and the text of the indicator value at the end. -/
structure Run where
  id : List Char
  ptype : List Char
  suite : List Char
  function : Nat
  dimension : Nat
  inst : Nat
  headerTargets : List Char
  header : List Char
  headerArchive : List Char
  headerRec : List Char
  dat : List Char
  tdat : List Char
  rdat : List Char
  mdat : List Char
  adat : List Char
  evals : Nat
  best : List Char

/-- The path of a file in a folder in the result folder, as made in `/repo/src/logger_biobj.c` lines 464-471, 1061-1073 and 1132-1140
(the folder's name is joined, and then the file's). -/
def filePath (c : Conf) (folder name : List Char) : Res (List Char) :=
  (joinPath c.folder 4096 [folder]).bind fun p =>
  (strdupf name).bind fun name =>
  joinPath p 4096 [name]

/-- `logger_biobj_indicator_initialize_file`, `/repo/src/logger_biobj.c` lines 450-487: the path of the file. -/
def indicatorPath (c : Conf) (r : Run) (ending : List Char) : Res (List Char) :=
  (Str.removeFromString r.id "_i".toList "_d".toList).bind fun pre =>
  filePath c r.ptype (pre ++ "_hyp.".toList ++ ending)

/-- The path of the info file, `/repo/src/logger_biobj.c` lines 529-533. -/
def infoPath (c : Conf) (r : Run) : Res (List Char) :=
  (strdupf (r.ptype ++ "_hyp.info".toList)).bind fun name => joinPath c.folder 4096 [name]

/-- The path of the archive file, `/repo/src/logger_biobj.c` lines 1061-1073. -/
def archivePath (c : Conf) (r : Run) : Res (List Char) :=
  filePath c "archive".toList
    (if c.mode = .all then r.id ++ "_nondom_all.adat".toList else r.id ++ "_nondom_final.adat".toList)

/-- The path of the file with recommendations, `/repo/src/logger_biobj.c` lines 1130-1141. -/
def recPath (c : Conf) (r : Run) : Res (List Char) :=
  (Str.removeFromString r.id "_i".toList "_d".toList).bind fun pre =>
  filePath c r.ptype (pre ++ ".mdat".toList)

/-- The heading of an info file, `/repo/src/logger_biobj.c` lines 545-554. -/
def heading (c : Conf) (r : Run) : List Char :=
  "suite = '".toList ++ r.suite ++ "', algorithm = '".toList ++ c.algorithm ++ "', indicator = 'hyp', folder = '".toList ++ r.ptype ++
    "', coco_version = '".toList ++ c.version ++ "'\n% ".toList ++ c.algorithmInfo ++
    (if c.mode = .read then " (reconstructed)".toList else [])

/-- The info file part and the data files of `logger_biobj_indicator`, `/repo/src/logger_biobj.c` lines 526-568, for the indicator
`hyp`. -/
def indicator (c : Conf) (s : St) (r : Run) : Res Disk :=
  (infoPath c r).bind fun p =>
  let infoExists := fileExists (kinds s.disk) p
  let disk := append s.disk p []
  (Str.removeFromString r.id "_i".toList "_d".toList).bind fun pre =>
  let disk := if !infoExists then append disk p (heading c r) else disk
  let disk :=
    if s.prevFunction ≠ r.function ∨ s.prevDimension ≠ r.dimension then
      append disk p ("\nfunction = ".toList ++ dec2 r.function ++ ", ".toList ++ "dim = ".toList ++ dec2 r.dimension ++ ", ".toList ++
        pre ++ "_hyp.dat".toList)
    else disk
  (indicatorPath c r "dat".toList).bind fun q =>
  let disk := append disk q r.headerTargets
  (indicatorPath c r "tdat".toList).bind fun q =>
  let disk := append disk q r.header
  (indicatorPath c r "rdat".toList).bind fun q =>
  .ok (append disk q r.header)

/-- The files opened by `logger_biobj`, `/repo/src/logger_biobj.c` lines 1057-1157. -/
def openFiles (c : Conf) (s : St) (r : Run) : Res St :=
  (if c.mode = .all ∨ c.mode = .final then
      (archivePath c r).bind fun p => .ok ({ s with disk := append s.disk p r.headerArchive } : St)
    else .ok s).bind fun s =>
  (if c.indicators then
      (indicator c s r).bind fun disk => .ok (⟨r.function, r.dimension, disk⟩ : St)
    else .ok s).bind fun s =>
  (recPath c r).bind fun p =>
  .ok { s with disk := append s.disk p r.headerRec }

/-- The lines written by `logger_biobj_evaluate`, `logger_biobj_recommend` and `logger_biobj_free` (`/repo/src/logger_biobj.c` lines
748-853 and 942-988) and the entry in the info file, written by `logger_biobj_indicator_finalize` (lines 594-597). -/
def writeLines (c : Conf) (s : St) (r : Run) : Res St :=
  (if c.mode = .all ∨ c.mode = .final then
      (archivePath c r).bind fun p => .ok ({ s with disk := append s.disk p r.adat } : St)
    else .ok s).bind fun s =>
  (if c.indicators then
      (indicatorPath c r "dat".toList).bind fun q1 =>
      (indicatorPath c r "tdat".toList).bind fun q2 =>
      (indicatorPath c r "rdat".toList).bind fun q3 =>
      (infoPath c r).bind fun p =>
      let disk := append (append (append s.disk q1 r.dat) q2 r.tdat) q3 r.rdat
      let disk := append disk p (", ".toList ++ dec r.inst ++ ":".toList ++ dec r.evals ++ "|".toList ++ r.best)
      .ok ({ s with disk := disk } : St)
    else .ok s).bind fun s =>
  (recPath c r).bind fun p =>
  .ok { s with disk := append s.disk p r.mdat }

/-- The life of a logger: `logger_biobj` (`/repo/src/logger_biobj.c` lines 1019-1162), calls, `logger_biobj_free` (lines 942-988). -/
def life (c : Conf) (s : St) (r : Run) : Res St := (openFiles c s r).bind fun s => writeLines c s r

/-- The observer after `observer_biobj` (`/repo/src/observer_biobj.c` lines 94-160), in a new result folder. (Without indicators
the two fields are not set, and not used.) -/
def start : St := ⟨-1, -1, fun _ => none⟩

/-- Problems observed one after the other (the user's loop, e.g. `/repo/src/coco_suite.c` lines 883-948 with
`coco_problem_add_observer`, `/repo/src/coco_observer.c` lines 804-818). -/
def experiment (c : Conf) : St → List Run → Res St
  | s, [] => .ok s
  | s, r :: rs => (life c s r).bind fun s => experiment c s rs

end BiobjFiles
