/-!
# Model of the output of the loggers up to a crash

The calls of `fprintf`, `fflush` and `fclose` which the loggers make, in order, and what is in the files when the process
ends at any point. Which lines are written is not decided here (see `LoggerBbob`, `LoggerBiobj`, `LoggerOld`, `LoggerRw`
and `LoggerToy`): a call of a logger is given by the texts it prints, and the theorems hold for all texts.
-/

namespace Crash

/-- The files of a logger: those of `/repo/src/logger_bbob.c` lines 59-63, `/repo/src/logger_bbob_old.c` lines 69-72,
`/repo/src/logger_biobj.c` lines 91-94 and 123-124, and the only file of `/repo/src/logger_rw.c` line 34 and
`/repo/src/logger_toy.c` line 23 (`out`). -/
inductive File
  | info | dat | tdat | rdat | mdat | adat | out
deriving DecidableEq

/-- Calls of the C library on a file: `fprintf` with the text printed, `fflush` and `fclose`. -/
inductive Act
  | print (f : File) (t : List Char)
  | flush (f : File)
  | close (f : File)
deriving DecidableEq

/-- What happens to the files while the process runs: a call of the library, or the library passes on some of the
buffered characters by itself (as it does when the buffer is full). -/
inductive Event
  | act (a : Act)
  | spill (f : File) (n : Nat)
deriving DecidableEq

/-- A file: the characters that were handed over to the operating system and those still buffered in the process. -/
structure Stream where
  disk : List Char
  buffer : List Char
deriving DecidableEq

/-- All buffered characters are handed over (`fflush`, `fclose` and, at `exit`, for every file). -/
def Stream.flush (s : Stream) : Stream := ⟨s.disk ++ s.buffer, []⟩

/-- The effect of an event on the files. -/
def step (σ : File → Stream) : Event → File → Stream
  | .act (.print f t), g => if g = f then ⟨(σ g).disk, (σ g).buffer ++ t⟩ else σ g
  | .act (.flush f), g => if g = f then (σ g).flush else σ g
  | .act (.close f), g => if g = f then (σ g).flush else σ g
  | .spill f n, g => if g = f then ⟨(σ g).disk ++ (σ g).buffer.take n, (σ g).buffer.drop n⟩ else σ g

/-- The effect of a sequence of events on the files. -/
def exec : (File → Stream) → List Event → File → Stream
  | σ, [] => σ
  | σ, e :: es => exec (step σ e) es

/-- The calls among the events. -/
def calls (es : List Event) : List Act := es.filterMap fun e => match e with
  | .act a => some a
  | .spill _ _ => none

/-- How the process ends: killed or aborted (a failed assertion), when the buffers are lost, or by `exit`
(`coco_error`, `/repo/src/coco_runtime_c.c` lines 16-25, or the end of `main`), when they are written. -/
inductive Stop
  | killed | exit
deriving DecidableEq

/-- What is in the files after the process ended. -/
def after (σ : File → Stream) : Stop → File → List Char
  | .killed, f => (σ f).disk
  | .exit, f => (σ f).flush.disk

/-- Files opened for appending (`"a"`, `/repo/src/logger_bbob.c` line 210, `/repo/src/logger_biobj.c` lines 473, 536, 1087
and 1141, `/repo/src/logger_rw.c` line 194, `/repo/src/observer_toy.c` line 66; `"a+"`, `/repo/src/logger_bbob_old.c`
lines 212, 277 and 321) with what they contained before. -/
def opened (d : File → List Char) (f : File) : Stream := ⟨d f, []⟩

/-- The pieces of text printed one after the other by calls of `fprintf` on the same file. -/
def prints (f : File) (l : List (List Char)) : List Act := l.map (.print f)

/-- `logger_bbob_output`, `/repo/src/logger_bbob.c` lines 171-203, and `logger_bbob_old_write_data`,
`/repo/src/logger_bbob_old.c` lines 149-183: the pieces of a line, then `fflush`. -/
def output (f : File) (l : List (List Char)) : List Act := prints f l ++ [.flush f]

/-- A line that may be written or not. -/
def output? (f : File) : Option (List (List Char)) → List Act
  | none => []
  | some l => output f l

/-! ### The loggers bbob and bbob-old -/

/-- What `logger_bbob_initialize` prints (`/repo/src/logger_bbob.c` lines 289-357): the beginning of the entry in the
info file (lines 271-282 and 339) and the headers of the data files (lines 343-349), none of them flushed. The header of
the mdat file is not written by `logger_bbob_old_initialize` (`/repo/src/logger_bbob_old.c` lines 354-404), which is the
case of an empty `mdat`. -/
structure Header where
  info : List (List Char)
  dat : List Char
  tdat : List Char
  rdat : List Char
  mdat : List (List Char)

/-- See `Header`. -/
def Header.acts (h : Header) : List Act :=
  prints .info h.info ++ [.print .dat h.dat, .print .tdat h.tdat, .print .rdat h.rdat] ++ prints .mdat h.mdat

/-- A call on a problem observed by bbob or bbob-old: an evaluation with the lines it writes
(`/repo/src/logger_bbob.c` lines 444-464; bbob-old writes no rdat lines, `/repo/src/logger_bbob_old.c` lines 473-491), or a
recommendation (`/repo/src/logger_bbob.c` lines 540-548). -/
inductive BbobCall
  | evaluate (dat tdat rdat : Option (List (List Char)))
  | recommend (mdat : Option (List (List Char)))

/-- `logger_bbob_evaluate` and `logger_bbob_recommend`, `/repo/src/logger_bbob.c` lines 363-471 and 477-553, and
`logger_bbob_old_evaluate`, `/repo/src/logger_bbob_old.c` lines 409-496; `i` is `is_initialized`. -/
def bbobCall (h : Header) (i : Bool) : BbobCall → List Act
  | .evaluate dat tdat rdat =>
    (if i then [] else h.acts) ++ output? .dat dat ++ output? .tdat tdat ++ output? .rdat rdat
  | .recommend mdat => (if i then [] else h.acts) ++ output? .mdat mdat

/-- A sequence of such calls; the logger is initialized by the first one. -/
def bbob (h : Header) : Bool → List BbobCall → List Act
  | _, [] => []
  | i, c :: cs => bbobCall h i c ++ bbob h true cs

/-- `logger_bbob_free`, `/repo/src/logger_bbob.c` lines 558-640 (here 571-604), and `logger_bbob_old_free`,
`/repo/src/logger_bbob_old.c` lines 505-565: the rest of the entry in the info file and the last lines; nothing for a
logger that was not initialized. (bbob-old has no mdat file and writes no last line to the dat file.) -/
def bbobFree (i : Bool) (info : List Char) (dat tdat mdat : Option (List (List Char))) : List Act :=
  if i then
    [.print .info info, .close .info] ++ output? .dat dat ++ [.close .dat] ++ output? .tdat tdat ++ [.close .tdat] ++
      [.close .rdat] ++ output? .mdat mdat ++ [.close .mdat]
  else []

/-! ### The bi-objective logger -/

/-- `logger_biobj` with `logger_biobj_indicator`, `/repo/src/logger_biobj.c` lines 1019-1162 and 495-572: the headers of
all files, none of them flushed. -/
structure BiobjHeader where
  adat : List (List Char)
  info : List (List Char)
  dat : List Char
  tdat : List Char
  rdat : List Char
  mdat : List (List Char)

/-- See `BiobjHeader`. -/
def BiobjHeader.acts (h : BiobjHeader) : List Act :=
  prints .adat h.adat ++ prints .info h.info ++ [.print .dat h.dat, .print .tdat h.tdat, .print .rdat h.rdat] ++
    prints .mdat h.mdat

/-- A call on a problem observed by a bi-objective observer: an evaluation or a solution fed with the solutions written
to the archive file (`none` if the archive was not updated or not all solutions are logged) and the lines in the other files
(`/repo/src/logger_biobj.c` lines 778-791 and 699-735), or a recommendation (lines 835-847). -/
inductive BiobjCall
  | evaluate (adat : Option (List (List Char))) (dat tdat rdat : List (List Char))
  | recommend (mdat : List (List Char))

/-- `logger_biobj_evaluate` with `logger_biobj_output` and `logger_biobj_recommend`, `/repo/src/logger_biobj.c` lines
748-796, 660-742 and 802-853: only the archive file is flushed. -/
def biobjCall : BiobjCall → List Act
  | .evaluate adat dat tdat rdat => output? .adat adat ++ prints .dat dat ++ prints .tdat tdat ++ prints .rdat rdat
  | .recommend mdat => prints .mdat mdat

/-- The creation of the logger and a sequence of calls. -/
def biobj (h : BiobjHeader) (cs : List BiobjCall) : List Act := h.acts ++ cs.flatMap biobjCall

/-- `logger_biobj_free` with `logger_biobj_finalize`, `logger_biobj_indicator_finalize` and `logger_biobj_indicator_free`,
`/repo/src/logger_biobj.c` lines 942-988, 911-937, 577-595 and 600-647. -/
def biobjFree (final dat tdat : List (List Char)) (info adat : List Char) : List Act :=
  prints .adat final ++ prints .dat dat ++ prints .tdat tdat ++
    [.print .info info, .flush .info, .close .dat, .close .tdat, .close .rdat, .close .info, .print .adat adat,
      .close .adat, .close .mdat]

/-! ### The loggers rw and toy -/

/-- `logger_rw_evaluate` and `logger_toy_evaluate`, `/repo/src/logger_rw.c` lines 56-121 (here 95-117) and
`/repo/src/logger_toy.c` lines 50-70 (here 59-69): the file is flushed whether or not something was printed. -/
def outCall (l : List (List Char)) : List Act := prints .out l ++ [.flush .out]

/-- The creation of a logger, which prints a header without flushing it (`/repo/src/logger_rw.c` lines 203-220,
`/repo/src/logger_toy.c` lines 98-103), and a sequence of evaluations. -/
def out (header : List (List Char)) (cs : List (List (List Char))) : List Act :=
  prints .out header ++ cs.flatMap outCall

end Crash
