import Verif.Model.Observer

/-!
# Model of `coco_remove_directory` and `coco_remove_file`, `/repo/src/coco_utilities.c` lines 336-454 (POSIX)

The file system has files, directories and symbolic links. A location is the list of the names from the root to an object; a path is a
list of names that is followed from the root, through symbolic links where there are any. Simplified: paths are absolute and without `.`,
`..` and repeated separators, targets of links are absolute, there are no other processes, and a call of the system fails
for lack of permission always or never for the same object. Memory and directory streams are left out.
-/

namespace RemoveDir
open Observer (strdupf)

/-- A name in a directory (`p->d_name`, `/repo/src/coco_utilities.c` line 400). -/
abbrev Name := List Char

/-- A path or a location, `/repo/src/coco_utilities.c` line 336. -/
abbrev Path := List Name

/-- The kinds of objects that the system calls in `/repo/src/coco_utilities.c` lines 386-427 distinguish. -/
inductive Kind where
  | file
  | dir
  | link (target : Path)
deriving DecidableEq

/-- A file system: the objects below the root with their locations (`/repo/src/coco_utilities.c` lines 386-427). The order is
that in which `readdir` returns the names. -/
abbrev Fs := List (Path × Kind)

/-- What the process may do: `denied` are the objects that `unlink` and `rmdir` fail to remove, `unreadable` the directories
that `opendir` fails to open (`/repo/src/coco_utilities.c` lines 386, 414 and 427). -/
structure Env where
  denied : Path → Bool
  unreadable : Path → Bool

/-- The kind of the object at a location, `/repo/src/coco_utilities.c` line 137; the root is a directory. -/
def kindAt (fs : Fs) (l : Path) : Option Kind := if l = [] then some .dir else fs.lookup l

/-- Following the names of a path from a location; `follow` is used after a symbolic link. Part of `stat`,
`/repo/src/coco_utilities.c` line 137. -/
def walk (fs : Fs) (follow : Path → Option Path) (at_ : Path) : Path → Option Path
  | [] => some at_
  | n :: rest =>
    match fs.lookup (at_ ++ [n]) with
    | none => none
    | some .file => if rest = [] then some (at_ ++ [n]) else none
    | some .dir => walk fs follow (at_ ++ [n]) rest
    | some (.link t) => follow (t ++ rest)

/-- The location that a path leads to, if not more than the given number of symbolic links have to be followed. Part of `stat`,
`/repo/src/coco_utilities.c` line 137. -/
def resolve (fs : Fs) : Nat → Path → Option Path
  | 0 => walk fs (fun _ => none) []
  | k + 1 => walk fs (resolve fs k) []

/-- The location that a path leads to; Linux follows up to 40 links. Part of `stat`, `/repo/src/coco_utilities.c` line 137. -/
def locate (fs : Fs) (p : Path) : Option Path := resolve fs 40 p

/-- `coco_directory_exists`, `/repo/src/coco_utilities.c` lines 130-142: `stat` follows symbolic links. -/
def directoryExists (fs : Fs) (p : Path) : Bool :=
  match locate fs p with
  | some l => decide (kindAt fs l = some .dir)
  | none => false

/-- The names of the objects in the directory at a location, `/repo/src/coco_utilities.c` line 400. -/
def names (fs : Fs) (l : Path) : List Name :=
  fs.filterMap fun e => if e.1 ≠ [] ∧ e.1.dropLast = l then e.1.getLast? else none

/-- `opendir` and the names that `readdir` returns, `/repo/src/coco_utilities.c` lines 386 and 400. -/
def openDir (env : Env) (fs : Fs) (p : Path) : Option (List Name) :=
  match locate fs p with
  | some l =>
    if kindAt fs l = some .dir ∧ env.unreadable l = false then some (['.'] :: ['.', '.'] :: names fs l) else none
  | none => none

/-- The location of the object that a path names, without following a symbolic link at the end; used by `unlink` and `rmdir`,
`/repo/src/coco_utilities.c` lines 414, 427 and 451. -/
def locateEntry (fs : Fs) (p : Path) : Option Path :=
  match p.getLast? with
  | none => none
  | some n =>
    match locate fs p.dropLast with
    | some d => if kindAt fs d = some .dir then some (d ++ [n]) else none
    | none => none

/-- Removal of one object; part of `unlink` and `rmdir`, `/repo/src/coco_utilities.c` lines 414, 427 and 451. -/
def erase (fs : Fs) (l : Path) : Fs := fs.filter fun e => decide (e.1 ≠ l)

/-- `unlink`, `/repo/src/coco_utilities.c` lines 414 and 451; the result is whether it returned 0. -/
def unlink (env : Env) (fs : Fs) (p : Path) : Bool × Fs :=
  match locateEntry fs p with
  | some l =>
    match fs.lookup l with
    | none => (false, fs)
    | some .dir => (false, fs)
    | some _ => if env.denied l then (false, fs) else (true, erase fs l)
  | none => (false, fs)

/-- `rmdir`, `/repo/src/coco_utilities.c` line 427; only an empty directory is removed. -/
def rmdir (env : Env) (fs : Fs) (p : Path) : Bool × Fs :=
  match locateEntry fs p with
  | some l => if fs.lookup l = some .dir ∧ names fs l = [] ∧ env.denied l = false then (true, erase fs l) else (false, fs)
  | none => (false, fs)

/-- How a call ends, `/repo/src/coco_utilities.c` lines 393 and 430: it returns (0 is `true`, -1 is `false`), or `coco_strdupf` stops
the process (`/repo/src/coco_string.c` line 64) or overruns its buffer (line 59). -/
inductive Outcome where
  | returned (success : Bool)
  | stopped
  | overrun
deriving DecidableEq

/-- The text of a path, `/repo/src/coco_utilities.c` line 407. -/
def text (p : Path) : List Char := p.flatMap fun n => '/' :: n

mutual

/-- `coco_remove_directory`, `/repo/src/coco_utilities.c` lines 336-432; `none` if the call does not end. -/
def removeDir (env : Env) (fs : Fs) (p : Path) : Option (Outcome × Fs) :=
  match directoryExists fs p with
  | false => some (.returned true, fs)
  | true =>
    match openDir env fs p with
    | none => some (.returned false, fs)
    | some ns => removeAll env fs p ns >>= fun
      | (.returned true, fs) => some (.returned (rmdir env fs p).1, (rmdir env fs p).2)
      | r => some r
partial_fixpoint

/-- The loop of `coco_remove_directory`, `/repo/src/coco_utilities.c` lines 400-420. -/
def removeAll (env : Env) (fs : Fs) (p : Path) (ns : List Name) : Option (Outcome × Fs) :=
  match ns with
  | [] => some (.returned true, fs)
  | n :: ns =>
    if n = ['.'] ∨ n = ['.', '.'] then removeAll env fs p ns
    else
      match strdupf (text (p ++ [n])) with
      | .error => some (.stopped, fs)
      | .assertFail => some (.stopped, fs)
      | .ub => some (.overrun, fs)
      | .ok _ =>
        match directoryExists fs (p ++ [n]) with
        | true => removeDir env fs (p ++ [n]) >>= fun
          | (.returned true, fs) => removeAll env fs p ns
          | r => some r
        | false =>
          match (unlink env fs (p ++ [n])).1 with
          | true => removeAll env (unlink env fs (p ++ [n])).2 p ns
          | false => some (.returned false, (unlink env fs (p ++ [n])).2)
partial_fixpoint

end

/-- `coco_remove_file`, `/repo/src/coco_utilities.c` lines 441-454. -/
def removeFile (env : Env) (fs : Fs) (p : Path) : Bool × Fs := unlink env fs p

end RemoveDir
