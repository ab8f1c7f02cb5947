import Mathlib.Logic.Function.Basic
import Mathlib.Data.List.Basic
import Verif.Model.Observer

/-!
# Model of the path and directory functions of `/repo/src/coco_utilities.c`

Paths are lists of characters with the separator `/`. `PATH_MAX` is 4096 (Linux). A file system is a function from
path texts to their kind; two texts for the same object (such as `a/b` and `a//b`) count as different, permissions
and other processes are left out. Warnings are left out.
-/

namespace FileSystem
open Observer (strdupf)

/-- The kind of an existing path, as told by `stat` (`/repo/src/coco_utilities.c` lines 130-172). -/
inductive Kind where
  | file
  | dir
deriving DecidableEq

/-- A file system: the kind of every existing path (`/repo/src/coco_utilities.c` lines 130-172). -/
abbrev FS := List Char → Option Kind

/-- `strncat(dst, src, n)`, used in `/repo/src/coco_utilities.c` lines 115-116, 258 and 272. -/
def strncat (dst src : List Char) (n : Nat) : List Char := dst ++ src.take n

/-- The loop of `coco_join_path`, `/repo/src/coco_utilities.c` lines 107-117; `len` is the length of the path before
the loop. -/
def joinLoop (max len : Nat) : List (List Char) → List Char → Res (List Char)
  | [], path => .ok path
  | c :: cs, path =>
    if len + 1 + c.length ≥ max then .error
    else
      let path := if path.length > 0 then strncat path ['/'] (max - path.length - 1) else path
      joinLoop max len cs (strncat path c (max - path.length - 1))

/-- `coco_join_path`, `/repo/src/coco_utilities.c` lines 100-119. -/
def joinPath (path : List Char) (max : Nat) (components : List (List Char)) : Res (List Char) :=
  joinLoop max path.length components path

/-- `coco_file_exists`, `/repo/src/coco_utilities.c` lines 156-168. -/
def fileExists (fs : FS) (path : List Char) : Bool := decide (fs path = some .file)

/-- The part of a path before its last separator; empty if there is none. Used by `mkdir` below
(`/repo/src/coco_utilities.c` line 189). -/
def parent (path : List Char) : List Char := ((path.reverse.dropWhile (· ≠ '/')).drop 1).reverse

/-- `coco_mkdir`, `/repo/src/coco_utilities.c` lines 179-203. The system call `mkdir` fails with EEXIST if the path
exists, and with another error if the path is empty or its parent is not a directory. -/
def mkdir (fs : FS) (path : List Char) : Res (Nat × FS) :=
  if path.length = 2 ∧ path[1]? = some ':' then .ok (1, fs)
  else if path = [] then .error
  else if fs path ≠ none then .ok (1, fs)
  else if parent path = [] ∨ fs (parent path) = some .dir then .ok (0, Function.update fs path (some .dir))
  else .error

/-- The loop of `coco_create_directory`, `/repo/src/coco_utilities.c` lines 225-235: `done` is the part of the path
before the position `p`. -/
def cutLoop : List Char → List Char → FS → Res FS
  | _, [], fs => .ok fs
  | done, c :: rest, fs =>
    if c = '/' then
      if done.length = 0 then cutLoop (done ++ [c]) rest fs
      else (mkdir fs done).bind fun (_, fs) => cutLoop (done ++ [c]) rest fs
    else cutLoop (done ++ [c]) rest fs

/-- `coco_create_directory`, `/repo/src/coco_utilities.c` lines 209-241. For the empty path the character before the
text is accessed. -/
def createDirectory (fs : FS) (path : List Char) : Res (Nat × FS) :=
  if path = [] then .ub
  else
    let tmp := if path.getLast? = some '/' then path.dropLast else path
    (cutLoop [] tmp fs).bind fun fs => mkdir fs tmp

/-- The conversion `%04d` for numbers from 0 to 9999 (`/repo/src/coco_utilities.c` lines 266, 312). -/
def pad4 (n : Nat) : List Char :=
  [n / 1000 % 10, n / 100 % 10, n / 10 % 10, n % 10].map fun d => Char.ofNat (48 + d)

/-- The path of the file made in `/repo/src/coco_utilities.c` lines 257-259 and 270-273. Only the first bytes of the
buffers are cleared in lines 268-269, which is enough: both are then written from the start. -/
def filePath (path name ext : List Char) : Res (List Char) :=
  let relative := strncat [] name (4096 - 1)
  let relative := strncat relative ext (4096 - relative.length - 1)
  joinPath [] (4096 + 2) [path, relative]

/-- The loop of `coco_create_unique_filename`, `/repo/src/coco_utilities.c` lines 264-285, with the number of trials
left. -/
def filenameLoop (fs : FS) (path name ext : List Char) : Nat → Nat → Res (List Char)
  | 0, _ => .error
  | n + 1, counter =>
    (strdupf (name ++ '-' :: pad4 counter)).bind fun new =>
    (filePath path new ext).bind fun p =>
    if !fileExists fs p then .ok new else filenameLoop fs path name ext n (counter + 1)

/-- `coco_create_unique_filename`, `/repo/src/coco_utilities.c` lines 251-289: the new file name. -/
def uniqueFilename (fs : FS) (path name ext : List Char) : Res (List Char) :=
  (filePath path name ext).bind fun p =>
  if !fileExists fs p then .ok name else filenameLoop fs path name ext (9999 - 1) 1

/-- The loop of `coco_create_unique_directory`, `/repo/src/coco_utilities.c` lines 308-323, with the number of trials
left. -/
def directoryLoop (path : List Char) : Nat → Nat → FS → Res (List Char × FS)
  | 0, _, _ => .error
  | n + 1, counter, fs =>
    (strdupf (path ++ '-' :: pad4 counter)).bind fun new =>
    (createDirectory fs new).bind fun (r, fs) =>
    if r = 0 then .ok (new, fs) else directoryLoop path n (counter + 1) fs

/-- `coco_create_unique_directory`, `/repo/src/coco_utilities.c` lines 298-327: the new path and file system. -/
def uniqueDirectory (fs : FS) (path : List Char) : Res (List Char × FS) :=
  (createDirectory fs path).bind fun (r, fs) =>
  if r = 0 then .ok (path, fs) else directoryLoop path (9999 - 1) 1 fs

end FileSystem
