import Verif.Model.Observer
import Verif.Model.Options

/-!
# Model of the check of option keys

`coco_option_keys` and the warning on keys that are not known, `/repo/src/coco_utilities.c` lines 639-746,
`/repo/src/coco_observer.c` lines 765-789, `/repo/src/coco_suite.c` lines 719-742 and 823-846. Memory is not tracked.
-/

namespace OptionKeys
open Str Options
open Observer (strdupf)

/-- What `vsprintf` makes of a format without arguments: `%%` gives `%`, any other conversion reads an argument that does not
exist. -/
def format : List Char → Res (List Char)
  | [] => .ok []
  | '%' :: '%' :: cs => (format cs).bind fun t => .ok ('%' :: t)
  | '%' :: _ => .ub
  | c :: cs => (format cs).bind fun t => .ok (c :: t)

/-- `coco_strdupf` (`/repo/src/coco_string.c` lines 42-83) with a format that is not a literal and no arguments: with
the assertion on the length of the format (lines 56-58: `COCO_VSTRDUPF_BUFLEN / 2 - 2` is 220). -/
def strdupFormat (fmt : List Char) : Res (List Char) :=
  if 220 ≤ fmt.length then .assertFail else (format fmt).bind strdupf

/-- The pieces between quotation marks put together, `/repo/src/coco_utilities.c` lines 653-673: `i` is the number of the piece,
`acc` the variable `cleaned_option_string`. -/
def cleanLoop : Nat → Option (List Char) → List (List Char) → Res (Option (List Char))
  | _, acc, [] => .ok acc
  | i, acc, t :: ts =>
    if i = 0 then (strdupFormat t).bind fun s => cleanLoop (i + 1) (some s) ts
    else
      match acc with
      | none => .ub
      | some s => cleanLoop (i + 1) (some (if i % 2 = 0 then s ++ t else s ++ "STR".toList)) ts

/-- The text after the last blank (`strrchr`, `/repo/src/coco_utilities.c` lines 694-702), all of it if there is none. -/
def afterLast (s : List Char) : List Char := (s.reverse.takeWhile (· ≠ ' ')).reverse

/-- The key in a piece between colons, `/repo/src/coco_utilities.c` lines 682-702. -/
def keyOf (i : Nat) (piece : List Char) : List Char :=
  let t := trim piece
  if i = 0 then t else afterLast t

/-- The loop over the pieces between colons, `/repo/src/coco_utilities.c` lines 681-710. -/
def keyLoop : Nat → List (List Char) → List (List Char)
  | _, [] => []
  | i, p :: ps => if i > 0 ∧ ps = [] then [] else keyOf i p :: keyLoop (i + 1) ps

/-- `coco_option_keys`, `/repo/src/coco_utilities.c` lines 639-724 (an option string NULL is the empty string here). If there is no
piece, `cleaned_option_string` is NULL and `coco_string_split` reads from it. -/
def optionKeys (options : List Char) : Res (Option (List (List Char))) :=
  if options = [] then .ok none
  else
    (split options '"').bind fun pieces =>
    (cleanLoop 0 none pieces).bind fun
    | none => .ub
    | some cleaned => (split cleaned ':').bind fun parts => .ok (allocateKeys (keyLoop 0 parts))

/-- The loop of `coco_option_keys_get_output_string`, `/repo/src/coco_utilities.c` lines 738-742. -/
def outputLoop : List Char → List (List Char) → Res (List Char)
  | s, [] => .ok s
  | s, k :: ks => (strdupf (s ++ " ".toList ++ k ++ "\n".toList)).bind fun s => outputLoop s ks

/-- The check of keys, `/repo/src/coco_observer.c` lines 768-787 (the same code in `/repo/src/coco_suite.c` lines 722-741
and 826-845): the text of the warning, if there is one. -/
def checkKeys (known : List (List Char)) (ignored valid : List Char) (options : List Char) : Res (Option (List Char)) :=
  (optionKeys options).bind fun
  | none => .ok none
  | some given =>
    (getRedundant known given).bind fun
    | none => .ok none
    | some redundant =>
      (outputLoop ignored redundant).bind fun a =>
      (outputLoop valid known).bind fun b =>
      .ok (some (a ++ b))

/-- The keys known to every observer, `/repo/src/coco_observer.c` lines 581-593. -/
def observerKeys : List (List Char) :=
  ["outer_folder".toList, "result_folder".toList, "algorithm_name".toList, "algorithm_info".toList, "number_target_triggers".toList,
    "log_target_precision".toList, "lin_target_precision".toList, "number_evaluation_triggers".toList,
    "base_evaluation_triggers".toList, "precision_x".toList, "precision_f".toList, "precision_g".toList, "log_discrete_as_int".toList]

/-- The further keys of the observers: `/repo/src/observer_bbob.c` line 76, `/repo/src/observer_biobj.c` line 98,
`/repo/src/observer_rw.c` lines 64-65, `/repo/src/observer_toy.c` line 49. -/
def additionalKeys : List (List (List Char)) :=
  [["prefix".toList],
    ["log_nondominated".toList, "log_decision_variables".toList, "compute_indicators".toList, "produce_all_data".toList],
    ["log_variables".toList, "log_constraints".toList, "low_dim_vars".toList, "low_dim_cons".toList, "log_only_better".toList,
      "log_time".toList],
    ["file_name".toList]]

/-- The keys of the suite options, `/repo/src/coco_suite.c` line 700. -/
def suiteKeys : List (List Char) :=
  ["dimensions".toList, "dimension_indices".toList, "function_indices".toList, "instance_indices".toList]

/-- The keys of the suite instance, `/repo/src/coco_suite.c` line 701. -/
def instanceKeys : List (List Char) := ["year".toList, "instances".toList]

/-- The check in `coco_observer`, `/repo/src/coco_observer.c` lines 765-789. -/
def checkObserver (additional : List (List Char)) (options : List Char) : Res (Option (List Char)) :=
  (addKeys observerKeys (some additional)).bind fun
  | none => .ub
  | some known =>
    checkKeys known "coco_observer(): Some keys in observer options were ignored:\n".toList
      "Valid keys for observer options are:\n".toList options

/-- The check of the suite instance in `coco_suite`, `/repo/src/coco_suite.c` lines 719-742. -/
def checkInstance (options : List Char) : Res (Option (List Char)) :=
  checkKeys instanceKeys "coco_suite(): Some keys in suite instance were ignored:\n".toList
    "Valid keys for suite instance are:\n".toList options

/-- The check of the suite options in `coco_suite`, `/repo/src/coco_suite.c` lines 823-846. -/
def checkSuite (options : List Char) : Res (Option (List Char)) :=
  checkKeys suiteKeys "coco_suite(): Some keys in suite options were ignored:\n".toList
    "Valid keys for suite options are:\n".toList options

end OptionKeys
