import Mathlib.Analysis.SpecialFunctions.Pow.Real
import Verif.Base.Res

/-!
# Model of the construction of bi-objective problems

`/repo/src/suite_biobj_utilities.c`: the numbering of the functions, the choice of the two instances, and the best known
hypervolume values.
-/

namespace Biobj

/-- `sel_bbob_functions`, `/repo/src/suite_biobj_utilities.c` line 246. -/
def selected : List Nat := [1, 2, 6, 8, 13, 14, 15, 17, 20, 21]

/-- `all_bbob_functions`, lines 249-250. -/
def all : List Nat := (List.range 24).map (· + 1)

/-- The first index by the formula in lines 267-268, for `function_idx < 55`. The square root is that of the reals (the
arguments are below 110, where `double` arithmetic on the quarter integers is exact); the conversion rounds a number that
is an integer already. The subtraction of unsigned numbers does not wrap for the indices of this branch, as
`Verif.Props.Biobj` shows. -/
noncomputable def formula1 (idx : Nat) : Nat :=
  10 - (⌊(-0.5 : ℝ) + Real.sqrt (0.25 + 2.0 * ((55 - idx - 1 : Nat) : ℝ))⌋).toNat - 1

/-- The second index by the formula in line 269, with unsigned numbers of 64 bits: the subtraction wraps. -/
def formula2 (idx f1 : Nat) : Nat := (idx + (2 ^ 64 - f1 * 10) + (f1 * (f1 + 1)) / 2) % 2 ^ 64

/-- The indices for the function indices from 55 on, lines 270-381. -/
def table : List (Nat × Nat) :=
  [(0, 2), (0, 3), (0, 4), (1, 2), (1, 3), (1, 4), (2, 3), (2, 4), (3, 4),
   (5, 6), (5, 8), (6, 7), (6, 8), (7, 8),
   (9, 10), (9, 11), (9, 12), (9, 13), (10, 11), (10, 12), (10, 13), (11, 12), (11, 13),
   (14, 17), (14, 18), (16, 17), (16, 18), (17, 18),
   (19, 21), (19, 22), (19, 23), (20, 21), (20, 22), (20, 23), (21, 22), (21, 23), (22, 23)]

/-- The numbers of the two single-objective functions for a bi-objective function number: lines 256 and 265-384 for the
indices and lines 449-462 for the functions. The index of function 0 is the largest unsigned number. -/
noncomputable def functions (function : Nat) : Res (Nat × Nat) :=
  if function = 0 then .error
  else
    let idx := function - 1
    if idx < 55 then
      let f1 := formula1 idx
      (Res.readNat selected f1).bind fun a =>
      (Res.readNat selected (formula2 idx f1)).bind fun b => .ok (a, b)
    else
      match table[idx - 55]? with
      | some (f1, f2) => (Res.readNat all f1).bind fun a => (Res.readNat all f2).bind fun b => .ok (a, b)
      | none => .error

/-! ### Instances -/

/-- `suite_biobj_instances`, lines 22-24. -/
def known : List (Nat × Nat × Nat) :=
  [(1, 2, 4), (2, 3, 5), (3, 7, 8), (4, 9, 10), (5, 11, 12), (6, 13, 14), (7, 15, 16), (8, 17, 18), (9, 19, 21),
   (10, 21, 22), (11, 23, 24), (12, 25, 26), (13, 27, 28), (14, 29, 30), (15, 31, 34)]

/-- The result of `suite_biobj_check_inst_consistency` (lines 66-113) for a dimension, the first function and instance, the
second function and instance: shall the search be broken, or does the process stop? A parameter of the model here, see
`Verif.Model.BiobjSuite` for the function. -/
abbrev Breaks := Nat → Nat → Nat → Nat → Nat → Res Bool

/-- The loop over the dimensions, lines 152-164 and 172-184: a dimension 0 is skipped. -/
def overDimensions (breaks : Breaks) (f1 i1 f2 i2 : Nat) : List Nat → Res Bool
  | [] => .ok false
  | d :: ds =>
    if d = 0 then overDimensions breaks f1 i1 f2 i2 ds
    else (breaks d f1 i1 f2 i2).bind fun brk => if brk then .ok true else overDimensions breaks f1 i1 f2 i2 ds

/-- The loop over the second functions, lines 150-165. -/
def overSecond (breaks : Breaks) (dims : List Nat) (f1 i1 i2 : Nat) : List Nat → Res Bool
  | [] => .ok false
  | f2 :: fs =>
    (overDimensions breaks f1 i1 f2 i2 dims).bind fun brk =>
    if brk then .ok true else overSecond breaks dims f1 i1 i2 fs

/-- The loops over pairs of functions, lines 148-166: the outer loop goes through all elements but the last, the inner one
through the elements after it. -/
def overPairs (breaks : Breaks) (dims : List Nat) (i1 i2 : Nat) : List Nat → Res Bool
  | [] => .ok false
  | f1 :: fs =>
    (overSecond breaks dims f1 i1 i2 fs).bind fun brk => if brk then .ok true else overPairs breaks dims i1 i2 fs

/-- The loop over the selected functions, lines 169-185. -/
def overSelected (breaks : Breaks) (dims : List Nat) (i1 i2 : Nat) : List Nat → Res Bool
  | [] => .ok false
  | f :: fs =>
    (overDimensions breaks f i1 f i2 dims).bind fun brk => if brk then .ok true else overSelected breaks dims i1 i2 fs

/-- The checks of a second instance, lines 148-185. -/
def broken (breaks : Breaks) (dims : List Nat) (i1 i2 : Nat) : Res Bool :=
  (overPairs breaks dims i1 i2 all).bind fun brk => if brk then .ok true else overSelected breaks dims i1 i2 selected

/-- Saving the instance in the first free row, lines 196-204. -/
def save (row : Nat × Nat × Nat) : List (Nat × Nat × Nat) → List (Nat × Nat × Nat)
  | [] => []
  | r :: rs => if r.1 = 0 then row :: rs else r :: save row rs

/-- The `while` loop of `suite_biobj_get_new_instance`, lines 139-207, with `fuel` tries left after `tries`: the second
instance and the rows of saved instances. -/
def search (breaks : Breaks) (dims : List Nat) (instance_ i1 : Nat) :
    Nat → Nat → List (Nat × Nat × Nat) → Res (Nat × List (Nat × Nat × Nat))
  | 0, _, _ => .error
  | fuel + 1, tries, rows =>
    let i2 := i1 + (tries + 1)
    (broken breaks dims i1 i2).bind fun brk =>
    if brk then search breaks dims instance_ i1 fuel (tries + 1) rows
    else .ok (i2, save (instance_, i1, i2) rows)

/-- The pointer to the data on new instances: null, a table of rows, or memory that has been freed. -/
inductive Data where
  | null
  | rows (l : List (Nat × Nat × Nat))
  | freed
deriving DecidableEq

/-- The search for the instance among the rows, lines 401-413: a row with 0 ends it. -/
def findRow (instance_ : Nat) : List (Nat × Nat × Nat) → Option (Nat × Nat)
  | [] => none
  | r :: rs => if r.1 = 0 then none else if r.1 = instance_ then some r.2 else findRow instance_ rs

/-- The choice of the instances, `/repo/src/suite_biobj_utilities.c` lines 386-446, in `coco_get_biobj_problem`; the suites
pass a null pointer in every call (`/repo/src/suite_biobj.c` lines 80-87, `/repo/src/suite_biobj_mixint.c` lines 177-191: the
pointer is a local variable with the value of `suite->data`, which stays null). When the function allocates the memory, it
frees it again (lines 443-445), which leaves the pointer dangling. Additions of instance numbers do not wrap. -/
def instances (breaks : Breaks) (dims : List Nat) (count instance_ : Nat) (data : Data) : Res ((Nat × Nat) × Data) :=
  match known.find? (·.1 = instance_) with
  | some r => .ok (r.2, data)
  | none =>
    match data with
    | .freed => .ub
    | .rows l =>
      match findRow instance_ l with
      | some r => .ok (r, data)
      | none =>
        (search breaks dims instance_ (2 * instance_ + 1) 1000 0 l).bind fun (i2, l) =>
        .ok ((2 * instance_ + 1, i2), .rows l)
    | .null =>
      if count = 0 then .error
      else
        (search breaks dims instance_ (2 * instance_ + 1) 1000 0 (List.replicate count (0, 0, 0))).bind fun (i2, _) =>
        .ok ((2 * instance_ + 1, i2), .freed)

/-! ### Best known hypervolume values -/

/-- The loop of `suite_biobj_get_best_hyp_value`, `/repo/src/suite_biobj_utilities.c` lines 496-502: every line is read
into `value`, until the key is found. The lines are given by their key and their value. The flag tells whether the warning
is given. -/
def hypLoop {V : Type} (key : String) : List (String × V) → V → V × Bool
  | [], value => (value, true)
  | (k, v) :: rest, _ => if k = key then (v, false) else hypLoop key rest v

/-- `suite_biobj_get_best_hyp_value`, lines 486-510, for a table of lines and the default value: the value and whether the
warning is given. -/
def bestHyp {V : Type} (default_ : V) (lines : List (String × V)) (knownOptima : Bool) (key : String) : V × Bool :=
  if knownOptima then hypLoop key lines default_ else (default_, true)

end Biobj
