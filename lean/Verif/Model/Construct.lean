import Verif.Model.Suite
import Verif.Model.Options

/-!
Model of the suite constructor `coco_suite` and of the suite tables it uses.
-/

namespace Construct
open CStr Str Options

/-- What the `*_initialize` function of a suite passes to `coco_suite_allocate`. -/
structure Init where
  numFunctions : Nat
  dims : List Nat
  defaultInstances : List Char
  noisy : Bool

/-- `coco_suite_intialize`, `/repo/src/coco_suite.c` lines 37-65, with the initialisers
`/repo/src/suite_toy.c` 22-31, `suite_bbob.c` 37-47, `suite_sbox_cost.c` 42-51, `suite_biobj.c` 34-52,
`suite_largescale.c` 31-39, `suite_cons_bbob.c` 19-29, `suite_bbob_mixint.c` 32-40,
`suite_biobj_mixint.c` 24-36, `suite_bbob_noisy.c` 26-36. -/
def suiteInit (name : String) : Res Init :=
  if name = "toy" then .ok ⟨6, [2, 3, 5, 10, 20], "instances: 1".toList, false⟩
  else if name = "bbob" then .ok ⟨24, [2, 3, 5, 10, 20, 40], "year: 2018".toList, false⟩
  else if name = "bbob-boxed" then .ok ⟨24, [2, 3, 5, 10, 20, 40], "year: 2023".toList, false⟩
  else if name = "bbob-biobj" then .ok ⟨55, [2, 3, 5, 10, 20, 40], "instances: 1-15".toList, false⟩
  else if name = "bbob-biobj-ext" then .ok ⟨55 + 37, [2, 3, 5, 10, 20, 40], "instances: 1-15".toList, false⟩
  else if name = "bbob-largescale" then .ok ⟨24, [20, 40, 80, 160, 320, 640], "instances: 1-15".toList, false⟩
  else if "bbob-constrained".toList.isPrefixOf name.toList then
    .ok ⟨54, [2, 3, 5, 10, 20, 40], "year: 2022".toList, false⟩
  else if name = "bbob-mixint" then .ok ⟨24, [5, 10, 20, 40, 80, 160], "instances: 1-15".toList, false⟩
  else if name = "bbob-biobj-mixint" then .ok ⟨92, [5, 10, 20, 40, 80, 160], "instances: 1-15".toList, false⟩
  else if name = "bbob-noisy" then .ok ⟨30, [2, 3, 5, 10, 20, 40], "year:2009".toList, true⟩
  else .error

/-- `suite_bbob_get_instances_by_year`, `/repo/src/suite_bbob.c` lines 52-78. -/
def bbobByYear (year : Int) : Res (List Char) :=
  if year ≥ 2023 then .ok "1-5,101-110".toList
  else if year ≥ 2021 then .ok "1-5,91-100".toList
  else if year ≥ 2018 then .ok "1-5,71-80".toList
  else if year = 2017 then .ok "1-5,61-70".toList
  else if year = 2016 ∨ year = 0 then .ok "1-5,51-60".toList
  else if year = 2015 then .ok "1-5,41-50".toList
  else if year ≥ 2013 then .ok "1-5,31-40".toList
  else if year = 2012 then .ok "1-5,21-30".toList
  else if year ≥ 2010 then .ok "1-15".toList
  else if year = 2009 then .ok "1-5,1-5,1-5".toList
  else .error

/-- `suite_sbox_cost_get_instances_by_year`, `/repo/src/suite_sbox_cost.c` lines 56-69. -/
def boxedByYear (year : Int) : Res (List Char) :=
  if year = 2023 then .ok "1-5,101-110".toList else if year = 0 then .ok "1-15".toList else .error

/-- `suite_biobj_get_instances_by_year`, `/repo/src/suite_biobj.c` lines 59-65. -/
def biobjByYear (year : Int) : Res (List Char) :=
  if year = 2016 ∨ year = 0 then .ok "1-10".toList else .ok "1-15".toList

/-- `suite_cons_bbob_get_instances_by_year`, `/repo/src/suite_cons_bbob.c` lines 35-45. -/
def consByYear (year : Int) : Res (List Char) :=
  if year ≥ 2022 ∨ year = 0 then .ok "1-15".toList else if year ≥ 2009 then .ok "1-15".toList else .error

/-- `suite_largescale_get_instances_by_year`, `/repo/src/suite_largescale.c` lines 44-53. -/
def largescaleByYear (year : Int) : Res (List Char) :=
  if year ≥ 2016 ∨ year = 0 then .ok "1-15".toList else if year ≥ 2009 then .ok "1-15".toList else .error

/-- `suite_bbob_noisy_get_instances_by_year`, `/repo/src/suite_bbob_noisy.c` lines 41-49. -/
def noisyByYear (year : Int) : Res (List Char) :=
  if year ≤ 2009 then .ok "1-15".toList else .error

/-- `coco_suite_get_instances_by_year`, `/repo/src/coco_suite.c` lines 73-101 (the mixed-integer suites
return "1-15" for every year: `/repo/src/suite_bbob_mixint.c` 45-49, `suite_biobj_mixint.c` 41-45). -/
def instancesByYear (name : String) (year : Int) : Res (List Char) :=
  if name = "bbob" then bbobByYear year
  else if name = "bbob-boxed" then boxedByYear year
  else if name = "bbob-biobj" ∨ name = "bbob-biobj-ext" then biobjByYear year
  else if "bbob-constrained".toList.isPrefixOf name.toList then consByYear year
  else if name = "bbob-largescale" then largescaleByYear year
  else if name = "bbob-mixint" then .ok "1-15".toList
  else if name = "bbob-biobj-mixint" then .ok "1-15".toList
  else if name = "bbob-noisy" then noisyByYear year
  else .error

/-- COCO_MAX_INSTANCES, `/repo/src/coco_suite.c` line 30. -/
def maxInstances : Nat := 1000

/-- The 'year' part of `coco_suite_get_instance_indices`, `/repo/src/coco_suite.c` lines 525-532: a count
different from 0 (also the EOF result -1, with `year` still -1) is taken as success. -/
def fromYear (name : String) (si : List Char) : Res (Option (List Nat)) :=
  (readInt si "year".toList).bind fun (count, v) =>
    if count ≠ 0 then
      (instancesByYear name (v.getD (-1))).bind fun str => parseRanges str 1 0 maxInstances
    else .ok none

/-- The 'instances' part of `coco_suite_get_instance_indices`, `/repo/src/coco_suite.c` lines 535-544:
`prev` is the value of `result` before. -/
def fromInstances (si : List Char) (prev : Option (List Nat)) : Res (Option (List Nat)) :=
  (readValues si "instances".toList maxInstances).bind fun (count, v) =>
    if count > 0 then parseRanges (v.getD []) 1 0 maxInstances else .ok prev

/-- `coco_suite_get_instance_indices`, `/repo/src/coco_suite.c` lines 494-548. -/
def getInstanceIndices (name : String) (si : List Char) : Res (Option (List Nat)) :=
  (strfind si "year".toList).bind fun yearFound =>
  (strfind si "instances".toList).bind fun instancesFound =>
    if yearFound < 0 ∧ instancesFound < 0 then .ok none
    else
      let both := decide (yearFound > 0 ∧ instancesFound > 0)
      let parseInstances := !(both && decide (yearFound < instancesFound))
      let parseYear := !(both && !decide (yearFound < instancesFound))
      (if yearFound ≥ 0 ∧ parseYear = true then fromYear name si else .ok none).bind fun r =>
        if instancesFound ≥ 0 ∧ parseInstances = true then fromInstances si r else .ok r

/-- `coco_suite_set_instance`, `/repo/src/coco_suite.c` lines 276-291: the array is the one filled by
`coco_string_parse_ranges`, i.e. the numbers and a terminating 0; an empty vector aborts in
`coco_allocate_memory`. -/
def setInstance (s : Suite.State) (o : Option (List Nat)) : Res Suite.State :=
  match o with
  | none => .error
  | some l =>
    (countNumbers (l ++ [0]) maxInstances).bind fun n =>
      if n = 0 then .error else .ok { s with instances := l.take n }

/-- Reading the value list of a filter option and parsing it, `/repo/src/coco_suite.c` lines 749-753,
761-765 and 787-791; `none` when the filter is not applied. -/
def filterNumbers (pathMax : Nat) (so key : List Char) (min max : Nat) : Res (Option (List Nat)) :=
  (readValues so key (pathMax + 1)).bind fun (count, v) =>
    if count > 0 then parseRanges (v.getD []) min max maxInstances else .ok none

/-- `coco_suite_filter_indices` applied to a parsed list, `/repo/src/coco_suite.c` lines 300-318. -/
def applyIndices (items : List Nat) (o : Option (List Nat)) : Res (List Nat) :=
  match o with
  | none => .ok items
  | some l => (countNumbers (l ++ [0]) maxInstances).bind fun n => .ok (Suite.filterIndices items (l.take n))

/-- The 'dimensions' option, `/repo/src/coco_suite.c` lines 801-821; the outer `none` is the `return NULL`
of line 809. -/
def applyDimensions (pathMax : Nat) (so : List Char) (dims : List Nat) : Res (Option (List Nat)) :=
  (readValues so "dimensions".toList (pathMax + 1)).bind fun (count, v) =>
    if count > 0 then
      if (v.getD []).any (fun c => c != ',' && !isDigit c) then .ok none
      else
        (Res.readNat dims 0).bind fun first =>
        (Res.readNat dims (dims.length - 1)).bind fun last =>
        (parseRanges (v.getD []) first last maxInstances).bind fun
        | none => .ok (some dims)
        | some l =>
          (countNumbers (l ++ [0]) maxInstances).bind fun n => .ok (some (Suite.filterDimensions dims (l.take n)))
    else .ok (some dims)

/-- The filters of `coco_suite`, `/repo/src/coco_suite.c` lines 747-823 (without the check for redundant
keys, which only prints warnings). The result is `none` for `return NULL`. -/
def applyFilters (pathMax : Nat) (so : List Char) (s : Suite.State) : Res (Option Suite.State) :=
  (filterNumbers pathMax so "function_indices".toList 1 s.functions.length).bind fun fo =>
  (applyIndices s.functions fo).bind fun functions =>
  (filterNumbers pathMax so "instance_indices".toList 1 s.instances.length).bind fun io =>
  (applyIndices s.instances io).bind fun instances =>
  (strfind so "dimensions".toList).bind fun dimFound =>
  (strfind so "dimension_indices".toList).bind fun dimIdxFound =>
    let both := decide (dimFound > 0 ∧ dimIdxFound > 0)
    let parseDimIdx := !(both && decide (dimFound < dimIdxFound))
    let parseDim := !(both && !decide (dimFound < dimIdxFound))
    (if dimIdxFound ≥ 0 ∧ parseDimIdx = true then
        (filterNumbers pathMax so "dimension_indices".toList 1 s.dimensions.length).bind fun d =>
          applyIndices s.dimensions d
      else .ok s.dimensions).bind fun dims =>
    (if dimFound ≥ 0 ∧ parseDim = true then applyDimensions pathMax so dims else .ok (some dims)).bind fun
    | none => .ok none
    | some dims => .ok (some { s with functions := functions, instances := instances, dimensions := dims })

/-- `coco_suite`, `/repo/src/coco_suite.c` lines 684-866. NULL strings are empty strings here; the checks
for redundant option keys are not modelled (they only print warnings). `none` is NULL. -/
def suite (pathMax : Nat) (name : String) (si so : List Char) : Res (Option Suite.State) :=
  (suiteInit name).bind fun ini =>
  (Suite.allocate ini.noisy ini.numFunctions ini.dims).bind fun s =>
  (if si = [] then getInstanceIndices name ini.defaultInstances
    else (getInstanceIndices name si).bind fun
      | none => getInstanceIndices name ini.defaultInstances
      | some l => .ok (some l)).bind fun inst =>
  (setInstance s inst).bind fun s =>
  (if so = [] then .ok (some s) else applyFilters pathMax so s).bind fun
  | none => .ok none
  | some s => Suite.finishConstruction s

end Construct
