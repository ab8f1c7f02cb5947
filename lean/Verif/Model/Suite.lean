import Verif.Base.Res

/-!
Model of the suite iteration and indexing code, `/repo/src/coco_suite.c`.

An array of `size_t` with its length is a `List Nat`; an entry 0 means "filtered out".
The positions `current_*_idx` are C `long`s initialised to -1, modelled by `Int`.
A problem is represented by the numbers the suite-specific constructors store in it
(`suite_dep_function`, dimension, `suite_dep_instance`, `suite_dep_index`,
e.g. `/repo/src/suite_bbob.c` lines 203-219); the construction of its objective
function is not part of this model.
-/

namespace Suite

/-- The fields of `coco_suite_s` used here (`/repo/src/coco_internal.h`, struct coco_suite_s;
allocation in `/repo/src/coco_suite.c` lines 221-271). -/
structure State where
  functions : List Nat
  dimensions : List Nat
  instances : List Nat
  curFunction : Int
  curDimension : Int
  curInstance : Int
deriving DecidableEq, Repr

/-- What the API exposes of a problem obtained from a suite
(`coco_problem_get_suite_dep_function`, `coco_problem_get_dimension`,
`coco_problem_get_suite_dep_instance`, `coco_problem_get_suite_dep_index`). -/
structure Prob where
  function : Nat
  dimension : Nat
  inst : Nat
  index : Nat
deriving DecidableEq, Repr

/-- `do { cur++ } while (cur < n-1 && items[cur] == 0)`,
`/repo/src/coco_suite.c` lines 564-566 and 577-579. -/
def scan (items : List Nat) (cur : Int) : Res Int :=
  let c := cur + 1
  if c < (items.length : Int) - 1 then
    match Res.readAt items c with
    | .ok 0 => scan items c
    | .ok _ => .ok c
    | .error => .error
    | .assertFail => .assertFail
    | .ub => .ub
  else .ok c
termination_by ((items.length : Int) - 1 - cur).toNat
decreasing_by omega

/-- `coco_suite_is_next_item_found`, `/repo/src/coco_suite.c` lines 558-584:
returns the flag and the new value of `*current_item_id`. -/
def nextItem (items : List Nat) (cur : Int) : Res (Bool × Int) := do
  let reset : Res (Bool × Int) := do
    let c ← scan items (-1)
    let v ← Res.readAt items c
    if v = 0 then Res.error else Res.ok (false, c)
  if cur ≠ (items.length : Int) - 1 then
    let c ← scan items cur
    Res.assert (decide (c < (items.length : Int)))
    let v ← Res.readAt items c
    if v ≠ 0 then Res.ok (true, c) else reset
  else reset

/-- `coco_suite_is_next_instance_found`, `/repo/src/coco_suite.c` lines 595-598. -/
def nextInstance (s : State) : Res (Bool × State) := do
  let (b, c) ← nextItem s.instances s.curInstance
  return (b, { s with curInstance := c })

/-- `coco_suite_is_next_function_found`, `/repo/src/coco_suite.c` lines 610-620. -/
def nextFunction (s : State) : Res (Bool × State) := do
  let (b, c) ← nextItem s.functions s.curFunction
  let s := { s with curFunction := c }
  if b then return (true, s)
  else
    let (_, s) ← nextInstance { s with curInstance := -1 }
    return (false, s)

/-- `coco_suite_is_next_dimension_found`, `/repo/src/coco_suite.c` lines 631-634. -/
def nextDimension (s : State) : Res (Bool × State) := do
  let (b, c) ← nextItem s.dimensions s.curDimension
  return (b, { s with curDimension := c })

/-- `coco_suite_encode_problem_index`, `/repo/src/coco_suite.c` lines 961-966
(no wrap-around of `size_t` is modelled). -/
def encode (s : State) (f d i : Nat) : Nat :=
  i + f * s.instances.length + d * s.instances.length * s.functions.length

/-- `coco_suite_get_number_of_problems`, `/repo/src/coco_suite.c` lines 481-484. -/
def numberOfProblems (s : State) : Nat :=
  s.instances.length * s.functions.length * s.dimensions.length

/-- `coco_suite_decode_problem_index`, `/repo/src/coco_suite.c` lines 978-994.
The three output parameters are passed in with the values the caller initialised them to and
returned as they are on exit: when the index is too large only the local pointers are
overwritten (lines 985-987), so the caller's variables keep their values. The comparison is
`problem_index > n - 1` with unsigned arithmetic: for `n = 0` the right-hand side wraps to the
maximal `size_t`, the branch is not taken and the division by zero is undefined. -/
def decode (s : State) (k : Nat) (f d i : Nat) : Res (Nat × Nat × Nat) :=
  if numberOfProblems s = 0 then
    if s.instances.length = 0 ∨ s.functions.length = 0 then .ub
    else .ok ((k / s.instances.length) % s.functions.length,
              k / (s.instances.length * s.functions.length),
              k % s.instances.length)
  else if k > numberOfProblems s - 1 then .ok (f, d, i)
  else .ok ((k / s.instances.length) % s.functions.length,
            k / (s.instances.length * s.functions.length),
            k % s.instances.length)

/-- `coco_suite_get_problem_from_indices`, `/repo/src/coco_suite.c` lines 109-151, with the
suite-specific constructors reduced to the numbers they record
(e.g. `/repo/src/suite_bbob.c` lines 203-219, `/repo/src/suite_toy.c` lines 42-74).
`none` is NULL. The three entries are read in the order of the short-circuit `||`. -/
def problemFromIndices (s : State) (f d i : Nat) : Res (Option Prob) := do
  let fn ← Res.readNat s.functions f
  if fn = 0 then return none
  let dim ← Res.readNat s.dimensions d
  if dim = 0 then return none
  let inst ← Res.readNat s.instances i
  if inst = 0 then return none
  return some { function := fn, dimension := dim, inst := inst, index := encode s f d i }

/-- `coco_suite_get_problem`, `/repo/src/coco_suite.c` lines 460-469. -/
def getProblem (s : State) (k : Nat) : Res (Option Prob) := do
  let (f, d, i) ← decode s k 0 0 0
  problemFromIndices s f d i

/-- First position holding `v`; the search loops of `/repo/src/coco_suite.c` lines 180-186,
191-197 and 202-208 (the cast of the position to `int` is not modelled). -/
def findFirst (l : List Nat) (v : Nat) : Option Nat :=
  match l with
  | [] => none
  | a :: l => if a = v then some 0 else (findFirst l v).map (· + 1)

/-- `coco_suite_get_problem_by_function_dimension_instance`,
`/repo/src/coco_suite.c` lines 172-213. -/
def problemByNumbers (s : State) (function dimension inst : Nat) : Res (Option Prob) :=
  match findFirst s.functions function with
  | none => .ok none
  | some f =>
    match findFirst s.dimensions dimension with
    | none => .ok none
    | some d =>
      match findFirst s.instances inst with
      | none => .ok none
      | some i => problemFromIndices s f d i

/-- `coco_suite_get_function_from_function_index`, `/repo/src/coco_suite.c` lines 353-363. -/
def functionFromIndex (s : State) (k : Nat) : Res Nat :=
  if k ≥ s.functions.length then .error else Res.readNat s.functions k

/-- `coco_suite_get_dimension_from_dimension_index`, `/repo/src/coco_suite.c` lines 374-385. -/
def dimensionFromIndex (s : State) (k : Nat) : Res Nat :=
  if k ≥ s.dimensions.length then .error else Res.readNat s.dimensions k

/-- `coco_suite_get_instance_from_instance_index`, `/repo/src/coco_suite.c` lines 395-405.
Line 404 returns `suite->functions[instance_idx]`; modelled as written. -/
def instanceFromIndex (s : State) (k : Nat) : Res Nat :=
  if k ≥ s.instances.length then .error else Res.readNat s.functions k

/-- `coco_suite_get_next_problem` without observer, `/repo/src/coco_suite.c` lines 883-948
(the progress output and the freeing of the previous problem are not modelled).
Returns the problem (`none` = NULL) and the new suite state. -/
def nextProblem (s : State) : Res (Option Prob × State) := do
  let (bi, s) ← nextInstance s
  let (found, s) ←
    if bi then Res.ok (true, s)
    else
      (nextFunction s).bind fun (bf, s) =>
        if bf then Res.ok (true, s) else nextDimension s
  if found = false then return (none, s)
  else do
    Res.assert (decide (0 ≤ s.curFunction))
    Res.assert (decide (0 ≤ s.curDimension))
    Res.assert (decide (0 ≤ s.curInstance))
    let p ← problemFromIndices s s.curFunction.toNat s.curDimension.toNat s.curInstance.toNat
    return (p, s)

/-- One entry of the loop of `coco_suite_filter_indices`, `/repo/src/coco_suite.c` lines 307-317:
`k` is the 1-based position of the first item of the list. -/
def filterIndicesFrom (k : Nat) (items : List Nat) (indices : List Nat) : List Nat :=
  match items with
  | [] => []
  | a :: items =>
    (if indices.any (fun j => k == j) then a else 0) :: filterIndicesFrom (k + 1) items indices

/-- `coco_suite_filter_indices`, `/repo/src/coco_suite.c` lines 300-318. `indices` are the entries
before the terminating 0 (`coco_count_numbers`, modelled in `Verif.Model.Options`). -/
def filterIndices (items indices : List Nat) : List Nat := filterIndicesFrom 1 items indices

/-- `coco_suite_filter_dimensions`, `/repo/src/coco_suite.c` lines 326-343. -/
def filterDimensions (dims numbers : List Nat) : List Nat :=
  dims.map fun d => if numbers.any (fun n => d == n) then d else 0

/-- `coco_suite_allocate`, `/repo/src/coco_suite.c` lines 221-271 (function numbering of lines
242-246 and the initial positions; memory handling omitted; `assert`s of lines 233, 240). -/
def allocate (isNoisy : Bool) (numFunctions : Nat) (dims : List Nat) : Res State := do
  Res.assert (decide (dims.length > 0))
  Res.assert (decide (numFunctions > 0))
  return { functions := (List.range numFunctions).map fun i => if isNoisy then i + 1 + 100 else i + 1
           dimensions := dims, instances := []
           curFunction := -1, curDimension := -1, curInstance := -1 }

/-- End of the constructor `coco_suite`, `/repo/src/coco_suite.c` lines 849-865: the check that at
least one dimension is active, then the starting positions. `none` = NULL. -/
def finishConstruction (s : State) : Res (Option State) := do
  if (s.dimensions.filter (· ≠ 0)).length < 1 ∨ s.dimensions.length < 1 ∨ s.functions.length < 1
      ∨ s.instances.length < 1 then return none
  let (_, s) ← nextFunction s
  let (_, s) ← nextDimension s
  return some s

end Suite
