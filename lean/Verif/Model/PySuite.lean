import Verif.Base.CStr
import Verif.Model.Suite

/-!
# Suites in Python (C126)

The class `Suite` of `/repo/build/python/src/cocoex/interface.pyx` lines 98-454 and the numbers `Problem` reads in its id (lines
855-883), over the model of the C suite (`Verif.Model.Suite`). Which C object is freed when is the subject of
`Verif.Model.PyObjects`; here a `Problem` is the C problem it was made from. No observers.
-/

namespace PySuite

open Suite (State Prob)

/-- The exceptions raised: `ValueError`, `NoSuchProblemException`, `NoSuchSuiteException` and `OverflowError`,
`/repo/build/python/src/cocoex/interface.pyx` lines 148-154, 187-188, 237-248, 274-287. -/
inductive Exc where
  | value | noSuchProblem | noSuchSuite | overflow
deriving DecidableEq, Repr

/-- The argument of `get_problem`: an integer or a string, `/repo/build/python/src/cocoex/interface.pyx` line 206 (floats and other objects are not modelled). -/
inductive Key where
  | int (z : Int)
  | str (s : List Char)
deriving DecidableEq, Repr

/-- The attributes of a `Suite`, `/repo/build/python/src/cocoex/interface.pyx` lines 98-117: the C suite (`none`: NULL after
`free`), `_indices`, `_ids`, `_dimensions` and `_current_index`. -/
structure Obj where
  suite : Option State
  indices : List Nat
  ids : List (List Char)
  dims : List Nat
  current : Option Int
deriving DecidableEq, Repr

/-- The loop that collects the problems of the suite, `/repo/build/python/src/cocoex/interface.pyx` lines 156-166 (without names
and numbers of objectives). The loop of the code has no bound: running out of `fuel` stands for not ending, the theorems show that
it does not happen. -/
def collect : Nat → State → Res (List Prob)
  | 0, _ => .ub
  | n + 1, s => do
    let (p, s) ← Suite.nextProblem s
    match p with
    | none => return []
    | some p =>
      let ps ← collect n s
      return p :: ps

/-- `Suite._initialize`, `/repo/build/python/src/cocoex/interface.pyx` lines 132-170, from the suite `s` that `coco_suite` has
before its last part (`Suite.finishConstruction`); `idOf` is `coco_problem_get_id`. The suite the problems are collected from is
freed and the same suite is made again. -/
def create (idOf : Prob → List Char) (s : State) : Res (Except Exc Obj) := do
  match ← Suite.finishConstruction s with
  | none => return .error .noSuchSuite
  | some c =>
    let ps ← collect (Suite.numberOfProblems c + 1) c
    let c ← Suite.finishConstruction s
    return .ok ⟨c, ps.map (·.index), ps.map idOf, ps.map (·.dimension), none⟩

/-- `reset`, `/repo/build/python/src/cocoex/interface.pyx` lines 171-178. -/
def reset (v : Obj) : Obj := { v with current := none }

/-- `free`, lines 294-299. -/
def free (v : Obj) : Obj := { v with suite := none }

/-- `Problem_init` of the result of the C library: NULL raises `ValueError` (`/repo/build/python/src/cocoex/interface.pyx` lines
518-526 and 555-556). -/
def problemInit (p : Option Prob) : Except Exc Prob :=
  match p with
  | none => .error .value
  | some p => .ok p

/-- `next_problem`, `/repo/build/python/src/cocoex/interface.pyx` lines 179-205; the result `none` is `None`. -/
def nextProblem (v : Obj) : Res (Except Exc (Option Prob) × Obj) :=
  match v.suite with
  | none => .ok (.error .value, v)
  | some c =>
    let k := v.current.getD (-1) + 1
    let v := { v with current := some k }
    if k ≥ v.indices.length then .ok (.ok none, v)
    else do
      let index ← Res.readNat v.indices k.toNat
      let p ← Suite.getProblem c index
      return ((problemInit p).map some, v)

/-- Indexing of a list by an integer: negative ones count from the end, and an `IndexError` otherwise
(`self._indices[index]`, `/repo/build/python/src/cocoex/interface.pyx` line 245). -/
def pyIndex (l : List Nat) (z : Int) : Option Nat :=
  if 0 ≤ z then l[z.toNat]?
  else if 0 ≤ l.length + z then l[(l.length + z).toNat]? else none

/-- `get_problem` and `self[key]`, `/repo/build/python/src/cocoex/interface.pyx` lines 237-248 and 289-292. The search of the id,
line 243, is outside of the `try` of lines 244-248. -/
def getProblem (v : Obj) (key : Key) : Res (Except Exc Prob) :=
  match v.suite with
  | none => .ok (.error .value)
  | some c =>
    let index : Except Exc Int :=
      match key with
      | .int z => .ok z
      | .str x => match v.ids.findIdx? (· == x) with
        | none => .error .value
        | some k => .ok k
    match index with
    | .error e => .ok (.error e)
    | .ok z =>
      match pyIndex v.indices z with
      | none => .ok (.error .noSuchProblem)
      | some i => do
        let p ← Suite.getProblem c i
        match problemInit p with
        | .error _ => return .error .noSuchProblem
        | .ok p => return .ok p

/-- `get_problem_by_function_dimension_instance`, `/repo/build/python/src/cocoex/interface.pyx` lines 250-287: the conversion of
an integer to `size_t` raises `OverflowError` if it does not fit. -/
def byNumbers (v : Obj) (f d i : Int) : Res (Except Exc Prob) :=
  if f < 0 ∨ d < 0 ∨ i < 0 ∨ f ≥ 2 ^ 64 ∨ d ≥ 2 ^ 64 ∨ i ≥ 2 ^ 64 then .ok (.error .overflow)
  else match v.suite with
    | none => .ok (.error .value)
    | some c => do
      let p ← Suite.problemByNumbers c f.toNat d.toNat i.toNat
      match problemInit p with
      | .error _ => return .error .noSuchProblem
      | .ok p => return .ok p

/-- `haystack.find(needle)`: the position of the first occurrence (of Python; used in `/repo/build/python/src/cocoex/interface.pyx` lines 350 and 859). -/
def find (needle : List Char) : List Char → Option Nat
  | [] => if needle = [] then some 0 else none
  | c :: cs => if needle.isPrefixOf (c :: cs) then some 0 else (find needle cs).map (· + 1)

/-- `ids(*id_snippets)`, `/repo/build/python/src/cocoex/interface.pyx` lines 310-356. -/
def ids (v : Obj) (snippets : List (List Char)) : List (List Char) :=
  v.ids.filter fun x => snippets.all fun y => (find y x).isSome

/-- `ids(*id_snippets, get_problem=True)`, lines 354-355; `none` is the `IndexError` of `res[0]`. -/
def idsProblem (v : Obj) (snippets : List (List Char)) : Option (Res (Except Exc Prob)) :=
  (ids v snippets)[0]?.map fun x => getProblem v (.str x)

/-- `sorted(set(l))`, insertion into a sorted list without repetitions (`dimensions`,
`/repo/build/python/src/cocoex/interface.pyx` lines 384-387). -/
def insertDim (d : Nat) : List Nat → List Nat
  | [] => [d]
  | a :: l => if d < a then d :: a :: l else if d = a then a :: l else a :: insertDim d l

/-- `dimensions`, `/repo/build/python/src/cocoex/interface.pyx` lines 384-387. -/
def dimensions (v : Obj) : List Nat := v.dims.foldr insertDim []

/-- What a program does with a suite, `/repo/build/python/src/cocoex/interface.pyx` lines 171-299. -/
inductive Op where
  | next
  | reset
  | get (key : Key)
  | numbers (f d i : Int)
  | free
deriving DecidableEq, Repr

/-- The result of a call, lines 171-299: the problem, `None`, or an exception. -/
abbrev Out := Except Exc (Option Prob)

/-- One call, lines 171-299. -/
def step (v : Obj) : Op → Res (Out × Obj)
  | .next => nextProblem v
  | .reset => .ok (.ok none, reset v)
  | .get key => do
    let r ← getProblem v key
    return (r.map some, v)
  | .numbers f d i => do
    let r ← byNumbers v f d i
    return (r.map some, v)
  | .free => .ok (.ok none, free v)

/-- A sequence of calls (calls whose exceptions are caught by the program), lines 171-299. -/
def run : Obj → List Op → Res (List Out × Obj)
  | v, [] => .ok ([], v)
  | v, o :: os => do
    let (r, v) ← step v o
    let (rs, v) ← run v os
    return (r :: rs, v)

/-- The loop of `__iter__`, `/repo/build/python/src/cocoex/interface.pyx` lines 440-454, in a `for` loop whose body makes the calls
`body p`: the problems for which the body is run. It ends at `None` and at `NoSuchProblemException`; another exception leaves the
loop. Running out of `fuel` stands for not ending. -/
def loop (body : Prob → List Op) : Nat → Obj → Res (List Prob × Obj)
  | 0, _ => .ub
  | n + 1, v => do
    let (r, v) ← nextProblem v
    match r with
    | .ok (some p) =>
      let (_, v) ← run v (body p)
      let (ps, v) ← loop body n v
      return (p :: ps, v)
    | _ => return ([], v)

/-- `for p in suite`, `/repo/build/python/src/cocoex/interface.pyx` lines 429-454. -/
def sweep (body : Prob → List Op) (fuel : Nat) (v : Obj) : Res (List Prob × Obj) := loop body fuel (reset v)

/-- `text.split('_')[0]`, `/repo/build/python/src/cocoex/interface.pyx` line 862. -/
def upToBar (s : List Char) : List Char := s.takeWhile (· ≠ '_')

/-- `int(text)` of Python for a text of digits, `/repo/build/python/src/cocoex/interface.pyx` line 862; `none` is `ValueError` (texts with blanks, signs or underscores, which
`int` accepts too, do not occur). -/
def pyInt (s : List Char) : Option Nat :=
  if s ≠ [] ∧ s.all Char.isDigit then some (CStr.decimal s) else none

/-- `_parse_id`, `/repo/build/python/src/cocoex/interface.pyx` lines 855-862; `none` is `ValueError`. -/
def parseId (id sub : List Char) : Option Nat :=
  match find sub id with
  | none => none
  | some i => pyInt (upToBar (id.drop (i + sub.length)))

/-- `id_triple`, `/repo/build/python/src/cocoex/interface.pyx` lines 864-883 (function, dimension, instance); `dimension` is `coco_problem_get_dimension`. -/
def idTriple (id : List Char) (dimension : Nat) : Option (Nat × Nat × Nat) := do
  let f ← parseId id "_f".toList
  let i ← parseId id "_i".toList
  return (f, dimension, i)

end PySuite
