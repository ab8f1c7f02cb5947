import Verif.Model.Lifecycle

/-!
# The objects of the Python interface and their lifetimes (C125)

`Suite`, `Observer` and `Problem` of `/repo/build/python/src/cocoex/interface.pyx`: the pointers they hold, the references between
them, what their methods call of the library, and what happens when they are collected. A problem refers to the observers on it
(`_list_of_observers`) and a suite to its current problem; a problem does not refer to its suite. Unreachable objects are collected
at any time after they have become unreachable, in any order that the references permit; CPython, which counts references, does it at
once.
-/

namespace PyObjects

open Lifecycle

/-- A `Suite` object: the pointer `suite` (`none` is NULL) and `current_problem_`,
`/repo/build/python/src/cocoex/interface.pyx` lines 100-114. -/
structure Suite where
  ptr : Option Nat
  current : Option Nat

/-- A `Problem` object: the pointer `problem` and `_list_of_observers`, `/repo/build/python/src/cocoex/interface.pyx` lines 529-547.
(`_do_free` is `True` for all objects that programs get.) -/
structure Problem where
  ptr : Option Nat
  observers : List Nat

/-- The objects that have not been collected (observers are given by the pointer `_observer`,
`/repo/build/python/src/cocoex/interface.pyx` line 459), the numbers of the next new objects, and the references that the program
holds. -/
structure Objects where
  suites : Nat → Option Suite
  problems : Nat → Option Problem
  observers : Nat → Option (Option Nat)
  ns : Nat
  np : Nat
  no : Nat
  suiteRef : Nat → Bool
  problemRef : Nat → Bool
  observerRef : Nat → Bool

/-- No objects. -/
def Objects.init : Objects :=
  ⟨fun _ => none, fun _ => none, fun _ => none, 0, 0, 0, fun _ => false, fun _ => false, fun _ => false⟩

/-- What programs and the collector do: constructors, methods, getting a reference from `suite.current_problem` and
`problem.observers`, giving up references, and the collection of objects (`__dealloc__`), all in
`/repo/build/python/src/cocoex/interface.pyx`. The problem that the index or identifier stands for is given by its
construction, `none` if there is none. -/
inductive Call where
  | newSuite
  | newObserver (k : Kind) (name : String)
  | getProblem (s : Nat) (t : Option Shape) (o : Option Nat)
  | nextProblem (s : Nat) (t : Option Shape) (o : Option Nat)
  | reset (s : Nat)
  | observeWith (p o : Nat)
  | call (p : Nat)
  | recommend (p : Nat)
  | evaluations (p : Nat)
  | freeProblem (p : Nat)
  | freeObserver (o : Nat)
  | freeSuite (s : Nat)
  | currentProblem (s : Nat)
  | observerOf (p o : Nat)
  | delSuite (s : Nat)
  | delProblem (p : Nat)
  | delObserver (o : Nat)
  | collectSuite (s : Nat)
  | collectProblem (p : Nat)
  | collectObserver (o : Nat)

/-- Programs use objects that they refer to; the collector removes objects that nothing refers to (references between objects:
`/repo/build/python/src/cocoex/interface.pyx` lines 107 and 543). -/
def Possible (v : Objects) : Call → Prop
  | .newSuite => True
  | .newObserver _ _ => True
  | .getProblem s _ o => v.suiteRef s = true ∧ ∀ o', o = some o' → v.observerRef o' = true
  | .nextProblem s _ o => v.suiteRef s = true ∧ ∀ o', o = some o' → v.observerRef o' = true
  | .reset s => v.suiteRef s = true
  | .observeWith p o => v.problemRef p = true ∧ v.observerRef o = true
  | .call p => v.problemRef p = true
  | .recommend p => v.problemRef p = true
  | .evaluations p => v.problemRef p = true
  | .freeProblem p => v.problemRef p = true
  | .freeObserver o => v.observerRef o = true
  | .freeSuite s => v.suiteRef s = true
  | .currentProblem s => v.suiteRef s = true
  | .observerOf p o => v.problemRef p = true ∧ ∀ x, v.problems p = some x → o ∈ x.observers
  | .delSuite s => v.suiteRef s = true
  | .delProblem p => v.problemRef p = true
  | .delObserver o => v.observerRef o = true
  | .collectSuite s => v.suites s ≠ none ∧ v.suiteRef s = false
  | .collectProblem p => v.problems p ≠ none ∧ v.problemRef p = false ∧ ∀ s x, v.suites s = some x → x.current ≠ some p
  | .collectObserver o => v.observers o ≠ none ∧ v.observerRef o = false ∧ ∀ p x, v.problems p = some x → o ∉ x.observers

/-- `observe_with`, `/repo/build/python/src/cocoex/interface.pyx` lines 653-670, of a problem with the pointer `q` and the list `l`;
with NULL as observer `coco_problem_add_observer` (`/repo/src/coco_observer.c` lines 804-817) returns the problem as it is. -/
def observe (h : Heap) (v : Objects) (q : Nat) (l : List Nat) : Option Nat → Res (Heap × Problem)
  | none => .ok (h, ⟨some q, l⟩)
  | some o =>
    match v.observers o with
    | none => .ub
    | some none => .ok (h, ⟨some q, l ++ [o]⟩)
    | some (some c) => (Lifecycle.addObserver h q c).bind fun (h, q) => .ok (h, ⟨some q, l ++ [o]⟩)

/-- `Problem.free`, `/repo/build/python/src/cocoex/interface.pyx` lines 808-819. -/
def free (h : Heap) (v : Objects) (p : Nat) : Res (Heap × Objects) :=
  match v.problems p with
  | none => .ub
  | some x =>
    match x.ptr with
    | none => .ok (h, v)
    | some q =>
      (Lifecycle.freeProblem h q).bind fun h =>
      .ok (h, { v with problems := Function.update v.problems p (some { x with ptr := none }) })

/-- Freeing of `current_problem_`, `/repo/build/python/src/cocoex/interface.pyx` lines 175-177 and 189-190 with 195-196 or 202: the
reference is replaced. -/
def freeCurrent (h : Heap) (v : Objects) (s : Nat) (x : Suite) : Res (Heap × Objects) :=
  let clear (v : Objects) : Objects := { v with suites := Function.update v.suites s (some { x with current := none }) }
  match x.current with
  | none => .ok (h, clear v)
  | some p => (free h v p).bind fun (h, v) => .ok (h, clear v)

/-- A new `Problem` object with a reference held by the program (`Problem_init`,
`/repo/build/python/src/cocoex/interface.pyx` lines 518-526). -/
def Objects.newProblem (v : Objects) (x : Problem) : Objects :=
  { v with problems := Function.update v.problems v.np (some x), np := v.np + 1, problemRef := Function.update v.problemRef v.np true }

/-- One call; the flag says that an exception was raised. `Suite.__cinit__` (`/repo/build/python/src/cocoex/interface.pyx` lines
116-170, without the suite that is made and freed to collect the names), `Observer.__cinit__` (lines 464-473), `get_problem` (lines
237-248) and `get_problem_by_function_dimension_instance` (lines 278-287), `next_problem` (lines 187-205), `reset` (lines 174-178),
`observe_with` (lines 665-670), `__call__` (lines 840-844, with `constraint`, lines 601-605), `recommend` (lines 621-623), `evaluations`
(lines 773-777, as `evaluations_constraints` and `initial_solution`, with the assertions in `/repo/src/coco_problem.c` lines 427 and
579), the functions `free` (lines 817-819, 509-512, 294-299) and `__dealloc__` (lines 825-826, 513-515, 300-302). -/
def step (h : Heap) (v : Objects) : Call → Res (Heap × Objects × Bool)
  | .newSuite =>
    (Lifecycle.step h .newSuite).bind fun (h, c) =>
    .ok (h, { v with suites := Function.update v.suites v.ns (some ⟨c, none⟩), ns := v.ns + 1,
                     suiteRef := Function.update v.suiteRef v.ns true }, false)
  | .newObserver k name =>
    (Lifecycle.step h (.newObserver k name)).bind fun (h, c) =>
    .ok (h, { v with observers := Function.update v.observers v.no (some c), no := v.no + 1,
                     observerRef := Function.update v.observerRef v.no true }, false)
  | .getProblem s t o =>
    match v.suites s with
    | none => .ub
    | some x =>
      match x.ptr, t with
      | none, _ => .ok (h, v, true)
      | some _, none => .ok (h, v, true)
      | some c, some t =>
        (Lifecycle.getProblem h c t).bind fun (h, q) =>
        (observe h v q [] o).bind fun (h, y) => .ok (h, v.newProblem y, false)
  | .nextProblem s t o =>
    match v.suites s with
    | none => .ub
    | some x =>
      match x.ptr with
      | none => .ok (h, v, true)
      | some c =>
        (freeCurrent h v s x).bind fun (h, v) =>
        match t with
        | none => .ok (h, v, false)
        | some t =>
          (Lifecycle.getProblem h c t).bind fun (h, q) =>
          (observe h v q [] o).bind fun (h, y) =>
          .ok (h, { v.newProblem y with suites := Function.update v.suites s (some ⟨some c, some v.np⟩) }, false)
  | .reset s =>
    match v.suites s with
    | none => .ub
    | some x => (freeCurrent h v s x).bind fun (h, v) => .ok (h, v, false)
  | .observeWith p o =>
    match v.problems p with
    | none => .ub
    | some x =>
      match x.ptr with
      | none => .ok (h, v, true)
      | some q =>
        (observe h v q x.observers (some o)).bind fun (h, y) =>
        .ok (h, { v with problems := Function.update v.problems p (some y) }, false)
  | .call p =>
    match v.problems p with
    | none => .ub
    | some x =>
      match x.ptr with
      | none => .ok (h, v, true)
      | some q => (Lifecycle.evaluate (h.np + 1) h q).bind fun h => .ok (h, v, false)
  | .recommend p =>
    match v.problems p with
    | none => .ub
    | some x =>
      match x.ptr with
      | none => .ok (h, v, true)
      | some q => (Lifecycle.recommend (h.np + 1) h q).bind fun h => .ok (h, v, false)
  | .evaluations p =>
    match v.problems p with
    | none => .ub
    | some x =>
      match x.ptr with
      | none => .assertFail
      | some q => (deref (h.prob q)).bind fun _ => .ok (h, v, false)
  | .freeProblem p => (free h v p).bind fun (h, v) => .ok (h, v, false)
  | .freeObserver o =>
    match v.observers o with
    | none => .ub
    | some none => .ok (h, v, false)
    | some (some c) =>
      (Lifecycle.freeObserver h c).bind fun h =>
      .ok (h, { v with observers := Function.update v.observers o (some none) }, false)
  | .freeSuite s =>
    match v.suites s with
    | none => .ub
    | some x =>
      match x.ptr with
      | none => .ok (h, v, false)
      | some c =>
        (Lifecycle.freeSuite h c).bind fun h =>
        .ok (h, { v with suites := Function.update v.suites s (some { x with ptr := none }) }, false)
  | .currentProblem s =>
    match v.suites s with
    | none => .ub
    | some x =>
      match x.current with
      | none => .ok (h, v, false)
      | some p => .ok (h, { v with problemRef := Function.update v.problemRef p true }, false)
  | .observerOf _ o => .ok (h, { v with observerRef := Function.update v.observerRef o true }, false)
  | .delSuite s => .ok (h, { v with suiteRef := Function.update v.suiteRef s false }, false)
  | .delProblem p => .ok (h, { v with problemRef := Function.update v.problemRef p false }, false)
  | .delObserver o => .ok (h, { v with observerRef := Function.update v.observerRef o false }, false)
  | .collectSuite s =>
    match v.suites s with
    | none => .ub
    | some x =>
      match x.ptr with
      | none => .ok (h, { v with suites := Function.update v.suites s none }, false)
      | some c =>
        (Lifecycle.freeSuite h c).bind fun h => .ok (h, { v with suites := Function.update v.suites s none }, false)
  | .collectProblem p =>
    match v.problems p with
    | none => .ub
    | some x =>
      match x.ptr with
      | none => .ok (h, { v with problems := Function.update v.problems p none }, false)
      | some q =>
        (Lifecycle.freeProblem h q).bind fun h => .ok (h, { v with problems := Function.update v.problems p none }, false)
  | .collectObserver o =>
    match v.observers o with
    | none => .ub
    | some none => .ok (h, { v with observers := Function.update v.observers o none }, false)
    | some (some c) =>
      (Lifecycle.freeObserver h c).bind fun h => .ok (h, { v with observers := Function.update v.observers o none }, false)

/-- A program with the work of the collector in between. -/
def run : Heap → Objects → List Call → Res (Heap × Objects)
  | h, v, [] => .ok (h, v)
  | h, v, c :: cs => (step h v c).bind fun (h, v, _) => run h v cs

end PyObjects
