import Verif.Base.Res
import Mathlib.Logic.Function.Basic
import Mathlib.Data.List.Basic

/-!
# Model of the objects of the library and their lifetimes

Suites, observers and problems as objects on a heap, with the pointers between them: which objects own which, what the functions that
create, observe, evaluate and free them read and free. An object is present until it is freed; reading or freeing an object that is
not present is undefined behaviour (`Res.ub`). Numbers of freed objects are not given out again (a freed block that is allocated again
would only hide the error). Only whole objects are modelled: their own vectors and strings, which nothing else points to, are freed
with them (`coco_problem_free`, `/repo/src/coco_problem.c` lines 305-342). The exceptions, pointers into other objects, are the suite's
name in the bbob logger and the log file of the toy observer in its loggers.
-/

namespace Lifecycle

/-- The observers. -/
inductive Kind where
  | toy
  | rw
  | bbob
  | biobj
  deriving DecidableEq

/-- Observers that point to the problem they observe and whose loggers point back (`/repo/src/observer_bbob.c` lines 14-31,
`/repo/src/observer_biobj.c` lines 23-44). -/
def Kind.linked : Kind → Bool
  | .bbob => true
  | .biobj => true
  | _ => false

/-- What a problem object points to: basic problems to nothing, transformed ones to an inner problem
(`/repo/src/coco_problem.c` lines 850-874), stacked ones to two problems (lines 970-1043), and loggers, which are transformed problems,
also to their observer: `ptr` is `logger->observer` in the bbob and the biobj logger (`/repo/src/logger_bbob.c` line 689,
`/repo/src/logger_biobj.c` lines 1012-1162), the observer whose open `log_file` the toy logger has a copy of
(`/repo/src/logger_toy.c` line 91), and not used in the rw logger. `init` is `is_initialized` of the bbob logger and `name` the
observer's name, which the problem's name begins with. -/
inductive Node where
  | base
  | wrap (inner : Nat)
  | stacked (first second : Nat)
  | logger (k : Kind) (name : String) (ptr : Option Nat) (init : Bool) (inner : Nat)
  deriving DecidableEq

/-- A problem object (`coco_problem_t`) with the field `suite`. -/
structure ProbObj where
  node : Node
  suite : Option Nat
  deriving DecidableEq

/-- An observer (`coco_observer_t`) with the pointer `observed_problem` of its data. -/
structure ObsObj where
  kind : Kind
  name : String
  observed : Option Nat
  deriving DecidableEq

/-- A suite (`coco_suite_t`) with the field `current_problem`. -/
structure SuiteObj where
  current : Option Nat
  deriving DecidableEq

/-- The heap; `np`, `no` and `ns` are the numbers of the next new problem, observer and suite. -/
structure Heap where
  prob : Nat → Option ProbObj
  obs : Nat → Option ObsObj
  suite : Nat → Option SuiteObj
  np : Nat
  no : Nat
  ns : Nat

/-- No objects. -/
def Heap.init : Heap := ⟨fun _ => none, fun _ => none, fun _ => none, 0, 0, 0⟩

/-- Assignment to, or (with `none`) freeing of a problem object. -/
def Heap.setProb (h : Heap) (p : Nat) (v : Option ProbObj) : Heap := { h with prob := Function.update h.prob p v }

/-- Assignment to or freeing of an observer. -/
def Heap.setObs (h : Heap) (o : Nat) (v : Option ObsObj) : Heap := { h with obs := Function.update h.obs o v }

/-- Assignment to or freeing of a suite. -/
def Heap.setSuite (h : Heap) (s : Nat) (v : Option SuiteObj) : Heap := { h with suite := Function.update h.suite s v }

/-- A new problem object. -/
def Heap.newProb (h : Heap) (v : ProbObj) : Heap × Nat := ({ h.setProb h.np (some v) with np := h.np + 1 }, h.np)

/-- Access to an object that has to be there. -/
def deref {α : Type} : Option α → Res α
  | some a => .ok a
  | none => .ub

/-- How a problem is put together. -/
inductive Shape where
  | base
  | wrap (inner : Shape)
  | stacked (first second : Shape)

/-- The construction of a problem of a suite from the inside to the outside by the allocating functions
(`coco_problem_allocate_from_scalars`, `/repo/src/coco_problem.c` lines 281-303, `coco_problem_transformed_allocate`, lines 850-874,
`coco_problem_stacked_allocate`, lines 970-1043). -/
def build (h : Heap) (suite : Option Nat) : Shape → Heap × Nat
  | .base => h.newProb ⟨.base, suite⟩
  | .wrap t => let (h, q) := build h none t; h.newProb ⟨.wrap q, suite⟩
  | .stacked t1 t2 =>
    let (h, q1) := build h none t1
    let (h, q2) := build h none t2
    h.newProb ⟨.stacked q1 q2, suite⟩

/-- The functions `logger_toy_free` (`/repo/src/logger_toy.c` lines 33-44), `logger_rw_free` (`/repo/src/logger_rw.c` lines 126-137),
`logger_bbob_free` (`/repo/src/logger_bbob.c` lines 558-640) and `logger_biobj_free` (`/repo/src/logger_biobj.c` lines 942-988), as far as
they concern other objects: the last two reset the observer's pointer to the observed problem if the pointer to the observer is not
NULL. -/
def freeData (h : Heap) (k : Kind) (ptr : Option Nat) : Res Heap :=
  if k.linked then
    match ptr with
    | none => .ok h
    | some o => (deref (h.obs o)).bind fun ob => .ok (h.setObs o (some { ob with observed := none }))
  else .ok h

/-- `coco_problem_transformed_free_data` for a logger (`/repo/src/coco_problem.c` lines 806-826): frees the logger and the object, not
the inner problem, which is the result. -/
def freeLogger (h : Heap) (p : Nat) : Res (Heap × Option Nat) :=
  (deref (h.prob p)).bind fun v =>
  match v.node with
  | .logger k _ ptr _ q => (freeData h k ptr).bind fun h => .ok (h.setProb p none, some q)
  | _ => .error

/-- `coco_problem_free`, `/repo/src/coco_problem.c` lines 305-342, with `coco_problem_transformed_free`, lines 830-842, and
`coco_problem_stacked_free`, lines 938-957. `fuel` bounds the depth of the recursion; without cycles it does not run out. -/
def free : Nat → Heap → Nat → Res Heap
  | 0, _, _ => .ub
  | fuel + 1, h, p =>
    (deref (h.prob p)).bind fun v =>
    match v.node with
    | .base => .ok (h.setProb p none)
    | .wrap q => (free fuel h q).bind fun h => (deref (h.prob p)).bind fun _ => .ok (h.setProb p none)
    | .stacked q1 q2 =>
      (free fuel h q1).bind fun h => (free fuel h q2).bind fun h => (deref (h.prob p)).bind fun _ => .ok (h.setProb p none)
    | .logger _ _ _ _ q => (free fuel h q).bind fun h => (freeLogger h p).bind fun (h, _) => .ok h

/-- `coco_problem_free` with a sufficient bound of the depth. -/
def freeProblem (h : Heap) (p : Nat) : Res Heap := free (h.np + 1) h p

/-- The reading of `problem->suite` and of the suite by the functions that make loggers: `/repo/src/logger_toy.c` lines 98-102,
`/repo/src/logger_rw.c` lines 203-205, `/repo/src/logger_bbob.c` lines 674-675 and 690 and 722, `/repo/src/logger_biobj.c` lines
514-551. (The rw logger does not check for NULL.) -/
def readSuite (h : Heap) (suite : Option Nat) : Res Unit :=
  match suite with
  | none => .ub
  | some s => (deref (h.suite s)).bind fun _ => .ok ()

/-- `coco_problem_add_observer`, `/repo/src/coco_observer.c` lines 804-818, with `logger_toy` (`/repo/src/logger_toy.c` lines 75-106),
`logger_rw` (`/repo/src/logger_rw.c` lines 148-226), `logger_bbob` (`/repo/src/logger_bbob.c` lines 664-737) and `logger_biobj`
(`/repo/src/logger_biobj.c` lines 1019-1162; the test of the number of objectives is left out). -/
def addObserver (h : Heap) (p o : Nat) : Res (Heap × Nat) :=
  (deref (h.obs o)).bind fun ob =>
  (deref (h.prob p)).bind fun v =>
  (readSuite h v.suite).bind fun _ =>
  if ob.kind.linked && ob.observed.isSome then .error
  else
    let (h, n) := h.newProb ⟨.logger ob.kind ob.name (if ob.kind = .rw then none else some o) false p, v.suite⟩
    .ok (if ob.kind.linked then h.setObs o (some { ob with observed := some n }) else h, n)

/-- `coco_problem_remove_observer`, `/repo/src/coco_observer.c` lines 828-859. The name of a problem without observers has no '(' or is
not the name of an observer before it; names of observers contain no '('. -/
def removeObserver (h : Heap) (p o : Nat) : Res (Heap × Option Nat) :=
  (deref (h.obs o)).bind fun ob =>
  (deref (h.prob p)).bind fun v =>
  match v.node with
  | .logger _ name _ _ _ => if name = ob.name then freeLogger h p else .error
  | _ => .error

/-- `logger_bbob_initialize`, `/repo/src/logger_bbob.c` lines 289-356, if the logger is not initialised (lines 378-380 and 484-486): reads
the observer and the suite's name. `suite` is the suite that the problem belonged to when the logger was made. -/
def ensureInit (h : Heap) (p : Nat) (suite : Option Nat) (name : String) (ptr : Option Nat) (init : Bool) (q : Nat) : Res Heap :=
  if init then .ok h
  else
    match ptr with
    | none => .assertFail
    | some o =>
      (deref (h.obs o)).bind fun _ =>
      (readSuite h suite).bind fun _ =>
      .ok (h.setProb p (some ⟨.logger .bbob name ptr true q, suite⟩))

/-- `coco_evaluate_function` (`/repo/src/coco_problem.c` lines 29-70) at a finite point, as far as other objects are concerned, with the
evaluation functions of transformed and stacked problems (lines 754-762 and 887-914) and of the loggers: the toy logger
(`/repo/src/logger_toy.c` lines 50-71) writes to the observer's log file, the bbob logger (`/repo/src/logger_bbob.c` lines 363-471) is
initialised. The evaluation of constraints reads the same objects. -/
def evaluate : Nat → Heap → Nat → Res Heap
  | 0, _, _ => .ub
  | fuel + 1, h, p =>
    (deref (h.prob p)).bind fun v =>
    match v.node with
    | .base => .ok h
    | .wrap q => evaluate fuel h q
    | .stacked q1 q2 => (evaluate fuel h q1).bind fun h => evaluate fuel h q2
    | .logger .toy _ ptr _ q =>
      (evaluate fuel h q).bind fun h =>
      match ptr with
      | none => .ub
      | some o => (deref (h.obs o)).bind fun _ => .ok h
    | .logger .rw _ _ _ q => evaluate fuel h q
    | .logger .biobj _ _ _ q => evaluate fuel h q
    | .logger .bbob name ptr init q => (ensureInit h p v.suite name ptr init q).bind fun h => evaluate fuel h q

/-- `coco_recommend_solution` (`/repo/src/coco_problem.c` lines 140-148 and 791-800), `logger_bbob_recommend`
(`/repo/src/logger_bbob.c` lines 477-553) and `logger_biobj_recommend` (`/repo/src/logger_biobj.c` lines 802-853, which reads the
observer's data in line 812). -/
def recommend : Nat → Heap → Nat → Res Heap
  | 0, _, _ => .ub
  | fuel + 1, h, p =>
    (deref (h.prob p)).bind fun v =>
    match v.node with
    | .base => .ok h
    | .wrap q => recommend fuel h q
    | .stacked _ _ => .ok h
    | .logger .toy _ _ _ q => recommend fuel h q
    | .logger .rw _ _ _ q => recommend fuel h q
    | .logger .biobj _ ptr _ q =>
      match ptr with
      | none => .ub
      | some o => (deref (h.obs o)).bind fun _ => evaluate fuel h q
    | .logger .bbob name ptr init q => (ensureInit h p v.suite name ptr init q).bind fun h => evaluate fuel h q

/-- `coco_observer_free`, `/repo/src/coco_observer.c` lines 461-491, with `observer_bbob_data_free` (`/repo/src/observer_bbob.c` lines
35-63) and `observer_biobj_data_free` (`/repo/src/observer_biobj.c` lines 48-66), which set the logger's pointer to the observer to NULL
through the pointer to the observed problem. -/
def freeObserver (h : Heap) (o : Nat) : Res Heap :=
  (deref (h.obs o)).bind fun ob =>
  match ob.observed with
  | none => .ok (h.setObs o none)
  | some p =>
    (deref (h.prob p)).bind fun v =>
    match v.node with
    | .logger k name _ init q => .ok ((h.setProb p (some { v with node := .logger k name none init q })).setObs o none)
    | _ => .ub

/-- Freeing of the suite's `current_problem`, `/repo/src/coco_suite.c` lines 432-435 and 909-911. -/
def freeCurrent (h : Heap) (v : SuiteObj) : Res Heap :=
  match v.current with
  | none => .ok h
  | some p => freeProblem h p

/-- `coco_suite_free`, `/repo/src/coco_suite.c` lines 407-448. -/
def freeSuite (h : Heap) (s : Nat) : Res Heap :=
  (deref (h.suite s)).bind fun v =>
  (freeCurrent h v).bind fun h =>
  .ok (h.setSuite s none)

/-- `coco_suite_get_problem`, `/repo/src/coco_suite.c` lines 460-469, for a problem that has not been filtered out. -/
def getProblem (h : Heap) (s : Nat) (t : Shape) : Res (Heap × Nat) :=
  (deref (h.suite s)).bind fun _ => .ok (build h (some s) t)

/-- `coco_suite_get_next_problem`, `/repo/src/coco_suite.c` lines 883-948: `next` is the construction of the next problem, `none` at the
end of the suite. -/
def nextProblem (h : Heap) (s : Nat) (next : Option Shape) (observer : Option Nat) : Res (Heap × Option Nat) :=
  (deref (h.suite s)).bind fun v =>
  match next with
  | none => .ok (h, none)
  | some t =>
    (freeCurrent h v).bind fun h =>
    let (h, q) := build h (some s) t
    (match observer with
      | none => Res.ok (h, q)
      | some o => addObserver h q o).bind fun (h, q) =>
    .ok (h.setSuite s (some ⟨some q⟩), some q)

/-- Calls of the library. -/
inductive Op where
  | newObserver (k : Kind) (name : String)
  | newSuite
  | getProblem (s : Nat) (t : Shape)
  | nextProblem (s : Nat) (next : Option Shape) (observer : Option Nat)
  | addObserver (p o : Nat)
  | removeObserver (p o : Nat)
  | evaluate (p : Nat)
  | recommend (p : Nat)
  | freeProblem (p : Nat)
  | freeObserver (o : Nat)
  | freeSuite (s : Nat)

/-- One call, with the returned pointer (`none` for NULL and for functions without result): the functions above,
`coco_observer` (`/repo/src/coco_observer.c` lines 565-792) and `coco_suite` (`/repo/src/coco_suite.c` lines 684-866) for successful
construction. -/
def step (h : Heap) : Op → Res (Heap × Option Nat)
  | .newObserver k name => .ok ({ h.setObs h.no (some ⟨k, name, none⟩) with no := h.no + 1 }, some h.no)
  | .newSuite => .ok ({ h.setSuite h.ns (some ⟨none⟩) with ns := h.ns + 1 }, some h.ns)
  | .getProblem s t => (getProblem h s t).bind fun (h, p) => .ok (h, some p)
  | .nextProblem s next observer => nextProblem h s next observer
  | .addObserver p o => (addObserver h p o).bind fun (h, p) => .ok (h, some p)
  | .removeObserver p o => removeObserver h p o
  | .evaluate p => (evaluate (h.np + 1) h p).bind fun h => .ok (h, none)
  | .recommend p => (recommend (h.np + 1) h p).bind fun h => .ok (h, none)
  | .freeProblem p => (freeProblem h p).bind fun h => .ok (h, none)
  | .freeObserver o => (freeObserver h o).bind fun h => .ok (h, none)
  | .freeSuite s => (freeSuite h s).bind fun h => .ok (h, none)

end Lifecycle
