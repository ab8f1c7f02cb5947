import Verif.Model.Lifecycle

/-!
# The values of the Rust interface and their lifetimes (C124)

`/repo/build/rust/src`: what the methods of `Suite`, `Observer` and `Problem` call of the library, and when the compiler accepts a
call. A `Problem` borrows its suite mutably until it is dropped (the lifetime `'suite`,
`/repo/build/rust/src/problem.rs` lines 15-18, and `&mut self` in `/repo/build/rust/src/suite.rs` lines 147, 163 and 178-179), so
there is at most one `Problem` of a suite, and the variables that hold problems are named by their suites. It does not borrow the
observers on it.
-/

namespace RustWrapper

open Lifecycle

/-- The values that a program owns: suites, observers and for each suite the field `inner` of the problem that borrows it;
`leaked` counts problems given to `std::mem::forget`. -/
structure Vars where
  suites : List Nat
  observers : List Nat
  problem : Nat → Option Nat
  leaked : Nat

/-- At the start of the program, `/repo/build/rust/src/lib.rs`. -/
def Vars.init : Vars := ⟨[], [], fun _ => none, 0⟩

/-- Calls of methods that concern lifetimes: `Suite::new` (and `clone`), `Observer::new`, `Suite::next_problem` (`next` is the
construction of the next problem of the suite, `none` at its end), `Suite::problem` and `problem_by_function_dimension_instance`
(`none` for NULL), `add_observer`, `remove_observer`, `evaluate_function` and `evaluate_constraint`, the end of the lifetimes of the
values, and `std::mem::forget` of a problem. (`/repo/build/rust/src/suite.rs`, `observer.rs`, `problem.rs`.) -/
inductive Call where
  | newSuite
  | newObserver (k : Kind) (name : String)
  | nextProblem (s : Nat) (next : Option Shape) (observer : Option Nat)
  | problem (s : Nat) (t : Option Shape)
  | addObserver (s o : Nat)
  | removeObserver (s o : Nat)
  | evaluate (s : Nat)
  | dropProblem (s : Nat)
  | forgetProblem (s : Nat)
  | dropObserver (o : Nat)
  | dropSuite (s : Nat)

/-- What the compiler accepts: values are there, a suite that is borrowed cannot be used
(`/repo/build/rust/src/suite.rs` lines 147, 163, 178-179; `/repo/build/rust/src/problem.rs` lines 65, 73, 91, 105). -/
def Accepted (v : Vars) : Call → Prop
  | .newSuite => True
  | .newObserver _ _ => True
  | .nextProblem s _ o => s ∈ v.suites ∧ v.problem s = none ∧ ∀ o', o = some o' → o' ∈ v.observers
  | .problem s _ => s ∈ v.suites ∧ v.problem s = none
  | .addObserver s o => v.problem s ≠ none ∧ o ∈ v.observers
  | .removeObserver s o => v.problem s ≠ none ∧ o ∈ v.observers
  | .evaluate s => v.problem s ≠ none
  | .dropProblem s => v.problem s ≠ none
  | .forgetProblem s => v.problem s ≠ none
  | .dropObserver o => o ∈ v.observers
  | .dropSuite s => s ∈ v.suites ∧ v.problem s = none

/-- `coco_suite_forget_current_problem`, `/repo/build/rust/coco-sys/wrapper.c` lines 4-7. -/
def forgetCurrent (h : Heap) (s : Nat) : Res Heap :=
  (deref (h.suite s)).bind fun _ => .ok (h.setSuite s (some ⟨none⟩))

/-- One call: `Suite::new` (`/repo/build/rust/src/suite.rs` lines 105-127), `Observer::new` (`observer.rs` lines 74-87),
`next_problem` (`suite.rs` lines 147-160), `problem` (lines 163-171) and `problem_by_function_dimension_instance` (lines 178-198),
`add_observer` and `remove_observer` (`problem.rs` lines 65-78, whose `assert!` fails on a NULL pointer), the evaluations
(lines 91-112), and the three functions `drop` (`problem.rs` lines 221-227, `observer.rs` lines 105-111, `suite.rs` lines
210-216). -/
def step (h : Heap) (v : Vars) : Call → Res (Heap × Vars)
  | .newSuite =>
    (Lifecycle.step h .newSuite).bind fun (h, s) =>
    match s with
    | some s => .ok (h, { v with suites := s :: v.suites })
    | none => .ok (h, v)
  | .newObserver k name =>
    (Lifecycle.step h (.newObserver k name)).bind fun (h, o) =>
    match o with
    | some o => .ok (h, { v with observers := o :: v.observers })
    | none => .ok (h, v)
  | .nextProblem s next observer =>
    (Lifecycle.nextProblem h s next observer).bind fun (h, p) =>
    match p with
    | none => .ok (h, v)
    | some p => (forgetCurrent h s).bind fun h => .ok (h, { v with problem := Function.update v.problem s (some p) })
  | .problem s t =>
    match t with
    | none => (deref (h.suite s)).bind fun _ => .ok (h, v)
    | some t =>
      (Lifecycle.getProblem h s t).bind fun (h, p) => .ok (h, { v with problem := Function.update v.problem s (some p) })
  | .addObserver s o =>
    match v.problem s with
    | none => .ub
    | some p =>
      (Lifecycle.addObserver h p o).bind fun (h, q) => .ok (h, { v with problem := Function.update v.problem s (some q) })
  | .removeObserver s o =>
    match v.problem s with
    | none => .ub
    | some p =>
      (Lifecycle.removeObserver h p o).bind fun (h, q) =>
      match q with
      | none => .error
      | some q => .ok (h, { v with problem := Function.update v.problem s (some q) })
  | .evaluate s =>
    match v.problem s with
    | none => .ub
    | some p => (Lifecycle.evaluate (h.np + 1) h p).bind fun h => .ok (h, v)
  | .dropProblem s =>
    match v.problem s with
    | none => .ub
    | some p => (Lifecycle.freeProblem h p).bind fun h => .ok (h, { v with problem := Function.update v.problem s none })
  | .forgetProblem s => .ok (h, { v with problem := Function.update v.problem s none, leaked := v.leaked + 1 })
  | .dropObserver o =>
    (Lifecycle.freeObserver h o).bind fun h => .ok (h, { v with observers := v.observers.filter fun o' => o' ≠ o })
  | .dropSuite s =>
    (Lifecycle.freeSuite h s).bind fun h => .ok (h, { v with suites := v.suites.filter fun s' => s' ≠ s })

/-- A program. -/
def run : Heap → Vars → List Call → Res (Heap × Vars)
  | h, v, [] => .ok (h, v)
  | h, v, c :: cs => (step h v c).bind fun (h, v) => run h v cs

end RustWrapper
