import Verif.Model.MemoryScripts

/-
Memory of the problems of the suites: the functions of the suites that create problems, over the
constructors of Verif/Model/MemoryScripts.lean, and what a user does with the problems.

Simplifications: the strings and vectors that hold names, types and regions are blocks without
contents.  The random generator of a linear constraint is one block.  For a bi-objective problem the
two instances are found in the table (the memory of further instances is C99).
-/

namespace Memory

/-- `coco_error`, /repo/src/coco_runtime_c.c lines 16-25: the process stops. -/
def fail {α : Type} : M α := fun _ => .error

/-- A call of the constructor selected by the number of the function; an unknown number stops the
process (for example /repo/src/suite_bbob.c lines 181-185). -/
def callFor (e : Env) : Option (List Stmt) → M Prob
  | none => fail
  | some ss => call e ss

/-- The number of peaks of the Gallagher functions: /repo/src/suite_bbob.c lines 169 and 175,
/repo/src/suite_largescale.c lines 132-135 (101, and 21 for function 22). -/
def peaksOf (f : Nat) : Nat := if f = 22 then 21 else 101

/-- `coco_get_bbob_problem`, /repo/src/suite_bbob.c lines 85-187. -/
def bbobProblem (f n : Nat) : M Prob := callFor ⟨n, peaksOf f, false⟩ (bbobScript f)

/-- `coco_get_largescale_problem`, /repo/src/suite_largescale.c lines 58-153. -/
def largescaleProblem (f n : Nat) : M Prob := callFor ⟨n, peaksOf f, true⟩ (largescaleScript f)

/-- `suite_toy_get_problem`, /repo/src/suite_toy.c lines 42-77. -/
def toyProblem (f n : Nat) : M Prob := callFor ⟨n, 0, false⟩ (toyScript f)

/-- `coco_get_bbob_boxed_problem`, /repo/src/suite_sbox_cost.c lines 75-206: the constructors of the
bbob suite and the enforced box. -/
def sboxProblem (f n : Nat) : M Prob := do
  let p ← bbobProblem f n
  wrap ⟨n, 0, false⟩ .varsEnforceBox p

/-- `coco_get_bbob_noisy_problem`, /repo/src/suite_bbob_noisy.c lines 56-316. -/
def noisyProblem (f n : Nat) : M Prob :=
  match noisyScript f with
  | none => fail
  | some (ss, t) => do
    let p ← call ⟨n, 101, false⟩ ss
    wrap ⟨n, 101, false⟩ t p

/-- The function that creates the continuous problem in the mixed-integer suites:
/repo/src/suite_bbob_mixint.c lines 141-144 and /repo/src/suite_biobj_mixint.c lines 184-191. -/
def contProblem (f n : Nat) : M Prob := if n < 50 then bbobProblem f n else largescaleProblem f n

/-- `coco_get_bbob_mixint_problem`, /repo/src/suite_bbob_mixint.c lines 61-117. -/
def mixintProblem (f n : Nat) : M Prob :=
  if n % 5 ≠ 0 then fail
  else do
    let smallest ← alloc
    let largest ← alloc
    let p ← contProblem f n
    let p ← wrap ⟨n, 0, false⟩ .varsDiscretize p
    let p ← wrap ⟨n, 0, false⟩ .objScale p
    let p ← onFields setIdF p
    let p ← onFields setNameF p
    free smallest
    free largest
    pure p

/-! ### Constrained problems -/

/-- `c_sum_variables_allocate`, /repo/src/c_linear.c lines 142-156. -/
def sumVariables (e : Env) : M Prob := do
  let f ← newFields 0 1
  let f ← setIdF f
  pure (.base f ⟨e, .generic, none, none⟩ [])

/-- Lines 227-247 of /repo/src/c_linear.c: the gradient of the constraint is given or generated. -/
def withGradient (e : Env) (p : Prob) : Bool → M Prob
  | true => wrap e .consLinear p
  | false => do
    let g ← alloc
    let p ← wrap e .consLinear p
    free g
    pure p

/-- The initial solution set by `c_guarantee_feasible_point`, /repo/src/c_linear.c line 123: a pointer
set before is overwritten. -/
def setInitial (p : Prob) : M Prob := do
  let b ← alloc
  pure (p.withFields { p.fields with initial := some b })

/-- `c_linear_single_cons_bbob_problem_allocate`, /repo/src/c_linear.c lines 193-263 (a feasible
direction is always given). -/
def singleConstraint (e : Env) (given : Bool) : M Prob := do
  let p ← sumVariables e
  let generator ← alloc
  let p ← withGradient e p given
  let p ← setInitial p
  let p ← onFields setIdF p
  let p ← onFields setNameF p
  let p ← onFields setTypeF p
  free generator
  pure p

/-- The loop over the further constraints, /repo/src/c_linear.c lines 378-429: for each of them
whether its gradient is given. -/
def stackConstraints (e : Env) : Prob → List Bool → M Prob
  | p, [] => pure p
  | p, given :: rest => do
    let q ← singleConstraint e given
    let p ← stack p q
    let p ← onFields setNameF p
    let p ← onFields setIdF p
    let p ← onFields setTypeF p
    stackConstraints e p rest

/-- `c_linear_cons_bbob_problem_allocate`, /repo/src/c_linear.c lines 310-447: the first constraint and
the others (any of them may be given the gradient here). -/
def linearConstraints (e : Env) (first : Bool) (rest : List Bool) : M Prob := do
  let gradient ← alloc
  let combination ← alloc
  let generator ← alloc
  let generator2 ← alloc
  let p ← singleConstraint e first
  let p ← stackConstraints e p rest
  free combination
  free gradient
  free generator
  free generator2
  pure p

/-- Transformations in turn. -/
def wrapAll (e : Env) : List Transform → Prob → M Prob
  | [], p => pure p
  | t :: ts, p => do
    let p ← wrap e t p
    wrapAll e ts p

/-- `transform_inv_initial_oscillate`, `transform_inv_initial_asymmetric` and
`transform_inv_initial_composed` (/repo/src/transform_vars_oscillate.c lines 182-229,
transform_vars_asymmetric.c lines 181-232, transform_vars_composed.c lines 28-89), called if there
are transformations: the initial solution is changed in place, a problem without one is undefined
behaviour.  The temporaries of these functions are released at their end. -/
def invInitial (ts : List Transform) (p : Prob) : M Unit :=
  if ts ≠ [] ∧ p.fields.initial = none then undef else pure ()

/-- The nine functions `f_..._c_linear_cons_bbob_problem_allocate` of
/repo/src/suite_cons_bbob_problems.c lines 167-817. -/
def consFrom (e : Env) (ss : List Stmt) (ts : List Transform) (first : Bool) (rest : List Bool) :
    M Prob := do
  let zeros ← alloc
  let p ← call e ss
  let c ← linearConstraints e first rest
  let type ← dupOpt p.fields.type
  let p ← stack p c
  let p ← wrapAll e ts p
  invInitial ts p
  let p ← wrap e .varsShift p
  let p ← onFields setTypeF p
  freeOpt type
  free zeros
  pure p

/-- `coco_get_cons_bbob_problem` and `suite_cons_bbob_get_problem`, /repo/src/suite_cons_bbob.c lines
50-194.  The number of the objective is the number of the function divided by 6, rounded up
(`obj_function_type`, /repo/src/suite_cons_bbob_problems.c lines 101-105). -/
def constrainedProblem (f n : Nat) (first : Bool) (rest : List Bool) : M Prob :=
  match consScript ((f + 5) / 6) with
  | none => fail
  | some (ss, ts) => do
    let direction ← alloc
    let xopt ← alloc
    let p ← consFrom ⟨n, 0, false⟩ ss ts first rest
    let p ← wrap ⟨n, 0, false⟩ .objScale p
    free xopt
    free direction
    let p ← onFields setIdF p
    onFields setNameF p

/-! ### Bi-objective problems -/

/-- `coco_get_biobj_problem`, /repo/src/suite_biobj_utilities.c lines 240-478, for the two given
single-objective problems (the numbers of their functions are C59). -/
def biobjOf (first second : M Prob) : M Prob := do
  let smallest ← alloc
  let largest ← alloc
  let p ← first
  let q ← second
  let r ← stack p q
  let r ← onFields setNameF r
  let r ← onFields setIdF r
  let r ← onFields setTypeF r
  free smallest
  free largest
  pure r

/-- A problem of the suites bbob-biobj and bbob-biobj-ext, /repo/src/suite_biobj.c lines 66-102. -/
def biobjProblem (f1 f2 n : Nat) : M Prob := biobjOf (bbobProblem f1 n) (bbobProblem f2 n)

/-- /repo/src/suite_biobj_mixint.c lines 92-107: the two problems of a bi-objective problem are
duplicated, the duplicates take over the data (and share the versatile data, which is released only
by the free function of a problem, and that is passed on too), and the rest of the bi-objective
problem is released. -/
def takeApart : Prob → M (Prob × Prob)
  | .stacked f d p q => do
    let g ← dupFields p.fields
    let h ← dupFields q.fields
    freeGeneric p.fields
    freeGeneric q.fields
    free d
    freeGeneric f
    pure (p.withFields g, q.withFields h)
  | _ => undef

/-- `coco_get_biobj_mixint_problem`, /repo/src/suite_biobj_mixint.c lines 65-160. -/
def biobjMixintProblem (f1 f2 n : Nat) : M Prob :=
  if n % 5 ≠ 0 then fail
  else do
    let smallest ← alloc
    let largest ← alloc
    let r ← biobjOf (contProblem f1 n) (contProblem f2 n)
    let (p, q) ← takeApart r
    let p ← wrap ⟨n, 0, false⟩ .varsDiscretize p
    let q ← wrap ⟨n, 0, false⟩ .varsDiscretize q
    let p ← wrap ⟨n, 0, false⟩ .objScale p
    let q ← wrap ⟨n, 0, false⟩ .objScale q
    let r ← stack p q
    let r ← onFields setNameF r
    let r ← onFields setIdF r
    let r ← onFields setTypeF r
    free smallest
    free largest
    pure r

/-! ### The problems of all suites -/

/-- A problem of a suite: the functions called by `coco_suite_get_problem_from_indices`,
/repo/src/coco_suite.c lines 109-151.  For a constrained problem, whether the gradient of each
constraint is given. -/
inductive Request where
  | toy (f n : Nat)
  | bbob (f n : Nat)
  | largescale (f n : Nat)
  | sbox (f n : Nat)
  | noisy (f n : Nat)
  | mixint (f n : Nat)
  | constrained (f n : Nat) (first : Bool) (rest : List Bool)
  | biobj (f1 f2 n : Nat)
  | biobjMixint (f1 f2 n : Nat)
deriving DecidableEq, Repr

/-- The creation of a problem, /repo/src/coco_suite.c lines 109-151. -/
def create : Request → M Prob
  | .toy f n => toyProblem f n
  | .bbob f n => bbobProblem f n
  | .largescale f n => largescaleProblem f n
  | .sbox f n => sboxProblem f n
  | .noisy f n => noisyProblem f n
  | .mixint f n => mixintProblem f n
  | .constrained f n first rest => constrainedProblem f n first rest
  | .biobj f1 f2 n => biobjProblem f1 f2 n
  | .biobjMixint f1 f2 n => biobjMixintProblem f1 f2 n

/-- What a user (or the suite, /repo/src/coco_suite.c lines 893-928 and 432-435) does with a problem:
it is created, the loggers are attached (`coco_problem_add_observer`, /repo/src/coco_observer.c lines
804-817), and the problem is freed. -/
def session (r : Request) (loggers : List Transform) : M Unit := do
  let p ← create r
  let p ← wrapAll ⟨0, 0, false⟩ loggers p
  freeProb p

/-- Several problems in turn. -/
def sessions : List (Request × List Transform) → M Unit
  | [] => pure ()
  | (r, ts) :: rest => do
    session r ts
    sessions rest

end Memory
