import Mathlib.Algebra.Order.Group.Multiset
import Verif.Base.Res

/-
Ownership of heap memory: which blocks the functions that create, wrap, stack and free problems
allocate and release.

Only the allocation and release of blocks is modelled: the contents of the blocks are not, a block
is known by its number.  A block that is released without being allocated (never, or already
released) is undefined behaviour, as is the use of a released argument.

Not modelled: memory used by a helper function that it releases itself before returning (the bodies
of `bbob2009_compute_rotation`, `coco_compute_blockrotation`, `coco_vstrdupf`, ...), files, the memory
allocated and released while a solution is evaluated, and the texts of names (the constructors record
them for the model of C103, which shows that they fit the buffer of `coco_vstrdupf`).  Where a NULL
name is printed with `%s` (the linear constraints) the model follows the usual C library, which prints
"(null)".
-/

namespace Memory

/-- A block of memory, as obtained from `malloc`. -/
abbrev Blk := Nat

/-- The heap: the blocks allocated and not yet released; `next` is the number of the next block. -/
structure Heap where
  next : Blk
  live : Multiset Blk
deriving DecidableEq

/-- A C function with an effect on the heap. -/
def M (α : Type) : Type := Heap → Res (α × Heap)

instance : Monad M where
  pure a := fun h => .ok (a, h)
  bind m f := fun h => (m h).bind fun r => f r.1 r.2

/-- Undefined behaviour. -/
def undef {α : Type} : M α := fun _ => .ub

/-- `coco_allocate_memory`, /repo/src/coco_runtime_c.c lines 80-90 (running out of memory stops the
process and is not modelled), and the functions that allocate one block with it:
`coco_allocate_vector`, `coco_allocate_vector_with_value`, `coco_allocate_vector_size_t`,
`coco_allocate_string`, `coco_duplicate_vector` (/repo/src/coco_utilities.c), `coco_strdup`,
`coco_vstrdupf`, `coco_strconcat` (/repo/src/coco_string.c lines 21-96),
`coco_duplicate_size_t_vector` (/repo/src/transform_vars_permutation_helpers.c lines 146-158),
`coco_get_block_sizes` (/repo/src/transform_vars_blockrotation_helpers.c lines 144-163). -/
def alloc : M Blk := fun h => .ok (h.next, ⟨h.next + 1, h.next ::ₘ h.live⟩)

/-- `coco_free_memory` on a non-NULL pointer, /repo/src/coco_runtime_c.c line 92. -/
def free (b : Blk) : M Unit := fun h =>
  if b ∈ h.live then .ok ((), ⟨h.next, h.live.erase b⟩) else .ub

/-- `coco_free_memory` on a pointer that may be NULL, /repo/src/coco_runtime_c.c line 92. -/
def freeOpt : Option Blk → M Unit
  | none => pure ()
  | some b => free b

/-- The duplicate of a vector or string if there is one (`coco_strdup` of NULL is NULL,
/repo/src/coco_string.c lines 21-30). -/
def dupOpt : Option Blk → M (Option Blk)
  | none => pure none
  | some _ => do let b ← alloc; pure (some b)

/-! ### Vectors and matrices -/

/-- The number of rows of a matrix, in terms of the problem. -/
inductive Size where
  | one | dim | peaks
deriving DecidableEq, Repr

/-- The numbers a constructor depends on: the dimension, the number of peaks (Gallagher), and
whether the problem is created for the large-scale suite. -/
structure Env where
  dim : Nat
  peaks : Nat
  large : Bool
deriving DecidableEq, Repr

/-- The value of a size. -/
def Env.size (e : Env) : Size → Nat
  | .one => 1
  | .dim => e.dim
  | .peaks => e.peaks

/-- What a pointer of a structure or a local variable points to: one block (a vector, string or
structure), a matrix as an array of pointers to rows, or nothing (NULL). -/
inductive Kind where
  | vec
  | mat (rows : Size)
  | null
deriving DecidableEq, Repr

/-- The value of such a pointer. -/
inductive Chunk where
  | vec (b : Blk)
  | mat (b : Blk) (rows : List Blk)
  | null
deriving DecidableEq, Repr

/-- `n` blocks, the loop of `bbob2009_allocate_matrix`, /repo/src/suite_bbob_legacy_code.c lines
29-37, and of `coco_allocate_blockmatrix`, /repo/src/transform_vars_blockrotation_helpers.c lines
36-63. -/
def allocN : Nat → M (List Blk)
  | 0 => pure []
  | n + 1 => do
    let b ← alloc
    let bs ← allocN n
    pure (b :: bs)

/-- The release of `n` rows: the loop of `bbob2009_free_matrix`, /repo/src/suite_bbob_legacy_code.c
lines 42-51, and of `coco_free_block_matrix`, /repo/src/transform_vars_blockrotation_helpers.c
lines 69-78.  Reading a row that does not exist is undefined. -/
def freeN : Nat → List Blk → M Unit
  | 0, _ => pure ()
  | _ + 1, [] => undef
  | n + 1, b :: bs => do
    free b
    freeN n bs

/-- The allocation of a vector or matrix (see `alloc` and `allocN`). -/
def allocChunk (e : Env) : Kind → M Chunk
  | .vec => do let b ← alloc; pure (.vec b)
  | .mat s => do
    let b ← alloc
    let rs ← allocN (e.size s)
    pure (.mat b rs)
  | .null => pure .null

/-- The release of a pointer with the function for the given kind: `coco_free_memory` releases only
the array of a matrix, the functions for matrices read the rows.  All releases of pointers that may
be NULL are guarded or accept NULL. -/
def freeChunk (e : Env) : Kind → Chunk → M Unit
  | _, .null => pure ()
  | .null, _ => pure ()
  | .vec, .vec b => free b
  | .vec, .mat b _ => free b
  | .mat _, .vec _ => undef
  | .mat s, .mat b rs => do
    freeN (e.size s) rs
    free b

/-- The pointers of a structure, or the local variables of a function, by name. -/
abbrev Store := List (String × Chunk)

/-- Takes the pointer of the given name out of the store. -/
def take {β : Type} (x : String) : List (String × β) → Option (β × List (String × β))
  | [] => none
  | (y, c) :: s => if x = y then some (c, s) else (take x s).map fun r => (r.1, (y, c) :: r.2)

/-- Releases the named pointers in turn; a pointer that was never set, or has been released already,
is undefined behaviour. -/
def freeFields (e : Env) : List (String × Kind) → Store → M Unit
  | [], _ => pure ()
  | (x, k) :: fs, s =>
    match take x s with
    | none => undef
    | some (c, s') => do
      freeChunk e k c
      freeFields e fs s'

/-- Allocates the named pointers in turn. -/
def allocFields (e : Env) : List (String × Kind) → M Store
  | [] => pure []
  | (x, k) :: fs => do
    let c ← allocChunk e k
    let s ← allocFields e fs
    pure ((x, c) :: s)

/-! ### The problem structure -/

/-- The pointers of `coco_problem_t`, /repo/src/coco_internal.h lines 133-186, to memory of its own,
except for `data` and `versatile_data`; `self` is the structure itself. -/
structure Fields where
  nObj : Nat
  nCons : Nat
  self : Blk
  smallest : Blk
  largest : Blk
  bestParameter : Option Blk
  bestValue : Option Blk
  nadir : Option Blk
  noiseFree : Option Blk
  initial : Option Blk
  name : Option Blk
  id : Option Blk
  type : Option Blk
deriving DecidableEq, Repr

/-- An optional block. -/
def allocIf (b : Bool) : M (Option Blk) :=
  if b then do let x ← alloc; pure (some x) else pure none

/-- `coco_problem_allocate`, /repo/src/coco_problem.c lines 155-205. -/
def newFields (nObj nCons : Nat) : M Fields := do
  let self ← alloc
  let smallest ← alloc
  let largest ← alloc
  let noiseFree ← allocIf (0 < nObj)
  let bestParameter ← allocIf (¬ 1 < nObj)
  let bestValue ← alloc
  let nadir ← allocIf (1 < nObj)
  pure { nObj, nCons, self, smallest, largest, bestParameter, bestValue := some bestValue, nadir,
         noiseFree, initial := none, name := none, id := none, type := none }

/-- The nadir vector of a duplicate: allocated anew if there is one, /repo/src/coco_problem.c lines
250-255. -/
def dupNadir (own : Option Blk) : Option Blk → M (Option Blk)
  | none => pure own
  | some _ => do let b ← alloc; pure (some b)

/-- `coco_problem_duplicate`, /repo/src/coco_problem.c lines 210-272: the vector for the nadir
allocated by `coco_problem_allocate` is overwritten in line 251 if there is one. -/
def dupFields (o : Fields) : M Fields := do
  let f ← newFields o.nObj o.nCons
  let initial ← dupOpt o.initial
  let nadir ← dupNadir f.nadir o.nadir
  let name ← dupOpt o.name
  let id ← dupOpt o.id
  let type ← dupOpt o.type
  pure { f with initial, nadir, name, id, type }

/-- The generic part of `coco_problem_free`, /repo/src/coco_problem.c lines 308-343, except for
`data`. -/
def freeGeneric (f : Fields) : M Unit := do
  free f.smallest
  free f.largest
  freeOpt f.bestParameter
  freeOpt f.bestValue
  freeOpt f.nadir
  freeOpt f.name
  freeOpt f.id
  freeOpt f.type
  freeOpt f.initial
  freeOpt f.noiseFree
  free f.self

/-- `coco_problem_set_id`, /repo/src/coco_problem.c lines 383-394 (the check of the id is C83). -/
def setIdF (f : Fields) : M Fields := do
  freeOpt f.id
  let b ← alloc
  pure { f with id := some b }

/-- `coco_problem_set_name`, /repo/src/coco_problem.c lines 401-409. -/
def setNameF (f : Fields) : M Fields := do
  freeOpt f.name
  let b ← alloc
  pure { f with name := some b }

/-- `coco_problem_set_type`, /repo/src/coco_problem.c lines 416-424. -/
def setTypeF (f : Fields) : M Fields := do
  freeOpt f.type
  let b ← alloc
  pure { f with type := some b }

/-! ### Transformations and observers -/

/-- The transformations used by the suites and the loggers of the observers (which wrap a problem in
the same way).  `loggerBbob true` is a bbob logger with logarithmic targets. -/
inductive Transform where
  | objShift | objScale | objPower | objPenalize | objOscillate | objNormByDim
  | objGaussianNoise | objUniformNoise | objCauchyNoise
  | varsShift | varsScale | varsAffine | varsAsymmetric | varsOscillate | varsBrs
  | varsConditioning | varsPermutation | varsInversePermutation | varsBlockrotation
  | varsRoundStep | varsXHat | varsXHatGeneric | varsZHat | varsDiscretize | varsEnforceBox
  | consLinear
  | loggerToy | loggerRw | loggerBbob (logTargets : Bool)
deriving DecidableEq, Repr

/-- The targets of a bbob logger: `coco_observer_targets`, /repo/src/coco_observer.c lines
242-252. -/
def targetsFields (p : String) (log : Bool) : List (String × Kind) :=
  [(p, .vec), (p ++ ".lin", .vec), (p ++ ".log", if log then .vec else .null)]

/-- The memory allocated for the data of a transformation: `none` if there is no data.

* one block only: transform_obj_shift.c:68, transform_obj_scale.c:75, transform_obj_power.c:47,
  transform_obj_penalize.c:61, transform_obj_gaussian_noise.c:41, transform_obj_uniform_noise.c:49,
  transform_obj_cauchy_noise.c:46, logger_rw.c:155
* no data: transform_obj_norm_by_dim.c:30, transform_obj_oscillate.c:44,
  transform_vars_enforce_box.c:55
* transform_vars_shift.c:119-121, transform_vars_scale.c:60-62, transform_vars_affine.c:171-174,
  transform_vars_asymmetric.c:154-155, transform_vars_oscillate.c:158-160, transform_vars_brs.c:70-71,
  transform_vars_conditioning.c:92-93, transform_vars_permutation.c:48-50 and 80-82,
  transform_vars_blockrotation.c:129-136, transform_vars_round_step.c:72-73,
  transform_vars_x_hat.c:67-69, transform_vars_x_hat_generic.c:67-69, transform_vars_z_hat.c:60-62,
  transform_vars_discretize.c:100-101, c_linear.c:174-176, logger_toy.c:86-88,
  logger_bbob.c:688-727 -/
def Transform.fields : Transform → Option (List (String × Kind))
  | .objShift | .objScale | .objPower | .objPenalize => some []
  | .objGaussianNoise | .objUniformNoise | .objCauchyNoise => some []
  | .objOscillate | .objNormByDim | .varsEnforceBox => none
  | .varsShift => some [("offset", .vec), ("shifted_x", .vec)]
  | .varsScale => some [("x", .vec)]
  | .varsAffine => some [("M", .vec), ("b", .vec), ("x", .vec)]
  | .varsAsymmetric => some [("x", .vec)]
  | .varsOscillate => some [("oscillated_x", .vec)]
  | .varsBrs => some [("x", .vec)]
  | .varsConditioning => some [("x", .vec)]
  | .varsPermutation | .varsInversePermutation => some [("x", .vec), ("P", .vec)]
  | .varsBlockrotation => some [("Bx", .vec), ("block_sizes", .vec), ("B", .mat .dim),
      ("block_size_map", .vec), ("first_non_zero_map", .vec)]
  | .varsRoundStep => some [("rounded_x", .vec)]
  | .varsXHat => some [("x", .vec)]
  | .varsXHatGeneric => some [("x", .vec), ("sign_vector", .vec)]
  | .varsZHat => some [("xopt", .vec), ("z", .vec)]
  | .varsDiscretize => some [("offset", .vec)]
  | .consLinear => some [("gradient", .vec), ("x", .vec)]
  | .loggerToy => some [("targets", .vec)]
  | .loggerRw => some []
  | .loggerBbob log => some ([("best_found_solution", .vec), ("best_recommended_solution", .vec)]
      ++ targetsFields "targets" log ++ [("evaluations", .vec), ("evaluations.base", .vec)]
      ++ targetsFields "mdat_targets" log)

/-- The memory released by the data free function of a transformation (the data block itself is
released by `coco_problem_transformed_free_data`).

transform_vars_shift.c:101-105, transform_vars_scale.c:48-51, transform_vars_affine.c:147-152,
transform_vars_asymmetric.c:142-145, transform_vars_oscillate.c:147-150, transform_vars_brs.c:58-61,
transform_vars_conditioning.c:80-83, transform_vars_permutation.c:35-39,
transform_vars_blockrotation.c:88-95, transform_vars_round_step.c:59-62, transform_vars_x_hat.c:54-57,
transform_vars_x_hat_generic.c:53-57, transform_vars_z_hat.c:48-52, transform_vars_discretize.c:80-83,
c_linear.c:132-137, logger_toy.c:33-44, logger_rw.c:126-137, logger_bbob.c:606-629 with
`coco_observer_targets_free` (coco_observer.c:284-291) and `coco_observer_evaluations_free`
(coco_observer.c:416-421). -/
def Transform.freed : Transform → List (String × Kind)
  | .varsShift => [("shifted_x", .vec), ("offset", .vec)]
  | .varsScale => [("x", .vec)]
  | .varsAffine => [("M", .vec), ("b", .vec), ("x", .vec)]
  | .varsAsymmetric => [("x", .vec)]
  | .varsOscillate => [("oscillated_x", .vec)]
  | .varsBrs => [("x", .vec)]
  | .varsConditioning => [("x", .vec)]
  | .varsPermutation | .varsInversePermutation => [("x", .vec), ("P", .vec)]
  | .varsBlockrotation => [("B", .mat .dim), ("block_sizes", .vec), ("Bx", .vec),
      ("block_size_map", .vec), ("first_non_zero_map", .vec)]
  | .varsRoundStep => [("rounded_x", .vec)]
  | .varsXHat => [("x", .vec)]
  | .varsXHatGeneric => [("x", .vec), ("sign_vector", .vec)]
  | .varsZHat => [("xopt", .vec), ("z", .vec)]
  | .varsDiscretize => [("offset", .vec)]
  | .consLinear => [("gradient", .vec), ("x", .vec)]
  | .loggerToy => [("targets", .vec)]
  | .loggerBbob log =>
      [("best_found_solution", .vec), ("best_recommended_solution", .vec)]
      ++ [("targets.lin", .vec), ("targets.log", if log then .vec else .null), ("targets", .vec)]
      ++ [("evaluations.base", .vec), ("evaluations", .vec)]
      ++ [("mdat_targets.lin", .vec), ("mdat_targets.log", if log then .vec else .null),
          ("mdat_targets", .vec)]
  | .objShift | .objScale | .objPower | .objPenalize | .objGaussianNoise | .objUniformNoise
  | .objCauchyNoise | .objOscillate | .objNormByDim | .varsEnforceBox | .loggerRw => []

/-! ### Basic problems -/

/-- The value of `problem_free_function` of a basic problem: NULL (`generic`) or a function of the
raw function. -/
inductive FreeFn where
  | generic | attractiveSector | gallagher | lunacek | stepEllipsoid
  | versatile | lunacekVersatile | gallagherVersatile
deriving DecidableEq, Repr

/-- The pointers of `problem->data` released by the free function (the data block itself is released
by the generic part of `coco_problem_free`): f_attractive_sector.c:66-72, f_gallagher.c:142-152,
f_lunacek_bi_rastrigin.c:107-121, f_step_ellipsoid.c:114-126. -/
def FreeFn.data : FreeFn → List (String × Kind)
  | .attractiveSector => [("xopt", .vec)]
  | .gallagher => [("xopt", .vec), ("peak_values", .vec), ("rotation", .mat .dim),
      ("x_local", .mat .dim), ("arr_scales", .mat .peaks)]
  | .lunacek => [("x_hat", .vec), ("z", .vec), ("xopt", .vec), ("rot1", .mat .dim),
      ("rot2", .mat .dim)]
  | .stepEllipsoid => [("x", .vec), ("xx", .vec), ("xopt", .vec), ("rot1", .mat .dim),
      ("rot2", .mat .dim)]
  | .generic | .versatile | .lunacekVersatile | .gallagherVersatile => []

/-- The pointers of `problem->versatile_data` released by the free function before the block itself,
`none` if it does not touch the versatile data: f_bent_cigar_generalized.c:28-37,
f_discus_generalized.c:28-36, f_sharp_ridge_generalized.c:30-38, f_step_ellipsoid.c:219-224
(`versatile`), f_lunacek_bi_rastrigin.c:195-213,
transform_vars_gallagher_blockrotation.c:45-73. -/
def FreeFn.vd : FreeFn → Option (List (String × Kind))
  | .versatile => some []
  | .lunacekVersatile => some [("x_hat", .vec)]
  | .gallagherVersatile => some [("sub_problems", .vec), ("rotated_x", .vec), ("block_sizes", .vec),
      ("block_size_map", .vec), ("first_non_zero_map", .vec), ("B", .mat .dim)]
  | .generic | .attractiveSector | .gallagher | .lunacek | .stepEllipsoid => none

/-- Whether the free function releases the sub-problems of the versatile data: lines 199-205 of
f_lunacek_bi_rastrigin.c and 48-51 of transform_vars_gallagher_blockrotation.c. -/
def FreeFn.subs : FreeFn → Bool
  | .lunacekVersatile | .gallagherVersatile => true
  | _ => false

/-- The parts of a basic problem besides the generic fields. -/
structure Base where
  env : Env
  fn : FreeFn
  data : Option (Blk × Store)
  vd : Option (Blk × Store)
deriving DecidableEq, Repr

/-- A problem with everything it owns: a basic problem with the sub-problems of its versatile data,
a wrapped problem (`coco_problem_transformed_data_t` with its data and inner problem,
/repo/src/coco_internal.h) or two stacked problems. -/
inductive Prob where
  | base (f : Fields) (b : Base) (subs : List Prob)
  | transformed (f : Fields) (td : Blk) (e : Env) (t : Transform) (user : Option (Blk × Store))
      (inner : Prob)
  | stacked (f : Fields) (d : Blk) (p q : Prob)

namespace Prob

/-- The generic fields of a problem. -/
def fields : Prob → Fields
  | base f _ _ => f
  | transformed f _ _ _ _ _ => f
  | stacked f _ _ _ => f

/-- The problem with other generic fields. -/
def withFields (g : Fields) : Prob → Prob
  | base _ b s => base g b s
  | transformed _ td e t u p => transformed g td e t u p
  | stacked _ d p q => stacked g d p q

end Prob

/-! ### Freeing -/

/-- The release of a data structure with the named pointers. -/
def freeStruct (e : Env) (fs : List (String × Kind)) : Blk × Store → M Unit
  | (d, s) => do
    freeFields e fs s
    free d

/-- `data` of a basic problem: its pointers by the free function of the raw function (see
`FreeFn.data`), the block by the generic part (/repo/src/coco_problem.c lines 325-326). -/
def freeData (e : Env) (fn : FreeFn) : Option (Blk × Store) → M Unit
  | none => if fn.data = [] then pure () else undef
  | some r => freeStruct e fn.data r

/-- `versatile_data` of a basic problem with its sub-problems (see `FreeFn.vd` and
`FreeFn.subs`). -/
def freeVd (e : Env) (fn : FreeFn) (freeSubs : M Unit) (vd : Option (Blk × Store)) : M Unit :=
  match fn.vd, vd with
  | none, _ => pure ()
  | some _, none => undef
  | some fs, some r => do
    (if fn.subs then freeSubs else pure ())
    freeStruct e fs r

/-- The data of a basic problem: `data` and `versatile_data` (/repo/src/coco_problem.c lines
303-344 and the functions cited at `FreeFn`). -/
def freeBase (b : Base) (freeSubs : M Unit) : M Unit := do
  freeData b.env b.fn b.data
  freeVd b.env b.fn freeSubs b.vd

/-- The data of a transformation, /repo/src/coco_problem.c lines 806-825: released with the function
of the transformation, then the block. -/
def freeUser (e : Env) (t : Transform) : Option (Blk × Store) → M Unit
  | none => pure ()
  | some r => freeStruct e t.freed r

/-- `coco_problem_transformed_free_data`, /repo/src/coco_problem.c lines 806-825, for the wrapper
with the data of transformation `t`. -/
def freeWrapper (f : Fields) (td : Blk) (e : Env) (t : Transform) (user : Option (Blk × Store)) :
    M Unit := do
  freeUser e t user
  free td
  freeGeneric f

mutual
/-- `coco_problem_free`, /repo/src/coco_problem.c lines 303-344, with the free functions it
dispatches to: `coco_problem_transformed_free` (lines 830-842), `coco_problem_stacked_free`
(lines 939-957) and those of basic problems. -/
def freeProb : Prob → M Unit
  | .base f b subs => do
    freeBase b (freeList subs)
    freeGeneric f
  | .transformed f td e t user inner => do
    freeProb inner
    freeWrapper f td e t user
  | .stacked f d p q => do
    freeProb p
    freeProb q
    free d
    freeGeneric f
/-- The loop over the sub-problems, transform_vars_gallagher_blockrotation.c lines 49-51 and
f_lunacek_bi_rastrigin.c lines 199-205. -/
def freeList : List Prob → M Unit
  | [] => pure ()
  | p :: ps => do
    freeProb p
    freeList ps
end

/-! ### Wrapping and stacking -/

/-- The allocation of the data of a transformation (see `Transform.fields`). -/
def allocUser (e : Env) (t : Transform) : M (Option (Blk × Store)) :=
  match t.fields with
  | none => pure none
  | some fs => do
    let d ← alloc
    let s ← allocFields e fs
    pure (some (d, s))

/-- A transformation or logger: allocation of its data (see `Transform.fields`) followed by
`coco_problem_transformed_allocate`, /repo/src/coco_problem.c lines 850-874. -/
def wrap (e : Env) (t : Transform) (p : Prob) : M Prob := do
  let user ← allocUser e t
  let old ← dupOpt p.fields.name
  let td ← alloc
  let f ← dupFields p.fields
  let f ← setNameF f
  freeOpt old
  pure (.transformed f td e t user p)

/-- `coco_problem_remove_observer`, /repo/src/coco_observer.c lines 828-859, for an observer that
wraps the problem (the check of the name is C29). -/
def removeObserver : Prob → M Prob
  | .transformed f td e t user inner => do
    let pre ← alloc
    free pre
    freeWrapper f td e t user
    pure inner
  | _ => undef

/-- `coco_problem_stacked_allocate`, /repo/src/coco_problem.c lines 969-1043. -/
def stack (p q : Prob) : M Prob := do
  let f ← newFields (p.fields.nObj + q.fields.nObj) (p.fields.nCons + q.fields.nCons)
  let s ← alloc
  let id ← alloc
  free s
  let s ← alloc
  let name ← alloc
  free s
  let initial ← dupOpt (if 0 < p.fields.nCons + q.fields.nCons ∧ 0 < q.fields.nCons
    then q.fields.initial else none)
  let d ← alloc
  pure (.stacked { f with id := some id, name := some name, initial } d p q)

/-- `coco_problem_set_id`, `coco_problem_set_name` and `coco_problem_set_type` on a problem
(/repo/src/coco_problem.c lines 383-424). -/
def onFields (m : Fields → M Fields) (p : Prob) : M Prob := do
  let f ← m p.fields
  pure (p.withFields f)

/-! ### Constructors as programs -/

/-- The statements of a constructor that concern memory: local variables, the problem under
construction and (Gallagher) a second, auxiliary problem. -/
inductive Op where
  /-- `x = coco_allocate_...` -/
  | alloc (x : String) (k : Kind)
  /-- `coco_free_memory(x)`, `bbob2009_free_matrix(x, n)`, `coco_free_block_matrix(x, n)` -/
  | free (x : String) (k : Kind)
  /-- `problem = coco_problem_allocate_from_scalars(...)` with the given free function and name (the
  texts here and below are used in Verif/Model/Identity.lean) -/
  | fromScalars (fn : FreeFn) (name : String)
  /-- `problem->problem_free_function = ...` -/
  | setFree (fn : FreeFn)
  /-- `data = coco_allocate_memory(sizeof(*data)); problem->data = data` -/
  | newData
  /-- `data->x = ...` -/
  | dataField (x : String) (k : Kind)
  /-- `problem->versatile_data = coco_allocate_memory(...)` -/
  | newVd
  /-- `versatile_data->x = ...` -/
  | vdField (x : String) (k : Kind)
  /-- `problem = transform_...(problem, ...)` where the transformation reads the given variables -/
  | wrap (t : Transform) (args : List String)
  /-- the same under the condition that the problem is created for the large-scale suite -/
  | wrapLarge (t : Transform) (args : List String)
  /-- `coco_problem_set_id` with the template of the suite, or with a text, `_d` and the dimension with
  the given number of digits -/
  | setId (raw : Option (String × Nat))
  /-- `coco_problem_set_name` with the template of the suite -/
  | setName
  /-- `coco_problem_set_type` -/
  | setType (type : String)
  /-- `coco_problem_allocate_from_scalars` for the auxiliary problem -/
  | auxNew (name : String)
  /-- a transformation of the auxiliary problem -/
  | auxWrap (t : Transform) (args : List String)
  /-- `coco_problem_free` of the auxiliary problem -/
  | auxFree
deriving DecidableEq, Repr

/-- A constructor: operations and operations on the sub-problems. -/
inductive Stmt where
  | op (o : Op)
  /-- `n` times: the next sub-problem of the versatile data is obtained from a constructor -/
  | newSubs (n : Size) (body : List Op)
  /-- the operations on sub-problem `i` -/
  | onSub (i : Nat) (body : List Op)
  /-- the operations on each of the sub-problems in turn -/
  | forSubs (body : List Op)
deriving Repr

/-- The variables of a constructor. -/
structure Frame where
  store : Store
  prob : Option Prob
  aux : Option Prob

/-- The variables at the beginning. -/
def Frame.init : Frame := ⟨[], none, none⟩

/-- Whether the named variables are all allocated. -/
def hasAll {β : Type} (s : List (String × β)) (xs : List String) : Bool :=
  xs.all fun x => s.any fun r => r.1 = x

/-- One operation on the variables (the meaning of `Op`, see there for the C statements; the
functions called are /repo/src/coco_problem.c lines 155-424 and 850-874). -/
def runOp (e : Env) (v : Frame) : Op → M Frame
  | .alloc x k => do
    let c ← allocChunk e k
    pure { v with store := (x, c) :: v.store }
  | .free x k =>
    match take x v.store with
    | none => undef
    | some (c, s) => do
      freeChunk e k c
      pure { v with store := s }
  | .fromScalars fn _ => do
    let f ← newFields 1 0
    let f ← setNameF f
    pure { v with prob := some (.base f ⟨e, fn, none, none⟩ []) }
  | .setFree fn =>
    match v.prob with
    | some (.base f b s) => pure { v with prob := some (.base f { b with fn } s) }
    | _ => undef
  | .newData =>
    match v.prob with
    | some (.base f b s) => do
      let d ← Memory.alloc
      pure { v with prob := some (.base f { b with data := some (d, []) } s) }
    | _ => undef
  | .dataField x k =>
    match v.prob with
    | some (.base f ⟨e', fn, some (d, s), vd⟩ ss) => do
      let c ← allocChunk e k
      pure { v with prob := some (.base f ⟨e', fn, some (d, (x, c) :: s), vd⟩ ss) }
    | _ => undef
  | .newVd =>
    match v.prob with
    | some (.base f b s) => do
      let d ← Memory.alloc
      pure { v with prob := some (.base f { b with vd := some (d, []) } s) }
    | _ => undef
  | .vdField x k =>
    match v.prob with
    | some (.base f ⟨e', fn, data, some (d, s)⟩ ss) => do
      let c ← allocChunk e k
      pure { v with prob := some (.base f ⟨e', fn, data, some (d, (x, c) :: s)⟩ ss) }
    | _ => undef
  | .wrap t args =>
    match v.prob with
    | some p => if hasAll v.store args then do
        let p ← Memory.wrap e t p
        pure { v with prob := some p }
      else undef
    | none => undef
  | .wrapLarge t args =>
    if e.large then
      match v.prob with
      | some p => if hasAll v.store args then do
          let p ← Memory.wrap e t p
          pure { v with prob := some p }
        else undef
      | none => undef
    else pure v
  | .setId _ =>
    match v.prob with
    | some p => do let p ← onFields setIdF p; pure { v with prob := some p }
    | none => undef
  | .setName =>
    match v.prob with
    | some p => do let p ← onFields setNameF p; pure { v with prob := some p }
    | none => undef
  | .setType _ =>
    match v.prob with
    | some p => do let p ← onFields setTypeF p; pure { v with prob := some p }
    | none => undef
  | .auxNew _ => do
    let f ← newFields 1 0
    let f ← setNameF f
    pure { v with aux := some (.base f ⟨e, .generic, none, none⟩ []) }
  | .auxWrap t args =>
    match v.aux with
    | some p => if hasAll v.store args then do
        let p ← Memory.wrap e t p
        pure { v with aux := some p }
      else undef
    | none => undef
  | .auxFree =>
    match v.aux with
    | some p => do freeProb p; pure { v with aux := none }
    | none => undef

/-- The operations of a function in turn. -/
def runOps (e : Env) : List Op → Frame → M Frame
  | [], v => pure v
  | o :: os, v => do
    let v ← runOp e v o
    runOps e os v

/-- The problem returned by a constructor; its local variables are lost. -/
def result (v : Frame) : M Prob :=
  match v.prob with
  | some p => pure p
  | none => undef

/-- `n` sub-problems from the constructor `body`. -/
def newSubs (e : Env) (body : List Op) : Nat → M (List Prob)
  | 0 => pure []
  | n + 1 => do
    let v ← runOps e body Frame.init
    let p ← result v
    let ps ← newSubs e body n
    pure (p :: ps)

/-- The operations `body` with sub-problem `p` in the role of the problem: the other variables are
those of the constructor. -/
def onProb (e : Env) (body : List Op) (v : Frame) (p : Prob) : M (Frame × Prob) := do
  let w ← runOps e body { v with prob := some p }
  let q ← result w
  pure ({ w with prob := v.prob }, q)

/-- The loop over the sub-problems. -/
def onEach (e : Env) (body : List Op) : Frame → List Prob → M (Frame × List Prob)
  | v, [] => pure (v, [])
  | v, p :: ps => do
    let (v, q) ← onProb e body v p
    let (v, qs) ← onEach e body v ps
    pure (v, q :: qs)

/-- One statement (the meaning of `Stmt`; see the constructors of f_gallagher.c and
f_lunacek_bi_rastrigin.c). -/
def runStmt (e : Env) (v : Frame) : Stmt → M Frame
  | .op o => runOp e v o
  | .newSubs n body =>
    match v.prob with
    | some (.base f b ss) => do
      let ps ← newSubs e body (e.size n)
      pure { v with prob := some (.base f b (ss ++ ps)) }
    | _ => undef
  | .onSub i body =>
    match v.prob with
    | some (.base f b ss) =>
      match ss[i]? with
      | some p => do
        let (w, q) ← onProb e body v p
        pure { w with prob := some (.base f b (ss.set i q)) }
      | none => undef
    | _ => undef
  | .forSubs body =>
    match v.prob with
    | some (.base f b ss) => do
      let (w, qs) ← onEach e body v ss
      pure { w with prob := some (.base f b qs) }
    | _ => undef

/-- The statements of a constructor in turn. -/
def runStmts (e : Env) : List Stmt → Frame → M Frame
  | [], v => pure v
  | s :: ss, v => do
    let v ← runStmt e v s
    runStmts e ss v

/-- A call of a constructor. -/
def call (e : Env) (ss : List Stmt) : M Prob := do
  let v ← runStmts e ss Frame.init
  result v

end Memory
