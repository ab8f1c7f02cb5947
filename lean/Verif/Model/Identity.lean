import Verif.Model.Biobj
import Verif.Model.InfoFile
import Verif.Model.MemorySuites
import Verif.Model.OptionKeys
import Verif.Model.Problem

/-
Ids, names and types of problems: the texts that the constructors of Verif/Model/MemoryScripts.lean give to
the problems, and the functions of the suites that set ids, names and types.

Every text set with `coco_problem_set_id`, `_name` or `_type`, and every name of a transformed problem, is
printed into a buffer of 444 characters (`Observer.strdupf`, C70).

Simplifications: a NULL text printed with `%s` is "(null)", as with the usual C library.  The sub-problems of a
problem are kept beside it.  `suite_name` of a constrained suite is one of its three names.
-/

namespace Identity
open InfoFile (dec)
open Observer (strdupf)
open Memory (Transform Op Stmt Size)

/-- `problem_id`, `problem_name` and `problem_type` of `coco_problem_t`, /repo/src/coco_internal.h lines 133-186;
`none` is NULL. -/
structure Texts where
  id : Option (List Char)
  name : Option (List Char)
  type : Option (List Char)
deriving DecidableEq, Repr

/-- The text of a pointer printed with `%s`, for example in /repo/src/coco_problem.c line 870. -/
def shown : Option (List Char) → List Char
  | none => "(null)".toList
  | some s => s

/-- The conversion `%0<w>lu` (`%lu` for `w = 0`) in the templates of ids, for example /repo/src/suite_bbob.c line
88. -/
def zeros (w n : Nat) : List Char := List.replicate (w - (dec n).length) '0' ++ dec n

/-- `coco_problem_set_id`, /repo/src/coco_problem.c lines 383-394, for the printed text `s`. -/
def setId (s : List Char) (t : Texts) : Res Texts :=
  (strdupf s).bind fun s => if Problem.idIsFine s then .ok { t with id := some s } else .error

/-- `coco_problem_set_name`, /repo/src/coco_problem.c lines 401-409, for the printed text `s`. -/
def setName (s : List Char) (t : Texts) : Res Texts := (strdupf s).bind fun s => .ok { t with name := some s }

/-- `coco_problem_set_type`, /repo/src/coco_problem.c lines 416-424, for the printed text `s`. -/
def setType (s : List Char) (t : Texts) : Res Texts := (strdupf s).bind fun s => .ok { t with type := some s }

/-- `coco_problem_transformed_allocate`, /repo/src/coco_problem.c lines 850-874: id and type are those of the inner
problem, the name has the prefix. -/
def wrapped (pre : List Char) (t : Texts) : Res Texts := setName (pre ++ "(".toList ++ shown t.name ++ ")".toList) t

/-- The prefix given to `coco_problem_transformed_allocate`: transform_obj_shift.c:71, transform_obj_scale.c:78,
transform_obj_power.c:50, transform_obj_penalize.c:63, transform_obj_oscillate.c:44, transform_obj_norm_by_dim.c:30,
transform_obj_gaussian_noise.c:43, transform_obj_uniform_noise.c:52, transform_obj_cauchy_noise.c:49,
transform_vars_shift.c:123, transform_vars_scale.c:64, transform_vars_affine.c:176, transform_vars_asymmetric.c:157-158,
transform_vars_oscillate.c:163, transform_vars_brs.c:72, transform_vars_conditioning.c:95-96,
transform_vars_permutation.c:52-53 and 84-85, transform_vars_blockrotation.c:155-156, transform_vars_round_step.c:76-77,
transform_vars_x_hat.c:71, transform_vars_x_hat_generic.c:74-75, transform_vars_z_hat.c:64,
transform_vars_discretize.c:103-104, transform_vars_enforce_box.c:55, c_linear.c:179 (all in /repo/src).  The loggers,
which use the name of the observer, are not used by constructors. -/
def pre : Transform → String
  | .objShift => "transform_obj_shift"
  | .objScale => "transform_obj_scale"
  | .objPower => "transform_obj_power"
  | .objPenalize => "transform_obj_penalize"
  | .objOscillate => "transform_obj_oscillate"
  | .objNormByDim => "transform_obj_norm_by_dim"
  | .objGaussianNoise => "gaussian_noise_model"
  | .objUniformNoise => "uniform_noise_model"
  | .objCauchyNoise => "cauchy_noise_model"
  | .varsShift => "transform_vars_shift"
  | .varsScale => "transform_vars_scale"
  | .varsAffine => "transform_vars_affine"
  | .varsAsymmetric => "transform_vars_asymmetric"
  | .varsOscillate => "transform_vars_oscillate"
  | .varsBrs => "transform_vars_brs"
  | .varsConditioning => "transform_vars_conditioning"
  | .varsPermutation => "transform_vars_permutation"
  | .varsInversePermutation => "transform_vars_inverse_permutation"
  | .varsBlockrotation => "transform_vars_blockrotation"
  | .varsRoundStep => "transform_vars_round_step"
  | .varsXHat => "transform_vars_x_hat"
  | .varsXHatGeneric => "transform_vars_x_hat_generic"
  | .varsZHat => "transform_vars_z_hat"
  | .varsDiscretize => "transform_vars_discretize"
  | .varsEnforceBox => "transform_vars_enforce_box"
  | .consLinear => "gradient_linear_constraint"
  | .loggerToy | .loggerRw | .loggerBbob _ => "logger"

/-- A transformation of a problem (see `wrapped` and `pre`). -/
def wrap (t : Transform) (x : Texts) : Res Texts := wrapped (pre t).toList x

/-! ### Constructors -/

/-- The templates of a suite: `problem_id_template` is `<id>_f%0<wf>lu_i%0<wi>lu_d%0<wd>lu` and
`problem_name_template` is `<title> problem f%lu instance %lu in %luD` (see the templates below). -/
structure Template where
  id : String
  wf : Nat
  wi : Nat
  wd : Nat
  title : String
deriving DecidableEq, Repr

/-- /repo/src/suite_bbob.c lines 88-89. -/
def bbobTemplate : Template := ⟨"bbob", 3, 2, 2, "BBOB suite"⟩

/-- /repo/src/suite_largescale.c lines 62-63. -/
def largescaleTemplate : Template := ⟨"bbob", 3, 2, 4, "BBOB large-scale suite"⟩

/-- /repo/src/suite_bbob_noisy.c lines 61-62. -/
def noisyTemplate : Template := ⟨"bbob_noisy", 0, 2, 2, "BBOB-NOISY suite"⟩

/-- /repo/src/suite_sbox_cost.c lines 80-82. -/
def sboxTemplate : Template := ⟨"bbob-boxed", 3, 2, 2, "bbob-boxed suite"⟩

/-- The text of an id with a template like `<id>_f%03lu_i%02lu_d%02lu`, /repo/src/coco_problem.c line 389. -/
def idText (t : Template) (f i d : Nat) : List Char :=
  t.id.toList ++ "_f".toList ++ zeros t.wf f ++ "_i".toList ++ zeros t.wi i ++ "_d".toList ++ zeros t.wd d

/-- The text of a name with a template like `<title> problem f%lu instance %lu in %luD`, /repo/src/coco_problem.c line
407. -/
def nameText (t : Template) (f i d : Nat) : List Char :=
  t.title.toList ++ " problem f".toList ++ dec f ++ " instance ".toList ++ dec i ++ " in ".toList ++ dec d ++ "D".toList

/-- The arguments of a constructor: templates, function, instance, dimension, number of peaks, and whether the problem is
for the large-scale suite. -/
structure Ctx where
  t : Template
  f : Nat
  i : Nat
  d : Nat
  peaks : Nat
  large : Bool

/-- The variables of a constructor: the problem, its sub-problems, the auxiliary problem (see `Memory.Frame`). -/
structure Frame where
  prob : Option Texts
  subs : List Texts
  aux : Option Texts

/-- A function applied to a problem that must exist. -/
def onProb (g : Texts → Res Texts) (v : Frame) : Res Frame :=
  match v.prob with
  | none => .ub
  | some x => (g x).bind fun x => .ok { v with prob := some x }

/-- The same for the auxiliary problem. -/
def onAux (g : Texts → Res Texts) (v : Frame) : Res Frame :=
  match v.aux with
  | none => .ub
  | some x => (g x).bind fun x => .ok { v with aux := some x }

/-- The text of the id set by an operation: that of the suite, or of the raw function (for example
/repo/src/f_sphere.c line 67). -/
def opId (c : Ctx) : Option (String × Nat) → List Char
  | none => idText c.t c.f c.i c.d
  | some (s, w) => s.toList ++ "_d".toList ++ zeros w c.d

/-- The texts of a problem from `coco_problem_allocate_from_scalars`, /repo/src/coco_problem.c lines 279-300. -/
def fromScalars (name : String) : Texts := ⟨none, some name.toList, none⟩

/-- The effect of an operation of a constructor (`Memory.Op`) on the texts. -/
def runOp (c : Ctx) (v : Frame) : Op → Res Frame
  | .fromScalars _ name => .ok { v with prob := some (fromScalars name) }
  | .wrap t _ => onProb (wrap t) v
  | .wrapLarge t _ => if c.large then onProb (wrap t) v else .ok v
  | .setId raw => onProb (setId (opId c raw)) v
  | .setName => onProb (setName (nameText c.t c.f c.i c.d)) v
  | .setType type => onProb (setType type.toList) v
  | .auxNew name => .ok { v with aux := some (fromScalars name) }
  | .auxWrap t _ => onAux (wrap t) v
  | .auxFree => .ok { v with aux := none }
  | .alloc _ _ | .free _ _ | .setFree _ | .newData | .dataField _ _ | .newVd | .vdField _ _ => .ok v

/-- Operations in turn. -/
def runOps (c : Ctx) : List Op → Frame → Res Frame
  | [], v => .ok v
  | o :: os, v => (runOp c v o).bind (runOps c os)

/-- The problem at the end of a constructor. -/
def result (v : Frame) : Res Texts :=
  match v.prob with
  | none => .ub
  | some x => .ok x

/-- `n` sub-problems from a constructor: loops in /repo/src/f_gallagher.c lines 412-415, calls in
/repo/src/f_lunacek_bi_rastrigin.c. -/
def newSubs (c : Ctx) (body : List Op) : Nat → Res (List Texts)
  | 0 => .ok []
  | n + 1 =>
    (runOps c body ⟨none, [], none⟩).bind fun v =>
    (result v).bind fun x =>
    (newSubs c body n).bind fun xs => .ok (x :: xs)

/-- Operations on a sub-problem. -/
def onSub (c : Ctx) (body : List Op) (x : Texts) : Res Texts := (runOps c body ⟨some x, [], none⟩).bind result

/-- Operations on each of the sub-problems: the loop in /repo/src/f_gallagher.c lines 531-578. -/
def onEach (c : Ctx) (body : List Op) : List Texts → Res (List Texts)
  | [] => .ok []
  | x :: xs => (onSub c body x).bind fun x => (onEach c body xs).bind fun xs => .ok (x :: xs)

/-- The number of sub-problems. -/
def count (c : Ctx) : Size → Nat
  | .one => 1
  | .dim => c.d
  | .peaks => c.peaks

/-- The effect of a statement of a constructor (`Memory.Stmt`) on the texts. -/
def runStmt (c : Ctx) (v : Frame) : Stmt → Res Frame
  | .op o => runOp c v o
  | .newSubs n body => (newSubs c body (count c n)).bind fun xs => .ok { v with subs := v.subs ++ xs }
  | .onSub i body =>
    match v.subs[i]? with
    | none => .ub
    | some x => (onSub c body x).bind fun x => .ok { v with subs := v.subs.set i x }
  | .forSubs body => (onEach c body v.subs).bind fun xs => .ok { v with subs := xs }

/-- Statements in turn. -/
def runStmts (c : Ctx) : List Stmt → Frame → Res Frame
  | [], v => .ok v
  | s :: ss, v => (runStmt c v s).bind (runStmts c ss)

/-- A call of a constructor; an unknown function stops the process (see `Memory.callFor`). -/
def call (c : Ctx) : Option (List Stmt) → Res Texts
  | none => .error
  | some ss => (runStmts c ss ⟨none, [], none⟩).bind result

/-! ### Suites -/

/-- `coco_get_bbob_problem`, /repo/src/suite_bbob.c lines 85-187. -/
def bbob (f i d : Nat) : Res Texts :=
  call ⟨bbobTemplate, f, i, d, Memory.peaksOf f, false⟩ (Memory.bbobScript f)

/-- `coco_get_largescale_problem`, /repo/src/suite_largescale.c lines 58-153. -/
def largescale (f i d : Nat) : Res Texts :=
  call ⟨largescaleTemplate, f, i, d, Memory.peaksOf f, true⟩ (Memory.largescaleScript f)

/-- `suite_toy_get_problem`, /repo/src/suite_toy.c lines 42-77: no instance, no templates. -/
def toy (f d : Nat) : Res Texts := call ⟨⟨"", 0, 0, 0, ""⟩, f, 1, d, 0, false⟩ (Memory.toyScript f)

/-- `coco_get_bbob_boxed_problem`, /repo/src/suite_sbox_cost.c lines 75-206. -/
def sbox (f i d : Nat) : Res Texts :=
  (call ⟨sboxTemplate, f, i, d, Memory.peaksOf f, false⟩ (Memory.bbobScript f)).bind (wrap .varsEnforceBox)

/-- `coco_get_bbob_noisy_problem`, /repo/src/suite_bbob_noisy.c lines 56-316. -/
def noisy (f i d : Nat) : Res Texts :=
  match Memory.noisyScript f with
  | none => .error
  | some (ss, t) => (call ⟨noisyTemplate, f, i, d, 101, false⟩ (some ss)).bind (wrap t)

/-- The continuous problem in the mixed-integer suites: /repo/src/suite_bbob_mixint.c lines 141-144 and
/repo/src/suite_biobj_mixint.c lines 184-191. -/
def cont (f i d : Nat) : Res Texts := if d < 50 then bbob f i d else largescale f i d

/-- /repo/src/suite_bbob_mixint.c line 110 (no template for names here and below). -/
def mixintTemplate : Template := ⟨"bbob-mixint", 3, 2, 2, ""⟩

/-- /repo/src/suite_biobj_utilities.c line 468. -/
def biobjTemplate : Template := ⟨"bbob-biobj", 2, 2, 2, ""⟩

/-- /repo/src/suite_biobj_mixint.c line 150. -/
def biobjMixintTemplate : Template := ⟨"bbob-biobj-mixint", 3, 2, 3, ""⟩

/-- `coco_get_bbob_mixint_problem`, /repo/src/suite_bbob_mixint.c lines 61-117. -/
def mixint (f i d : Nat) : Res Texts :=
  if d % 5 ≠ 0 then .error
  else
    (cont f i d).bind fun inner =>
    (wrap .varsDiscretize inner).bind fun x =>
    (wrap .objScale x).bind fun x =>
    (setId (idText mixintTemplate f i d) x).bind fun x =>
    setName ("mixint(".toList ++ shown inner.id ++ ")".toList) x

/-- The texts of `coco_problem_stacked_allocate`, /repo/src/coco_problem.c lines 991-996: ids and names must not be NULL
(`coco_problem_get_id`, `coco_problem_get_name`). -/
def stacked (x y : Texts) : Res Texts :=
  match x.id, y.id, x.name, y.name with
  | some i, some j, some n, some m => .ok ⟨some (i ++ "__".toList ++ j), some (n ++ " + ".toList ++ m), none⟩
  | _, _, _, _ => .assertFail

/-- `coco_problem_set_name(problem, problem->problem_id)`: the id is used as the format, for example
/repo/src/suite_biobj_utilities.c line 466. -/
def nameFromId (x : Texts) : Res Texts :=
  match x.id with
  | none => .ub
  | some s => (OptionKeys.strdupFormat s).bind fun s => .ok { x with name := some s }

/-- `coco_get_biobj_problem`, /repo/src/suite_biobj_utilities.c lines 240-478: the numbers of the two functions are
`Biobj.functions`, their instances `i1` and `i2` are given (`Biobj.instances`).  The result has the two problems too. -/
noncomputable def biobjOf (get : Nat → Nat → Nat → Res Texts) (f i d i1 i2 : Nat) : Res (Texts × Texts × Texts) :=
  (Biobj.functions f).bind fun fs =>
  (get fs.1 i1 d).bind fun x =>
  (get fs.2 i2 d).bind fun y =>
  (stacked x y).bind fun z =>
  (nameFromId z).bind fun z =>
  (setId (idText biobjTemplate f i d) z).bind fun z =>
  (setType (shown x.type ++ "_".toList ++ shown y.type) z).bind fun z =>
  .ok (z, x, y)

/-- A problem of the suites bbob-biobj and bbob-biobj-ext, /repo/src/suite_biobj.c lines 66-102. -/
noncomputable def biobj (f i d i1 i2 : Nat) : Res Texts := (biobjOf bbob f i d i1 i2).bind fun r => .ok r.1

/-- `coco_get_biobj_mixint_problem`, /repo/src/suite_biobj_mixint.c lines 65-160. -/
noncomputable def biobjMixint (f i d i1 i2 : Nat) : Res Texts :=
  if d % 5 ≠ 0 then .error
  else
    (biobjOf cont f i d i1 i2).bind fun r =>
    (wrap .varsDiscretize r.2.1).bind fun x =>
    (wrap .varsDiscretize r.2.2).bind fun y =>
    (wrap .objScale x).bind fun x =>
    (wrap .objScale y).bind fun y =>
    (stacked x y).bind fun z =>
    (nameFromId z).bind fun z =>
    (setId (idText biobjMixintTemplate f i d) z).bind fun z =>
    setType (shown r.2.1.type ++ "_".toList ++ shown r.2.2.type) z

/-! ### Constrained suites -/

/-- The three constrained suites, /repo/src/suite_cons_bbob.c lines 59-72. -/
inductive ConsSuite where
  | plain | activeOnly | noDisguise
deriving DecidableEq, Repr

/-- The name of the suite, /repo/src/suite_cons_bbob.c lines 61 and 67 and /repo/src/coco_suite.c. -/
def ConsSuite.name : ConsSuite → String
  | .plain => "bbob-constrained"
  | .activeOnly => "bbob-constrained-active-only"
  | .noDisguise => "bbob-constrained-no-disguise"

/-- The templates, /repo/src/suite_cons_bbob.c lines 59-72: they depend on the name of the suite, and so do those of lines
188-191 (which are the same). -/
def ConsSuite.template : ConsSuite → Template
  | .plain => ⟨"bbob-constrained", 3, 2, 2, "bbob-constrained suite"⟩
  | .activeOnly => ⟨"bbob-constrained-active-only", 3, 2, 2, "bbob-constrained-active-only suite"⟩
  | .noDisguise => ⟨"bbob-constrained-no-disguise", 3, 2, 2, "bbob-constrained-no-disguise suite"⟩

/-- `c_linear_single_cons_bbob_problem_allocate` with `c_sum_variables_allocate`, /repo/src/c_linear.c lines 142-156 and
193-263. -/
def single (t : Template) (f i d : Nat) : Res Texts :=
  (setId ("linearconstraint".toList ++ "_d".toList ++ zeros 2 d) ⟨none, none, none⟩).bind fun x =>
  (wrap .consLinear x).bind fun x =>
  (setId (idText t f i d) x).bind fun x =>
  (setName (nameText t f i d) x).bind fun x =>
  setType "linear".toList x

/-- The template of the id of stacked constraints, /repo/src/c_linear.c line 415. -/
def stackedTemplate : Template := ⟨"bbob-constrained", 2, 2, 2, ""⟩

/-- The loop over `k` further constraints, /repo/src/c_linear.c lines 378-429. -/
def stackLoop (t : Template) (f i d : Nat) : Nat → Texts → Res Texts
  | 0, x => .ok x
  | k + 1, x =>
    (single t f i d).bind fun y =>
    (stacked x y).bind fun x =>
    (nameFromId x).bind fun x =>
    (setId (idText stackedTemplate f i d) x).bind fun x =>
    (setType (shown y.type ++ "_".toList ++ shown y.type) x).bind fun x =>
    stackLoop t f i d k x

/-- `c_linear_cons_bbob_problem_allocate`, /repo/src/c_linear.c lines 310-447, with `k` further constraints. -/
def constraints (t : Template) (f i d k : Nat) : Res Texts := (single t f i d).bind (stackLoop t f i d k)

/-- Transformations in turn. -/
def wrapAll : List Transform → Texts → Res Texts
  | [], x => .ok x
  | t :: ts, x => (wrap t x).bind (wrapAll ts)

/-- `suite_cons_bbob_get_problem` with `coco_get_cons_bbob_problem`, /repo/src/suite_cons_bbob.c lines 50-194, and the nine
functions of /repo/src/suite_cons_bbob_problems.c lines 167-817; `k` is the number of constraints besides the first. -/
def constrained (s : ConsSuite) (f i d k : Nat) : Res Texts :=
  match Memory.consScript ((f + 5) / 6) with
  | none => .error
  | some (ss, ts) =>
    (call ⟨s.template, f, i, d, 0, false⟩ (some ss)).bind fun x =>
    (constraints s.template f i d k).bind fun c =>
    (stacked x c).bind fun z =>
    (wrapAll ts z).bind fun z =>
    (wrap .varsShift z).bind fun z =>
    (setType (shown x.type ++ "_".toList ++ shown c.type) z).bind fun z =>
    (wrap .objScale z).bind fun z =>
    (setId (idText s.template f i d) z).bind fun z =>
    setName (nameText s.template f i d) z

/-! ### All suites, and observers -/

/-- A problem of a suite (`Memory.Request` with the numbers that occur in the texts): function, instance, dimension; for a
bi-objective problem the instances of the two problems, for a constrained problem the number of constraints besides the
first. -/
inductive Request where
  | toy (f i d : Nat)
  | bbob (f i d : Nat)
  | largescale (f i d : Nat)
  | sbox (f i d : Nat)
  | noisy (f i d : Nat)
  | mixint (f i d : Nat)
  | biobj (f i d i1 i2 : Nat)
  | biobjMixint (f i d i1 i2 : Nat)
  | constrained (s : ConsSuite) (f i d k : Nat)

/-- `coco_suite_get_problem_from_indices`, /repo/src/coco_suite.c lines 109-151. -/
noncomputable def create : Request → Res Texts
  | .toy f _ d => Identity.toy f d
  | .bbob f i d => Identity.bbob f i d
  | .largescale f i d => Identity.largescale f i d
  | .sbox f i d => Identity.sbox f i d
  | .noisy f i d => Identity.noisy f i d
  | .mixint f i d => Identity.mixint f i d
  | .biobj f i d i1 i2 => Identity.biobj f i d i1 i2
  | .biobjMixint f i d i1 i2 => Identity.biobjMixint f i d i1 i2
  | .constrained s f i d k => Identity.constrained s f i d k

/-- Observers of the given names added in turn: `coco_problem_add_observer`, /repo/src/coco_observer.c lines 804-817, with
the loggers, which give the name of the observer to `coco_problem_transformed_allocate`. -/
def observe : List (List Char) → Texts → Res Texts
  | [], x => .ok x
  | o :: os, x => (wrapped o x).bind (observe os)

end Identity
