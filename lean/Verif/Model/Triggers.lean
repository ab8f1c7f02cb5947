import Verif.Model.Utils
import Mathlib.Analysis.SpecialFunctions.Log.Base
import Mathlib.Analysis.SpecialFunctions.Pow.Real
import Mathlib.Algebra.Order.Floor.Ring

/-!
Model of the logging triggers, `/repo/src/coco_observer.c` lines 15-415.

`log10`, `pow`, `ceil` and `floor` are the exact functions on the real numbers; the rounding of
floating-point arithmetic is not modelled. Arguments are finite (NaN and infinities are not modelled).
-/

namespace Triggers

/-! ### Logarithmic targets -/

/-- Conversion of an integral value to `int`, undefined outside the range of `int`
(casts of `/repo/src/coco_observer.c` lines 155, 180, 187). -/
def castInt (z : ℤ) : Res ℤ := if -2147483648 ≤ z ∧ z ≤ 2147483647 then .ok z else .ub

/-- `coco_observer_log_targets_t`, `/repo/src/coco_observer.c` lines 21-31. -/
structure LogTargets where
  exponent : ℤ
  value : ℝ
  triggers : ℕ
  precision : ℝ

/-- `coco_observer_log_targets`, `/repo/src/coco_observer.c` lines 110-119; `dblMax` is DBL_MAX. -/
noncomputable def logInit (dblMax : ℝ) (n : ℕ) (precision : ℝ) : LogTargets :=
  { exponent := 2147483647, value := dblMax, triggers := n, precision := precision }

/-- `coco_observer_log_targets_trigger` for a non-NULL structure, `/repo/src/coco_observer.c` lines
125-203. Returns the flag and the updated structure. -/
noncomputable def logTrigger (t : LogTargets) (v : ℝ) : Res (Bool × LogTargets) :=
  let n : ℝ := t.triggers
  if v ≥ 0 then
    let verified := if v = 0 then t.precision / 10 else if v < t.precision then t.precision else v
    (castInt ⌈Real.logb 10 verified * n⌉).bind fun cur =>
    if cur < t.exponent then
      .ok (true, { t with exponent := cur, value := if v = 0 then 0 else (10 : ℝ) ^ ((cur : ℝ) / n) })
    else .ok (false, t)
  else
    let verified := if v > -t.precision then t.precision else -v
    (castInt ⌊Real.logb 10 verified * n⌋).bind fun cur =>
    (castInt ⌈Real.logb 10 (t.precision / 10) * n⌉).bind fun base =>
    (castInt (2 * base)).bind fun twice =>
    (castInt (twice - cur)).bind fun d =>
    (castInt (d - 1)).bind fun adjusted =>
    if adjusted < t.exponent then
      .ok (true, { t with exponent := adjusted, value := -(10 : ℝ) ^ ((cur : ℝ) / n) })
    else .ok (false, t)

/-- The trigger is given a sequence of values, as the loggers do (e.g. `/repo/src/logger_biobj.c` lines
661-742): the flags in order and the final structure. -/
noncomputable def logRun (t : LogTargets) : List ℝ → Res (List Bool × LogTargets)
  | [] => .ok ([], t)
  | v :: vs =>
    (logTrigger t v).bind fun (b, t') => (logRun t' vs).bind fun (bs, t'') => .ok (b :: bs, t'')

/-! ### Linear targets -/

/-- `coco_observer_lin_targets_t`, `/repo/src/coco_observer.c` lines 40-45. -/
structure LinTargets where
  value : ℚ
  precision : ℚ

/-- `coco_observer_lin_targets_trigger`, `/repo/src/coco_observer.c` lines 218-232. -/
def linTrigger (t : LinTargets) (v : ℚ) : Res (Bool × LinTargets) :=
  (Utils.roundUpWithPrecision v t.precision).bind fun r =>
  if r < t.value then .ok (true, { t with value := r }) else .ok (false, t)

/-- The linear trigger on a sequence of values; initial structure as in `coco_observer_lin_targets`,
`/repo/src/coco_observer.c` lines 205-214. -/
def linRun (t : LinTargets) : List ℚ → Res (List Bool × LinTargets)
  | [] => .ok ([], t)
  | v :: vs =>
    (linTrigger t v).bind fun (b, t') => (linRun t' vs).bind fun (bs, t'') => .ok (b :: bs, t'')

/-! ### Logarithmic and linear targets together -/

/-- `coco_observer_targets_t`, `/repo/src/coco_observer.c` lines 54-60; `use_log_targets` tells whether
`log_targets` is not NULL. -/
structure Targets where
  log : Option LogTargets
  lin : LinTargets

/-- `coco_observer_targets`, `/repo/src/coco_observer.c` lines 242-253. -/
noncomputable def targetsInit (dblMax : ℚ) (optimaKnown : Bool) (linPrecision : ℚ) (n : ℕ) (logPrecision : ℝ) : Targets :=
  { log := if n > 0 ∧ optimaKnown = true then some (logInit dblMax n logPrecision) else none
    lin := { value := dblMax, precision := linPrecision } }

/-- `coco_observer_targets_trigger`, `/repo/src/coco_observer.c` lines 258-263; a NULL pointer gives 0 in
`coco_observer_log_targets_trigger` (lines 137-139). -/
noncomputable def targetsTrigger (t : Targets) (v : ℚ) : Res (Bool × Targets) :=
  match t.log with
  | none => (linTrigger t.lin v).bind fun (b, lin) => .ok (b, ⟨none, lin⟩)
  | some l =>
    (logTrigger l v).bind fun (a, l) => (linTrigger t.lin v).bind fun (b, lin) => .ok (a || b, ⟨some l, lin⟩)

/-- The combined trigger on a sequence of values. -/
noncomputable def targetsRun (t : Targets) : List ℚ → Res (List Bool × Targets)
  | [] => .ok ([], t)
  | v :: vs =>
    (targetsTrigger t v).bind fun (b, t') => (targetsRun t' vs).bind fun (bs, t'') => .ok (b :: bs, t'')

/-- `coco_observer_targets_get_last_target`, `/repo/src/coco_observer.c` lines 268-280. -/
noncomputable def lastTarget (t : Targets) : ℝ :=
  match t.log with
  | none => t.lin.value
  | some l => if l.value < t.lin.value then l.value else t.lin.value

/-! ### Evaluation numbers -/

/-- `floor(pow(10, e / 20))` as used in `/repo/src/coco_observer.c` lines 356-362 (`number_of_triggers` is
always 20, line 326); on integral values `coco_double_to_size_t` is the identity. -/
noncomputable def grid (e : ℕ) : ℕ := ⌊(10 : ℝ) ^ ((e : ℝ) / 20)⌋₊

/-- `coco_observer_evaluations_t`, `/repo/src/coco_observer.c` lines 67-87 (`base_count` is the length of
`base`). -/
structure Evaluations where
  value1 : ℕ
  exponent1 : ℕ
  value2 : ℕ
  exponent2 : ℕ
  base : List ℕ
  index : ℕ
  dimension : ℕ

open Classical in
/-- The loop `while (g(exponent) <= value) exponent++`, `/repo/src/coco_observer.c` lines 356-359: the first
exponent from `e` on at which the condition fails (`e` itself if there is none, in which case the C loop
does not terminate; this does not happen for `grid`). -/
noncomputable def advance (g : ℕ → ℕ) (e v : ℕ) : ℕ :=
  if h : ∃ k, v < g (e + k) then e + Nat.find h else e

/-- `coco_observer_evaluations` after parsing, `/repo/src/coco_observer.c` lines 319-340. Reading
`base_evaluations[0]` gives the terminating 0 for an empty list. -/
def evalInit (base : List ℕ) (dimension : ℕ) : Evaluations :=
  { value1 := 1, exponent1 := 0, value2 := dimension * base.headD 0, exponent2 := 0, base := base, index := 0,
    dimension := dimension }

/-- `coco_observer_evaluations_trigger_first`, `/repo/src/coco_observer.c` lines 349-366. -/
noncomputable def triggerFirst (s : Evaluations) (n : ℕ) : Bool × Evaluations :=
  if n ≥ s.value1 then
    let e := advance grid s.exponent1 s.value1
    (true, { s with exponent1 := e, value1 := grid e })
  else (false, s)

/-- `coco_observer_evaluations_trigger_second`, `/repo/src/coco_observer.c` lines 376-396. For an empty list
`base_count - 1` wraps around, the index grows beyond the array: undefined. -/
def triggerSecond (s : Evaluations) (n : ℕ) : Res (Bool × Evaluations) :=
  if n ≥ s.value2 then
    let (i, e) := if s.base = [] ∨ s.index < s.base.length - 1 then (s.index + 1, s.exponent2)
      else (0, s.exponent2 + 1)
    match s.base[i]? with
    | none => .ub
    | some b => .ok (true, { s with index := i, exponent2 := e, value2 := 10 ^ e * s.dimension * b })
  else .ok (false, s)

/-- `coco_observer_evaluations_trigger`, `/repo/src/coco_observer.c` lines 406-414. -/
noncomputable def evalTrigger (s : Evaluations) (n : ℕ) : Res (Bool × Evaluations) :=
  let (first, s1) := triggerFirst s n
  (triggerSecond s1 n).bind fun (second, s2) => .ok (first || second, s2)

/-- The evaluation trigger consulted with a sequence of evaluation numbers. -/
noncomputable def evalRun (s : Evaluations) : List ℕ → Res (List Bool × Evaluations)
  | [] => .ok ([], s)
  | n :: ns =>
    (evalTrigger s n).bind fun (b, s') => (evalRun s' ns).bind fun (bs, s'') => .ok (b :: bs, s'')

end Triggers
