import Mathlib.Analysis.SpecialFunctions.Pow.Real
import Verif.Model.Transform

/-!
# Model of the numerical inversion of functions of one variable

`/repo/src/brentq.c`, in exact real arithmetic. A division by zero, which would lead out of the real numbers, is `Res.ub`
here, and so is a loop that never ends. `signbit` is only applied to numbers that are not zero.
-/

noncomputable section

namespace Brent
open Classical

/-- A division, as in `/repo/src/brentq.c` line 141; no function of its own in the code. -/
def quotient (a b : ℝ) : Res ℝ := if b = 0 then .ub else .ok (a / b)

/-- The variables of the loop, `/repo/src/brentq.c` lines 93-94. -/
structure Vars where
  xpre : ℝ
  xcur : ℝ
  xblk : ℝ
  fpre : ℝ
  fcur : ℝ
  fblk : ℝ
  spre : ℝ
  scur : ℝ

/-- The first statement of the loop, `/repo/src/brentq.c` lines 116-120. -/
def bracket (v : Vars) : Vars :=
  if v.fpre ≠ 0 ∧ v.fcur ≠ 0 ∧ decide (v.fpre < 0) ≠ decide (v.fcur < 0) then
    { v with xblk := v.xpre, fblk := v.fpre, spre := v.xcur - v.xpre, scur := v.xcur - v.xpre }
  else v

/-- The second statement of the loop, `/repo/src/brentq.c` lines 121-129. -/
def exchange (v : Vars) : Vars :=
  if |v.fblk| < |v.fcur| then
    { v with xpre := v.xcur, xcur := v.xblk, xblk := v.xcur, fpre := v.fcur, fcur := v.fblk, fblk := v.fcur }
  else v

/-- The step by interpolation or extrapolation, `/repo/src/brentq.c` lines 139-147. -/
def tryStep (v : Vars) : Res ℝ :=
  if v.xpre = v.xblk then quotient (-v.fcur * (v.xcur - v.xpre)) (v.fcur - v.fpre)
  else
    (quotient (v.fpre - v.fcur) (v.xpre - v.xcur)).bind fun dpre =>
    (quotient (v.fblk - v.fcur) (v.xblk - v.xcur)).bind fun dblk =>
    quotient (-v.fcur * (v.fblk * dblk - v.fpre * dpre)) (dblk * dpre * (v.fblk - v.fpre))

/-- The choice of the step, `/repo/src/brentq.c` lines 138-161: the new values of `spre` and `scur`. -/
def chooseStep (v : Vars) (delta sbis : ℝ) : Res (ℝ × ℝ) :=
  if |v.spre| > delta ∧ |v.fcur| < |v.fpre| then
    (tryStep v).bind fun stry =>
    .ok (if 2 * |stry| < (if |v.spre| < 3 * |sbis| - delta then |v.spre| else 3 * |sbis| - delta) then (v.scur, stry)
      else (sbis, sbis))
  else .ok (sbis, sbis)

/-- The end of the loop, `/repo/src/brentq.c` lines 163-171. -/
def advance (f : ℝ → ℝ) (y : ℝ) (v : Vars) (delta sbis spre scur : ℝ) : Vars :=
  let x := v.xcur + (if |scur| > delta then scur else if sbis > 0 then delta else -delta)
  { v with xpre := v.xcur, fpre := v.fcur, xcur := x, fcur := f x - y, spre := spre, scur := scur }

/-- The loop of `brentq`, `/repo/src/brentq.c` lines 115-174, with the number of iterations left. The result has a flag that
is not in the code: true if the function returns in line 135, false if the iterations are exceeded. -/
def loop (f : ℝ → ℝ) (y xtol rtol : ℝ) : Nat → Vars → Res (ℝ × Bool)
  | 0, v => .ok (v.xcur, false)
  | iter + 1, v =>
    let v := exchange (bracket v)
    let delta := (xtol + rtol * |v.xcur|) / 2
    let sbis := (v.xblk - v.xcur) / 2
    if v.fcur = 0 ∨ |sbis| < delta then .ok (v.xcur, true)
    else
      (chooseStep v delta sbis).bind fun (spre, scur) => loop f y xtol rtol iter (advance f y v delta sbis spre scur)

/-- `brentq`, `/repo/src/brentq.c` lines 91-175; `none` is NaN. The flag is that of `loop`. -/
def brentq (f : ℝ → ℝ) (y xa xb xtol rtol : ℝ) (iter : Nat) : Res (Option ℝ × Bool) :=
  let fpre := f xa - y
  let fcur := f xb - y
  if fpre * fcur > 0 then .ok (none, false)
  else if fpre = 0 then .ok (some xa, true)
  else if fcur = 0 then .ok (some xb, true)
  else (loop f y xtol rtol iter ⟨xa, xb, 0, fpre, fcur, 0, 0, 0⟩).bind fun (x, b) => .ok (some x, b)

/-- The loops of `brentinv`, for example `/repo/src/brentq.c` lines 197-200: `x` is multiplied by `c` as long as the
condition holds. -/
def scaleWhile (cond : ℝ → Prop) (c x : ℝ) : Res ℝ :=
  if h : ∃ k : Nat, ¬ cond (x * c ^ k) then .ok (x * c ^ Nat.find h) else .ub

/-- `brentinv`, `/repo/src/brentq.c` lines 188-223. -/
def brentinv (f : ℝ → ℝ) (y : ℝ) : Res (Option ℝ × Bool) :=
  (if f y > y then scaleWhile (fun x => f x > y) (if y > 0 then 1 / 2 else 2) y else .ok y).bind fun xmin =>
  (if f y > y then .ok y else scaleWhile (fun x => f x < y) (if y > 0 then 2 else 1 / 2) y).bind fun xmax =>
  brentq f y xmin xmax (1 / 10 ^ 14) (1 / 10 ^ 10) 200

/-- `tosz_uv_inv`, `/repo/src/transform_vars_oscillate.c` lines 54-58, with the exponent of line 159. -/
def oszInv (y : ℝ) : Res (Option ℝ × Bool) := brentinv (Transform.tosz (1 / 10)) y

/-- `tasy_uv_inv`, `/repo/src/transform_vars_asymmetric.c` lines 51-55, with the exponent 0.2 (for example
`/repo/src/suite_cons_bbob_problems.c` line 583). -/
def asyInv (i n : Nat) (y : ℝ) : Res (Option ℝ × Bool) := brentinv (Transform.tasy 0.2 i n) y

end Brent
