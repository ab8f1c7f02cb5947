import Verif.Model.Utils
import Mathlib.Analysis.SpecialFunctions.Pow.Real

/-!
Model of `/repo/src/mo_utilities.c` over the rational numbers (no rounding of floating-point arithmetic).
-/

namespace MO
open Utils

/-- `mo_precision`, `/repo/src/mo_utilities.c` line 18. -/
def precision : ℚ := 1 / 10 ^ 13

/-- `mo_discretization`, `/repo/src/mo_utilities.c` line 25. -/
def discretization : ℚ := 5 * (1 / 10 ^ 13)

/-- The first loop of `mo_normalize`, `/repo/src/mo_utilities.c` lines 53-61, over the coordinates of the
objective vector, the ideal and the nadir point. -/
def normLoop : List ℚ → List ℚ → List ℚ → Res (List ℚ)
  | [], _, _ => .ok []
  | y :: ys, i :: is, n :: ns =>
    (Res.assert (decide (n - i > discretization))).bind fun _ =>
      let v := (y - i) / (n - i)
      let v := (Utils.round (v / discretization) : ℚ) * discretization
      let v := if v < 0 then 0 else v
      (normLoop ys is ns).bind fun vs => .ok (v :: vs)
  | _, _, _ => .ub

/-- `mo_normalize`, `/repo/src/mo_utilities.c` lines 48-72. The second loop (63-69) asserts two objectives;
for no objective the allocation of an empty vector stops the process. -/
def normalize (y ideal nadir : List ℚ) : Res (List ℚ) :=
  if y = [] then .error
  else
    (normLoop y ideal nadir).bind fun
    | [a, b] =>
      let b := if almostEqual a 0 precision ∧ b < 1 then 1 else b
      let a := if almostEqual b 0 precision ∧ a < 1 then 1 else a
      .ok [a, b]
    | _ => .assertFail

/-- The loop of `mo_get_dominance`, `/repo/src/mo_utilities.c` lines 92-100: the two flags. -/
def flags : List ℚ → List ℚ → Bool × Bool → Res (Bool × Bool)
  | [], _, f => .ok f
  | a :: as, b :: bs, f =>
    if almostEqual a b precision then flags as bs f
    else if a < b then flags as bs (true, f.2)
    else if a > b then flags as bs (f.1, true)
    else flags as bs f
  | _ :: _, [], _ => .ub

/-- `mo_get_dominance`, `/repo/src/mo_utilities.c` lines 86-111. -/
def dominance (y1 y2 : List ℚ) : Res Int :=
  (flags y1 y2 (false, false)).bind fun (f1, f2) =>
    if f1 && !f2 then .ok 1
    else if !f1 && f2 then .ok (-1)
    else if f1 && f2 then .ok 0
    else .ok (-2)

/-- `mo_is_within_ROI`, `/repo/src/mo_utilities.c` lines 116-129. -/
def withinROI (y : List ℚ) : Bool :=
  y.foldl (fun within v =>
    if almostEqual v 0 precision || almostEqual v 1 precision || (decide (v > 0) && decide (v < 1)) then within
    else false) true

/-- `mo_get_distance_to_ROI`, `/repo/src/mo_utilities.c` lines 137-156. -/
noncomputable def distanceToROI (y : List ℚ) : Res ℝ :=
  if withinROI y then .ok 0
  else match y with
    | [a, b] =>
      (Res.assert (decide (a ≥ 0))).bind fun _ =>
      (Res.assert (decide (b ≥ 0))).bind fun _ =>
        let d0 := a - 1
        let d1 := b - 1
        if d0 > 0 ∧ d1 > 0 then .ok (Real.sqrt ((d0 : ℝ) ^ 2 + (d1 : ℝ) ^ 2))
        else if d0 > 0 then .ok (d0 : ℝ)
        else .ok (d1 : ℝ)
    | _ => .assertFail

/-- `mo_get_norm`, `/repo/src/mo_utilities.c` lines 30-40. -/
noncomputable def norm : List ℚ → List ℚ → Res ℝ := fun x y =>
  let rec sum : List ℚ → List ℚ → Res ℚ
    | [], _ => .ok 0
    | a :: as, b :: bs => (sum as bs).bind fun s => .ok ((a - b) ^ 2 + s)
    | _ :: _, [] => .ub
  (sum x y).bind fun s => .ok (Real.sqrt (s : ℝ))

end MO
