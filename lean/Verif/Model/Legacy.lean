import Mathlib.Data.Rat.Floor
import Verif.Base.Res

/-!
# Model of the random numbers of `/repo/src/suite_bbob_legacy_code.c`

`long` values are integers; the conversion of `floor(a / b)` to `int` is undefined if the quotient does not fit.
The double quotients `aktseed / 127773` and `aktrand / 67108865` are taken to be exact: the operands are below
2^53 and the quotient differs from the next integer by more than the rounding error. The results are rationals.
-/

namespace Legacy

/-- Conversion of a double with integer value to `int` (`/repo/src/suite_bbob_legacy_code.c` lines 70, 79, 83):
undefined if the value does not fit. -/
def toInt32 (z : Int) : Res Int := if -2 ^ 31 ≤ z ∧ z < 2 ^ 31 then .ok z else .ub

/-- One step of the linear congruential generator, `/repo/src/suite_bbob_legacy_code.c` lines 70-73 and 79-82. -/
def lcgStep (aktseed : Int) : Res Int :=
  (toInt32 (aktseed / 127773)).bind fun tmp =>
  let aktseed := 16807 * (aktseed - tmp * 127773) - 2836 * tmp
  .ok (if aktseed < 0 then aktseed + 2147483647 else aktseed)

/-- The loop filling the table, `/repo/src/suite_bbob_legacy_code.c` lines 69-76; the argument is the number of
steps left, that is, `i + 1`. Elements of the table are `none` until written. -/
def warm : Nat → Int → List (Option Int) → Res (Int × List (Option Int))
  | 0, aktseed, rgrand => .ok (aktseed, rgrand)
  | i + 1, aktseed, rgrand =>
    (lcgStep aktseed).bind fun aktseed =>
    warm i aktseed (if i < 32 then rgrand.set i (some aktseed) else rgrand)

/-- Read of an element of the table (`/repo/src/suite_bbob_legacy_code.c` lines 77, 84): undefined if out of
bounds or not yet written. -/
def tableAt (rgrand : List (Option Int)) (i : Int) : Res Int :=
  if i < 0 then .ub
  else
    match rgrand[i.toNat]? with
    | some (some v) => .ok v
    | _ => .ub

/-- The value stored in `r[i]`, `/repo/src/suite_bbob_legacy_code.c` lines 86-89. -/
def value (aktrand : Int) : ℚ :=
  let r := (aktrand : ℚ) / 2147483647
  if r = 0 then 1 / 10 ^ 99 else r

/-- The loop producing the numbers, `/repo/src/suite_bbob_legacy_code.c` lines 78-90. -/
def produce : Nat → Int → Int → List (Option Int) → Res (List ℚ)
  | 0, _, _, _ => .ok []
  | n + 1, aktseed, aktrand, rgrand =>
    (lcgStep aktseed).bind fun aktseed =>
    (toInt32 (aktrand / 67108865)).bind fun tmp =>
    (tableAt rgrand tmp).bind fun aktrand =>
    (produce n aktseed aktrand (rgrand.set tmp.toNat (some aktseed))).bind fun rs =>
    .ok (value aktrand :: rs)

/-- `bbob2009_unif`, `/repo/src/suite_bbob_legacy_code.c` lines 56-92: the `N` numbers stored in `r`. Negating the
smallest `long` is undefined. -/
def unif (N : Nat) (inseed : Int) : Res (List ℚ) :=
  if inseed = -2 ^ 63 then .ub
  else
    let inseed := if inseed < 0 then -inseed else inseed
    let inseed := if inseed < 1 then 1 else inseed
    (warm 40 inseed (List.replicate 32 none)).bind fun (aktseed, rgrand) =>
    (tableAt rgrand 0).bind fun aktrand =>
    produce N aktseed aktrand rgrand

end Legacy
