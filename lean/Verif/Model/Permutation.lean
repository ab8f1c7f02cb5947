import Verif.Model.Gauss

/-!
# Model of `/repo/src/transform_vars_permutation_helpers.c` and `/repo/src/transform_vars_permutation.c`

The library function `qsort` is a parameter; what the C standard says about it is a hypothesis of the theorems.
Random numbers are exact (rational or real), so that the sign of a difference tells the order. The conversion of the
product of a random number and an integer range to `long` is that of the exact product.
-/

namespace Permutation
open Legacy

/-- The type of the sorting function: a comparison function and the list to sort
(`/repo/src/transform_vars_permutation_helpers.c` lines 45, 60, 111). -/
abbrev SortFn := (Nat → Nat → Int) → List Nat → List Nat

/-- `f_compare_doubles_for_random_permutation`, `/repo/src/transform_vars_permutation_helpers.c` lines 23-31. -/
noncomputable def compare (data : List ℝ) (a b : Nat) : Int :=
  let temp := data.getD a 0 - data.getD b 0
  if temp > 0 then 1 else if temp < 0 then -1 else 0

/-- `coco_compute_permutation_from_sequence`, `/repo/src/transform_vars_permutation_helpers.c` lines 52-62. -/
noncomputable def fromSequence (qsort : SortFn) (seq : List ℝ) : Res (List Nat) :=
  (if seq.length = 0 then Res.error else Res.ok ()).bind fun _ =>
  .ok (qsort (compare seq) (List.range seq.length))

/-- `coco_compute_random_permutation`, `/repo/src/transform_vars_permutation_helpers.c` lines 37-47. -/
noncomputable def random (qsort : SortFn) (seed : Int) (n : Nat) : Res (List Nat) :=
  (if n = 0 then Res.error else Res.ok ()).bind fun _ =>
  (gauss n seed).bind fun data =>
  .ok (qsort (compare data) (List.range n))

/-- Conversion of a double to `long` (`/repo/src/transform_vars_permutation_helpers.c` line 75): the fraction is
dropped. -/
def truncate (x : ℚ) : Int := if x < 0 then ⌈x⌉ else ⌊x⌋

/-- `coco_random_unif_integer`, `/repo/src/transform_vars_permutation_helpers.c` lines 69-78. -/
def unifInteger (lower upper seed : Int) : Res Int :=
  (unif 1 seed).bind fun u =>
  let range := upper - lower + 1
  .ok (truncate (u.getD 0 0 * range) + lower)

/-- The exchange of two elements, `/repo/src/transform_vars_permutation_helpers.c` lines 130-132. -/
def exchange (P : List Nat) (a b : Nat) : Res (List Nat) :=
  (Res.readNat P a).bind fun tmp =>
  (Res.readNat P b).bind fun v =>
  .ok ((P.set a v).set b tmp)

/-- One iteration of the loop over the swaps, `/repo/src/transform_vars_permutation_helpers.c` lines 113-132. The
conversion of a negative `second_swap_var` to `size_t` gives a position outside the array. -/
def swapStep (order : List Nat) (seed : Int) (n range idx : Nat) (P : List Nat) : Res (List Nat) :=
  (Res.readNat order idx).bind fun first =>
  let lower := if first < range then 0 else first - range
  let upper := if first + range > n - 1 then n - 1 else first + range
  (unifInteger lower ((upper : Int) - 1) (seed + (1 + idx : Nat) * 1000)).bind fun second =>
  if second < 0 then .ub
  else
    let second := second.toNat
    let second := if second ≥ first then second + 1 else second
    exchange P first second

/-- The loop over the swaps, `/repo/src/transform_vars_permutation_helpers.c` lines 112-133, with the number of swaps
left. -/
def swapLoop (order : List Nat) (seed : Int) (n range : Nat) : Nat → Nat → List Nat → Res (List Nat)
  | 0, _, P => .ok P
  | k + 1, idx, P =>
    (swapStep order seed n range idx P).bind fun P => swapLoop order seed n range k (idx + 1) P

/-- `coco_compute_truncated_uniform_swap_permutation`, `/repo/src/transform_vars_permutation_helpers.c` lines 86-141.
With `swap_range` 0, `coco_compute_random_permutation` frees the global array that is freed again in line 140. -/
noncomputable def truncated (qsort : SortFn) (seed : Int) (n nbSwaps range : Nat) : Res (List Nat) :=
  if n ≤ 40 then .ok (List.range n)
  else
    (unif n seed).bind fun data =>
    if range > 0 then
      let order := qsort (compare (data.map fun u : ℚ => (u : ℝ))) (List.range n)
      swapLoop order seed n range nbSwaps 0 (List.range n)
    else (random qsort seed n).bind fun _ => Res.ub

/-- `coco_get_swap_range`, `/repo/src/transform_vars_permutation_helpers.c` lines 163-170. -/
def swapRange (dimension : Nat) (suite : String) : Res Nat :=
  if suite = "bbob-largescale" then .ok (dimension / 3) else .error

/-- `coco_get_nb_swaps`, `/repo/src/transform_vars_permutation_helpers.c` lines 175-182. -/
def nbSwaps (dimension : Nat) (suite : String) : Res Nat :=
  if suite = "bbob-largescale" then .ok dimension else .error

/-- The loop in `transform_vars_permutation_evaluate`, `/repo/src/transform_vars_permutation.c` lines 27-29:
`x[P[i]]` for all positions. -/
def gather (P : List Nat) (x : List ℚ) : Res (List ℚ) :=
  match P with
  | [] => .ok []
  | p :: P => (Res.readNat x p).bind fun v => (gather P x).bind fun vs => .ok (v :: vs)

/-- The loop in `transform_vars_inverse_permutation_evaluate`, `/repo/src/transform_vars_permutation.c` lines 65-67:
`buffer[P[i]] = x[i]` for all positions, starting with the content `buffer` of earlier evaluations. -/
def scatter : List Nat → List ℚ → List ℚ → Res (List ℚ)
  | [], _, buffer => .ok buffer
  | p :: P, x, buffer =>
    (Res.readNat x 0).bind fun v =>
    if p < buffer.length then scatter P x.tail (buffer.set p v) else .ub

/-- The check after the evaluation, `/repo/src/transform_vars_permutation.c` lines 32 and 70. -/
def checked (best : ℚ) (y : ℚ) : Res ℚ := (Res.assert (decide (y + 1 / 10 ^ 13 ≥ best))).bind fun _ => .ok y

/-- `transform_vars_permutation_evaluate`, `/repo/src/transform_vars_permutation.c` lines 20-33, for the evaluation
function of the inner problem. -/
def evaluate (P : List Nat) (best : ℚ) (inner : List ℚ → Res ℚ) (x : List ℚ) : Res ℚ :=
  (gather P x).bind fun x => (inner x).bind fun y => checked best y

/-- `transform_vars_inverse_permutation_evaluate`, `/repo/src/transform_vars_permutation.c` lines 58-71. -/
def evaluateInverse (P : List Nat) (best : ℚ) (buffer : List ℚ) (inner : List ℚ → Res ℚ) (x : List ℚ) : Res ℚ :=
  (scatter P x buffer).bind fun x => (inner x).bind fun y => checked best y

end Permutation
