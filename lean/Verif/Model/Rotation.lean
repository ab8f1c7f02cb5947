import Mathlib.Data.Matrix.Mul
import Mathlib.Algebra.BigOperators.Fin
import Verif.Model.Gauss

/-!
# Model of the rotation matrices (`/repo/src/suite_bbob_legacy_code.c`) and of the block rotations
(`/repo/src/transform_vars_blockrotation_helpers.c`, `/repo/src/transform_vars_blockrotation.c`)

Real (exact) arithmetic. Vectors of the rotation matrix are functions on `Fin n`; the arrays of the block rotation
are lists, and reads outside them are undefined.
-/

namespace Rotation
open Legacy

/-- `bbob2009_reshape` (`/repo/src/suite_bbob_legacy_code.c` lines 97-105) for a square matrix: column `j` of the
matrix, whose element in row `i` is `vector[j * n + i]`. -/
def reshape {n : Nat} (vector : List ℝ) (j : Fin n) : Fin n → ℝ := fun i => vector.getD (j * n + i) 0

/-- The inner loops over `k` for one earlier column, `/repo/src/suite_bbob_legacy_code.c` lines 140-144. -/
def subtract {n : Nat} (column earlier : Fin n → ℝ) : Fin n → ℝ :=
  let prod := ∑ k, column k * earlier k
  fun k => column k - prod * earlier k

/-- The body of the outer loop, `/repo/src/suite_bbob_legacy_code.c` lines 139-151: the new column from the finished
columns and the present one. A division by zero, which yields NaN in C, yields 0 here and does not occur under the
hypotheses of the theorems. -/
noncomputable def finish {n : Nat} (done : List (Fin n → ℝ)) (column : Fin n → ℝ) : Fin n → ℝ :=
  let column := done.foldl subtract column
  let prod := ∑ k, column k * column k
  fun k => column k / Real.sqrt prod

/-- The outer loop, `/repo/src/suite_bbob_legacy_code.c` lines 138-152, for the columns not yet treated. -/
noncomputable def orthonormalize {n : Nat} (done : List (Fin n → ℝ)) : List (Fin n → ℝ) → List (Fin n → ℝ)
  | [] => done
  | c :: cs => orthonormalize (done ++ [finish done c]) cs

/-- `bbob2009_compute_rotation`, `/repo/src/suite_bbob_legacy_code.c` lines 127-153: the columns of the matrix. -/
noncomputable def columns (seed : Int) (n : Nat) : Res (List (Fin n → ℝ)) :=
  (Res.assert (decide (n * n < 2000))).bind fun _ =>
  (gauss (n * n) seed).bind fun g =>
  .ok (orthonormalize [] (List.ofFn fun j : Fin n => reshape g j))

/-- The rows of the matrix with the given columns, as stored in `B[i][j]` (`/repo/src/suite_bbob_legacy_code.c`
line 136: the first coordinate is the row). -/
noncomputable def rows {n : Nat} (cols : List (Fin n → ℝ)) : List (List ℝ) :=
  List.ofFn fun i : Fin n => cols.map fun c => c i

/-- `coco_rotation_matrix_block_size`, `/repo/src/transform_vars_blockrotation_helpers.c` lines 21-27. -/
def blockSize (dimension : Nat) : Nat := min dimension 40

/-- `coco_get_block_sizes`, `/repo/src/transform_vars_blockrotation_helpers.c` lines 144-163, for the suite
`bbob-largescale`. For dimension 0 there is a division by zero. -/
def blockSizes (dimension : Nat) : Res (List Nat) :=
  let size := blockSize dimension
  if size = 0 then .ub
  else
    let nb := dimension / size + (if dimension % size > 0 then 1 else 0)
    if nb = 0 then .error
    else .ok (List.replicate (nb - 1) size ++ [dimension - (nb - 1) * size])

/-- The loop over the rows that finds the block of each row: `/repo/src/transform_vars_blockrotation.c` lines 140-151
(also `transform_vars_blockrotation_helpers.c` lines 51-61 and 127-137). For every row the size of its block and the
position of its first element; the arguments are the number of rows left, `i`, `idx_blocksize` and
`next_bs_change`. -/
def mapLoop (sizes : List Nat) : Nat → Nat → Nat → Nat → Res (List (Nat × Nat))
  | 0, _, _, _ => .ok []
  | k + 1, i, idx, next =>
    (if i ≥ next then (Res.readNat sizes (idx + 1)).bind fun s => Res.ok (idx + 1, next + s)
      else Res.ok (idx, next)).bind fun (idx, next) =>
    (Res.readNat sizes idx).bind fun current =>
    (mapLoop sizes k (i + 1) idx next).bind fun rest => .ok ((current, next - current) :: rest)

/-- The maps `block_size_map` and `first_non_zero_map`, `/repo/src/transform_vars_blockrotation.c` lines 138-151. -/
def rowMap (sizes : List Nat) (n : Nat) : Res (List (Nat × Nat)) :=
  (Res.readNat sizes 0).bind fun next => mapLoop sizes n 0 0 next

/-- The loop over the blocks, `/repo/src/transform_vars_blockrotation_helpers.c` lines 96-113; the rows of a block are
put after those of the blocks before. -/
noncomputable def blockLoop (seed : Int) : List Nat → Nat → Res (List (List ℝ))
  | [], _ => .ok []
  | s :: sizes, idx =>
    (Res.assert (decide (s ≤ 44))).bind fun _ =>
    (columns (seed + 1000000 * idx) s).bind fun cols =>
    (blockLoop seed sizes (idx + 1)).bind fun rest => .ok (rows cols ++ rest)

/-- `coco_compute_blockrotation`, `/repo/src/transform_vars_blockrotation_helpers.c` lines 84-114: the rows of `B`,
without the zeros. -/
noncomputable def blockRotation (seed : Int) (n : Nat) (sizes : List Nat) : Res (List (List ℝ)) :=
  (Res.assert (decide (sizes.sum = n))).bind fun _ => blockLoop seed sizes 0

/-- The loop over `j`, `/repo/src/transform_vars_blockrotation.c` lines 66-68, starting at the `k`-th element of the
row; the first argument is the number of elements left. -/
noncomputable def dotLoop (row x : List ℝ) (first : Nat) : Nat → Nat → ℝ → Res ℝ
  | 0, _, acc => .ok acc
  | m + 1, k, acc =>
    (Res.readNat row k).bind fun b =>
    (Res.readNat x (first + k)).bind fun v =>
    dotLoop row x first m (k + 1) (acc + b * v)

/-- `transform_vars_blockrotation_apply`, `/repo/src/transform_vars_blockrotation.c` lines 55-75: for the rows of `B`
with their block sizes and first positions. -/
noncomputable def apply : List (List ℝ) → List (Nat × Nat) → List ℝ → Res (List ℝ)
  | _, [], _ => .ok []
  | [], _ :: _, _ => .ub
  | row :: B, (size, first) :: maps, x =>
    (dotLoop row x first size 0 0).bind fun v =>
    (apply B maps x).bind fun vs => .ok (v :: vs)

/-- `transform_vars_blockrotation_get_row`, `/repo/src/transform_vars_blockrotation.c` lines 36-49. -/
noncomputable def getRow (B : List (List ℝ)) (maps : List (Nat × Nat)) (dimension i : Nat) : Res (List ℝ) :=
  (Res.readNat maps i).bind fun (size, first) =>
  (Res.readNat B i).bind fun row =>
  (List.range dimension).foldr (fun j rest => rest.bind fun ys =>
    (if j < first ∨ j ≥ first + size then Res.ok 0 else Res.readNat row (j - first)).bind fun v =>
    Res.ok (v :: ys)) (Res.ok [])

/-- The check of one row, `/repo/src/transform_vars_blockrotation.c` lines 106-113, with `coco_double_almost_equal`
(`/repo/src/coco_utilities.c` lines 909-911). -/
noncomputable def testRow (B : List (List ℝ)) (maps : List (Nat × Nat)) (dimension : Nat) (precision : ℝ) (i : Nat) :
    Res Unit :=
  open Classical in
  (getRow B maps dimension i).bind fun y =>
  (apply B maps y).bind fun y =>
  if ∀ j < dimension, |y.getD j 0 - (if i = j then 1 else 0)| < precision then Res.ok () else Res.error

/-- `transform_vars_blockrotation_test`, `/repo/src/transform_vars_blockrotation.c` lines 100-119. -/
noncomputable def test (B : List (List ℝ)) (maps : List (Nat × Nat)) (dimension : Nat) (precision : ℝ) : Res Unit :=
  (List.range dimension).foldl (fun r i => r.bind fun _ => testRow B maps dimension precision i) (Res.ok ())

/-- `transform_vars_blockrotation`, `/repo/src/transform_vars_blockrotation.c` lines 121-164: the row maps, after the
own test. The copy of the matrix (`transform_vars_blockrotation_helpers.c` lines 119-139) has the same elements. -/
noncomputable def create (B : List (List ℝ)) (dimension : Nat) (sizes : List Nat) : Res (List (Nat × Nat)) :=
  (Res.assert (decide (dimension > 0))).bind fun _ =>
  (Res.assert (decide (sizes.sum = dimension))).bind fun _ =>
  (rowMap sizes dimension).bind fun maps =>
  if dimension < 100 then (test B maps dimension (1 / 10 ^ 5)).bind fun _ => Res.ok maps else Res.ok maps

end Rotation
