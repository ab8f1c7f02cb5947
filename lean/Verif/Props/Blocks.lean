import Mathlib.Algebra.BigOperators.Intervals
import Mathlib.Algebra.BigOperators.Group.List.Basic
import Verif.Props.Rotation

/-!
# Block rotations: C51, C84
-/

namespace Rotation
open Legacy

/-! ## Block sizes -/

/-- C51: the block sizes are positive, at most 40, and add up to the dimension. All but the last are equal to the
smaller of 40 and the dimension, and the last is not larger. -/
theorem C51_sizes (dimension : Nat) (h : 0 < dimension) :
    ∃ sizes, blockSizes dimension = .ok sizes ∧ sizes.sum = dimension ∧ (∀ s ∈ sizes, 1 ≤ s ∧ s ≤ 40) ∧
      ∀ s ∈ sizes.dropLast, s = min dimension 40 := by
  unfold blockSizes blockSize
  have hpos : 0 < min dimension 40 := by omega
  generalize hb : min dimension 40 = b at *
  have hb40 : b ≤ 40 := by omega
  have hbd : b ≤ dimension := by omega
  dsimp only
  rw [if_neg (by omega)]
  have hdm := Nat.div_add_mod dimension b
  have hml := Nat.mod_lt dimension hpos
  have hq : 1 ≤ dimension / b := (Nat.one_le_div_iff hpos).mpr hbd
  generalize dimension / b = q at *
  generalize dimension % b = r at *
  obtain ⟨q, rfl⟩ : ∃ k, q = k + 1 := ⟨q - 1, by omega⟩
  have e1 : b * (q + 1) = b * q + b := by ring
  by_cases hr : r > 0
  · rw [if_pos hr, if_neg (by omega)]
    refine ⟨_, rfl, ?_, ?_, ?_⟩
    · have e2 : (q + 1 + 1 - 1) * b = b * (q + 1) := by rw [Nat.add_sub_cancel]; ring
      simp only [List.sum_append, List.sum_replicate, List.sum_singleton, smul_eq_mul]
      rw [e2]; omega
    · intro s hs
      rcases List.mem_append.mp hs with hs | hs
      · rw [(List.mem_replicate.mp hs).2]; omega
      · rw [List.mem_singleton] at hs
        have e2 : (q + 1 + 1 - 1) * b = b * (q + 1) := by rw [Nat.add_sub_cancel]; ring
        rw [hs, e2]; omega
    · intro s hs
      rw [List.dropLast_concat] at hs
      exact (List.mem_replicate.mp hs).2
  · rw [if_neg hr, if_neg (by omega)]
    have e2 : (q + 1 + 0 - 1) * b = b * q := by rw [Nat.add_zero, Nat.add_sub_cancel]; ring
    refine ⟨_, rfl, ?_, ?_, ?_⟩
    · simp only [List.sum_append, List.sum_replicate, List.sum_singleton, smul_eq_mul]
      rw [e2]; omega
    · intro s hs
      rcases List.mem_append.mp hs with hs | hs
      · rw [(List.mem_replicate.mp hs).2]; omega
      · rw [List.mem_singleton] at hs
        rw [hs, e2]; omega
    · intro s hs
      rw [List.dropLast_concat] at hs
      exact (List.mem_replicate.mp hs).2

example : blockSizes 100 = .ok [40, 40, 20] ∧ blockSizes 80 = .ok [40, 40] ∧ blockSizes 7 = .ok [7] := by decide

/-! ## Row maps -/

/-- The size of the block of row `i` and the position of its first row. -/
def Spec.blockOf : List Nat → Nat → Nat × Nat
  | [], _ => (0, 0)
  | s :: sizes, i => if i < s then (s, 0) else ((blockOf sizes (i - s)).1, (blockOf sizes (i - s)).2 + s)

theorem blockOf_eq (sizes : List Nat) : ∀ (idx s i : Nat), sizes[idx]? = some s → (sizes.take idx).sum ≤ i →
    i < (sizes.take idx).sum + s → Spec.blockOf sizes i = (s, (sizes.take idx).sum) := by
  induction sizes with
  | nil => intro idx s i h; simp at h
  | cons t sizes ih =>
    intro idx s i h h1 h2
    cases idx with
    | zero =>
      simp at h h1 h2 ⊢
      subst h
      simp [Spec.blockOf, h2]
    | succ idx =>
      simp only [List.getElem?_cons_succ, List.take_succ_cons, List.sum_cons] at h h1 h2 ⊢
      have := ih idx s (i - t) h (by omega) (by omega)
      unfold Spec.blockOf
      rw [if_neg (by omega), this]
      simp; omega

theorem mapLoop_eq (sizes : List Nat) (hpos : ∀ s ∈ sizes, 1 ≤ s) : ∀ (k i idx s : Nat), sizes[idx]? = some s →
    (sizes.take idx).sum ≤ i → i ≤ (sizes.take idx).sum + s → i + k = sizes.sum →
    mapLoop sizes k i idx ((sizes.take idx).sum + s) = .ok ((List.range' i k).map (Spec.blockOf sizes)) := by
  intro k
  induction k with
  | zero => intros; rfl
  | succ k ih =>
    intro i idx s hs h1 h2 hk
    unfold mapLoop
    have htake : (sizes.take (idx + 1)).sum = (sizes.take idx).sum + s := by
      rw [List.take_succ, hs]; simp
    by_cases hi : i ≥ (sizes.take idx).sum + s
    · have hidx : idx + 1 < sizes.length := by
        by_contra hc
        have : sizes.take (idx + 1) = sizes := List.take_of_length_le (by omega)
        rw [this] at htake
        omega
      have hs2 : sizes[idx + 1]? = some sizes[idx + 1] := List.getElem?_eq_getElem hidx
      have hp2 := hpos _ (List.getElem_mem hidx)
      generalize sizes[idx + 1] = s2 at *
      rw [if_pos hi]
      unfold Res.readNat
      rw [hs2]
      simp only [Res.ok_bind]
      rw [hs2]
      simp only [Res.ok_bind]
      have := ih (i + 1) (idx + 1) s2 hs2 (by omega) (by omega) (by omega)
      rw [htake] at this
      rw [this]
      have hb := blockOf_eq sizes (idx + 1) s2 i hs2 (by omega) (by omega)
      rw [List.range'_succ, List.map_cons, hb, htake]
      simp
    · rw [if_neg hi]
      unfold Res.readNat
      simp only [Res.ok_bind]
      rw [hs]
      simp only [Res.ok_bind]
      rw [ih (i + 1) idx s hs (by omega) (by omega) (by omega)]
      have hb := blockOf_eq sizes idx s i hs (by omega) (by omega)
      rw [List.range'_succ, List.map_cons, hb]
      simp

/-- C51: the maps assign to every row the size of its block and the first position of the block. -/
theorem C51_maps (sizes : List Nat) (hpos : ∀ s ∈ sizes, 1 ≤ s) (hne : sizes ≠ []) :
    rowMap sizes sizes.sum = .ok ((List.range sizes.sum).map (Spec.blockOf sizes)) := by
  obtain ⟨s, ss, rfl⟩ := List.exists_cons_of_ne_nil hne
  have := mapLoop_eq (s :: ss) hpos (s :: ss).sum 0 0 s (by simp) (by simp) (by simp) (by simp)
  unfold rowMap Res.readNat
  simp only [List.getElem?_cons_zero, Res.ok_bind]
  rw [List.range_eq_range']
  simpa using this

theorem blockOf_mem (sizes : List Nat) : ∀ i < sizes.sum, (Spec.blockOf sizes i).2 ≤ i ∧
    i < (Spec.blockOf sizes i).2 + (Spec.blockOf sizes i).1 ∧
    (Spec.blockOf sizes i).2 + (Spec.blockOf sizes i).1 ≤ sizes.sum := by
  induction sizes with
  | nil => intro i h; simp at h
  | cons s sizes ih =>
    intro i h
    rw [List.sum_cons] at h
    unfold Spec.blockOf
    by_cases hi : i < s
    · rw [if_pos hi]; simp [hi]
    · rw [if_neg hi]
      obtain ⟨h1, h2, h3⟩ := ih (i - s) (by omega)
      simp only [List.sum_cons]
      omega

/-- C51: every row lies in its block, the block lies within the dimension, and all rows of a block are assigned the
same block. -/
theorem C51_blocks (sizes : List Nat) (i j : Nat) (hi : i < sizes.sum) (hj : j < sizes.sum) :
    (Spec.blockOf sizes i).2 ≤ i ∧ i < (Spec.blockOf sizes i).2 + (Spec.blockOf sizes i).1 ∧
    (Spec.blockOf sizes i).2 + (Spec.blockOf sizes i).1 ≤ sizes.sum ∧
    ((Spec.blockOf sizes i).2 ≤ j → j < (Spec.blockOf sizes i).2 + (Spec.blockOf sizes i).1 →
      Spec.blockOf sizes j = Spec.blockOf sizes i) := by
  obtain ⟨h1, h2, h3⟩ := blockOf_mem sizes i hi
  refine ⟨h1, h2, h3, ?_⟩
  clear h1 h2 h3
  induction sizes generalizing i j with
  | nil => simp at hi
  | cons s sizes ih =>
    rw [List.sum_cons] at hi hj
    unfold Spec.blockOf
    intro h1 h2
    by_cases hc : i < s
    · rw [if_pos hc] at h1 h2 ⊢
      simp at h2
      rw [if_pos h2]
    · rw [if_neg hc] at h1 h2 ⊢
      simp only at h1 h2
      rw [if_neg (by omega), ih (i - s) (j - s) (by omega) (by omega) (by omega) (by omega)]

/-! ## Multiplication -/

/-- The element in row `i` and column `j` of the block-diagonal matrix with the rows `B`. -/
noncomputable def Spec.full (B : List (List ℝ)) (sizes : List Nat) (i j : Nat) : ℝ :=
  let (size, first) := Spec.blockOf sizes i
  if first ≤ j ∧ j < first + size then (B.getD i []).getD (j - first) 0 else 0

/-- Every row of `B` has as many elements as its block. -/
def Spec.Shape (B : List (List ℝ)) (sizes : List Nat) : Prop :=
  B.map List.length = (List.range sizes.sum).map fun i => (Spec.blockOf sizes i).1

theorem dotLoop_eq (row x : List ℝ) (first : Nat) : ∀ (m k : Nat) (acc : ℝ), k + m ≤ row.length →
    first + k + m ≤ x.length →
    dotLoop row x first m k acc =
      .ok (acc + ∑ t ∈ Finset.range m, row.getD (k + t) 0 * x.getD (first + k + t) 0) := by
  intro m
  induction m with
  | zero => intro k acc _ _; simp [dotLoop]
  | succ m ih =>
    intro k acc h1 h2
    unfold dotLoop Res.readNat
    rw [List.getElem?_eq_getElem (show k < row.length by omega),
      List.getElem?_eq_getElem (show first + k < x.length by omega)]
    simp only [Res.ok_bind]
    rw [ih (k + 1) _ (by omega) (by omega), Finset.sum_range_succ', ]
    congr 1
    have e1 : row.getD (k + 0) 0 = row[k] := by
      simp [List.getD_eq_getElem?_getD, List.getElem?_eq_getElem (show k < row.length by omega)]
    have e2 : x.getD (first + k + 0) 0 = x[first + k] := by
      simp [List.getD_eq_getElem?_getD, List.getElem?_eq_getElem (show first + k < x.length by omega)]
    rw [e1, e2]
    have : ∀ t, row.getD (k + 1 + t) 0 * x.getD (first + (k + 1) + t) 0 =
        row.getD (k + (t + 1)) 0 * x.getD (first + k + (t + 1)) 0 := by
      intro t
      rw [show k + 1 + t = k + (t + 1) by omega, show first + (k + 1) + t = first + k + (t + 1) by omega]
    simp only [this]
    ring

theorem apply_eq (x : List ℝ) : ∀ (B : List (List ℝ)) (maps : List (Nat × Nat)), B.map List.length = maps.map Prod.fst →
    (∀ m ∈ maps, m.2 + m.1 ≤ x.length) →
    apply B maps x = .ok ((List.range B.length).map fun i =>
      ∑ t ∈ Finset.range (maps.getD i (0, 0)).1,
        (B.getD i []).getD t 0 * x.getD ((maps.getD i (0, 0)).2 + t) 0) := by
  intro B
  induction B with
  | nil =>
    intro maps h _
    cases maps with
    | nil => rfl
    | cons m maps => simp at h
  | cons row B ih =>
    intro maps h hm
    cases maps with
    | nil => simp at h
    | cons m maps =>
      obtain ⟨size, first⟩ := m
      simp only [List.map_cons, List.cons.injEq] at h
      unfold apply
      rw [dotLoop_eq row x first size 0 0 (by omega) (by have := hm (size, first) (by simp); simp at this; omega),
        ih maps h.2 fun m hmm => hm m (by simp [hmm])]
      simp only [Res.ok_bind, List.length_cons, List.range_succ_eq_map, List.map_cons, List.map_map]
      congr 1
      congr 1
      simp

theorem sum_block (f : Nat → ℝ) (g : Nat → ℝ) (n first size : Nat) (h : first + size ≤ n) :
    ∑ j ∈ Finset.range n, (if first ≤ j ∧ j < first + size then f (j - first) else 0) * g j =
      ∑ t ∈ Finset.range size, f t * g (first + t) := by
  obtain ⟨r, rfl⟩ : ∃ r, n = first + size + r := ⟨n - (first + size), by omega⟩
  rw [Finset.sum_range_add, Finset.sum_range_add]
  have h1 : ∑ j ∈ Finset.range first, (if first ≤ j ∧ j < first + size then f (j - first) else 0) * g j = 0 := by
    refine Finset.sum_eq_zero fun j hj => ?_
    rw [Finset.mem_range] at hj
    rw [if_neg (by omega), zero_mul]
  have h3 : ∑ j ∈ Finset.range r, (if first ≤ first + size + j ∧ first + size + j < first + size then
      f (first + size + j - first) else 0) * g (first + size + j) = 0 := by
    refine Finset.sum_eq_zero fun j hj => ?_
    rw [if_neg (by omega), zero_mul]
  rw [h1, h3, zero_add, add_zero]
  refine Finset.sum_congr rfl fun j hj => ?_
  rw [Finset.mem_range] at hj
  rw [if_pos (by omega), Nat.add_sub_cancel_left]

theorem shape_maps {B : List (List ℝ)} {sizes : List Nat} (h : Spec.Shape B sizes) :
    B.length = sizes.sum ∧ B.map List.length = ((List.range sizes.sum).map (Spec.blockOf sizes)).map Prod.fst := by
  constructor
  · have := congrArg List.length h
    simpa using this
  · rw [h]; simp

/-- C51: applying the block rotation is multiplication by the block-diagonal matrix. -/
theorem C51_apply (B : List (List ℝ)) (sizes : List Nat) (x : List ℝ) (hB : Spec.Shape B sizes)
    (hx : x.length = sizes.sum) :
    apply B ((List.range sizes.sum).map (Spec.blockOf sizes)) x =
      .ok ((List.range sizes.sum).map fun i =>
        ∑ j ∈ Finset.range sizes.sum, Spec.full B sizes i j * x.getD j 0) := by
  obtain ⟨hl, hm⟩ := shape_maps hB
  rw [apply_eq x B _ hm, hl]
  · congr 1
    refine List.map_congr_left fun i hi => ?_
    rw [List.mem_range] at hi
    obtain ⟨h1, h2, h3⟩ := blockOf_mem sizes i hi
    have hget : ((List.range sizes.sum).map (Spec.blockOf sizes)).getD i (0, 0) = Spec.blockOf sizes i := by
      simp [List.getD_eq_getElem?_getD, hi]
    rw [hget, ← sum_block (fun t => (B.getD i []).getD t 0) (fun j => x.getD j 0) sizes.sum _ _ h3]
    rfl
  · intro m hm
    obtain ⟨i, hi, rfl⟩ := List.mem_map.mp hm
    rw [hx]
    exact (blockOf_mem sizes i (List.mem_range.mp hi)).2.2

/-- C51: the elements outside the diagonal blocks are zero. -/
theorem C51_zero (B : List (List ℝ)) (sizes : List Nat) (i j : Nat) (hi : i < sizes.sum) (hj : j < sizes.sum)
    (h : Spec.blockOf sizes i ≠ Spec.blockOf sizes j) : Spec.full B sizes i j = 0 := by
  unfold Spec.full
  dsimp only
  rw [if_neg]
  rintro ⟨h1, h2⟩
  exact h ((C51_blocks sizes i j hi hj).2.2.2 h1 h2).symm

/-! ## The block-diagonal matrix is orthogonal: C84 -/

/-- The random matrices of all blocks are regular. -/
def Spec.Regular (seed : Int) (sizes : List Nat) : Prop :=
  ∀ (k s : Nat) (g : List ℝ), sizes[k]? = some s → gauss (s * s) (seed + 1000000 * k) = .ok g →
    LinearIndependent ℝ (fun j : Fin s => reshape g j)

/-- The rows of the block-diagonal matrix are orthonormal. -/
def Spec.Orthogonal (B : List (List ℝ)) (sizes : List Nat) : Prop :=
  ∀ i i', i < sizes.sum → i' < sizes.sum →
    ∑ j ∈ Finset.range sizes.sum, Spec.full B sizes i j * Spec.full B sizes i' j = if i = i' then 1 else 0

theorem rows_get {s : Nat} (q : Fin s → (Fin s → ℝ)) (i j : Nat) (hi : i < s) (hj : j < s) :
    ((rows (List.ofFn q)).getD i []).getD j 0 = q ⟨j, hj⟩ ⟨i, hi⟩ := by
  unfold rows
  simp [List.getD_eq_getElem?_getD, hi, hj]

theorem full_top {s : Nat} (R : List (List ℝ)) (hR : R.length = s) (B : List (List ℝ)) (sizes : List Nat) (i j : Nat)
    (hi : i < s) : Spec.full (R ++ B) (s :: sizes) i j = if j < s then (R.getD i []).getD j 0 else 0 := by
  unfold Spec.full Spec.blockOf
  rw [if_pos hi]
  simp [List.getD_eq_getElem?_getD, List.getElem?_append_left (show i < R.length by omega)]

theorem full_bottom {s : Nat} (R : List (List ℝ)) (hR : R.length = s) (B : List (List ℝ)) (sizes : List Nat)
    (i j : Nat) (hi : ¬ i < s) :
    Spec.full (R ++ B) (s :: sizes) i j = if j < s then 0 else Spec.full B sizes (i - s) (j - s) := by
  unfold Spec.full
  rw [Spec.blockOf, if_neg hi]
  dsimp only
  have hget : (R ++ B).getD i [] = B.getD (i - s) [] := by
    simp [List.getD_eq_getElem?_getD, List.getElem?_append_right (show R.length ≤ i by omega), hR]
  rw [hget]
  by_cases hj : j < s
  · rw [if_pos hj, if_neg (by omega)]
  · rw [if_neg hj]
    by_cases hc : (Spec.blockOf sizes (i - s)).2 ≤ j - s ∧
        j - s < (Spec.blockOf sizes (i - s)).2 + (Spec.blockOf sizes (i - s)).1
    · rw [if_pos hc, if_pos (by omega)]
      congr 1
      omega
    · rw [if_neg hc, if_neg (by omega)]

theorem shape_cons {s : Nat} (R : List (List ℝ)) (hR : R.map List.length = List.replicate s s) (B : List (List ℝ))
    (sizes : List Nat) (h : Spec.Shape B sizes) : Spec.Shape (R ++ B) (s :: sizes) := by
  unfold Spec.Shape at h ⊢
  rw [List.map_append, hR, h, List.sum_cons, List.range_add, List.map_append, List.map_map]
  congr 1
  · symm
    rw [List.eq_replicate_iff]
    refine ⟨by simp, ?_⟩
    intro b hb
    obtain ⟨i, hi, rfl⟩ := List.mem_map.mp hb
    rw [List.mem_range] at hi
    simp [Spec.blockOf, hi]
  · refine List.map_congr_left fun i _ => ?_
    simp [Spec.blockOf]

theorem orthogonal_cons {s : Nat} (q : Fin s → (Fin s → ℝ))
    (hq : ∀ k l, ∑ i, q i k * q i l = if k = l then 1 else 0) (B : List (List ℝ)) (sizes : List Nat)
    (h : Spec.Orthogonal B sizes) : Spec.Orthogonal (rows (List.ofFn q) ++ B) (s :: sizes) := by
  have hR : (rows (List.ofFn q)).length = s := by simp [rows]
  intro i i' hi hi'
  rw [List.sum_cons] at hi hi' ⊢
  rw [Finset.sum_range_add]
  by_cases h1 : i < s
  · simp only [full_top _ hR B sizes i _ h1]
    by_cases h2 : i' < s
    · simp only [full_top _ hR B sizes i' _ h2]
      have e1 : ∑ x ∈ Finset.range sizes.sum,
          ((if s + x < s then ((rows (List.ofFn q)).getD i []).getD (s + x) 0 else 0) *
            (if s + x < s then ((rows (List.ofFn q)).getD i' []).getD (s + x) 0 else 0)) = 0 := by
        refine Finset.sum_eq_zero fun x _ => ?_
        rw [if_neg (by omega), zero_mul]
      rw [e1, add_zero]
      have e2 : ∀ x : Fin s, ((if x.1 < s then ((rows (List.ofFn q)).getD i []).getD x 0 else 0) *
            (if x.1 < s then ((rows (List.ofFn q)).getD i' []).getD x 0 else 0)) =
          q x ⟨i, h1⟩ * q x ⟨i', h2⟩ := by
        intro x
        rw [if_pos x.2, if_pos x.2, rows_get q i x h1 x.2, rows_get q i' x h2 x.2]
      rw [Finset.sum_range, Finset.sum_congr rfl fun x _ => e2 x, hq]
      simp
    · simp only [full_bottom _ hR B sizes i' _ h2]
      rw [if_neg (by omega)]
      rw [Finset.sum_eq_zero, Finset.sum_eq_zero, add_zero]
      · intro x _; rw [if_neg (by omega), zero_mul]
      · intro x hx; rw [Finset.mem_range] at hx; rw [if_pos hx, if_pos hx, mul_zero]
  · simp only [full_bottom _ hR B sizes i _ h1]
    by_cases h2 : i' < s
    · simp only [full_top _ hR B sizes i' _ h2]
      rw [if_neg (by omega)]
      rw [Finset.sum_eq_zero, Finset.sum_eq_zero, add_zero]
      · intro x _; rw [if_neg (by omega), if_neg (by omega), mul_zero]
      · intro x hx; rw [Finset.mem_range] at hx; rw [if_pos hx, if_pos hx, zero_mul]
    · simp only [full_bottom _ hR B sizes i' _ h2]
      rw [Finset.sum_eq_zero, zero_add]
      · have := h (i - s) (i' - s) (by omega) (by omega)
        rw [show (if i = i' then (1 : ℝ) else 0) = if i - s = i' - s then 1 else 0 by
          by_cases hc : i = i'
          · rw [if_pos hc, if_pos (by omega)]
          · rw [if_neg hc, if_neg (by omega)], ← this]
        refine Finset.sum_congr rfl fun x _ => ?_
        rw [if_neg (by omega), if_neg (by omega), Nat.add_sub_cancel_left]
      · intro x hx; rw [Finset.mem_range] at hx; rw [if_pos hx, zero_mul]

theorem blockLoop_eq (seed : Int) (B0 : Nat) (hB0 : B0 ≤ 2 ^ 31 * 127773) (sizes : List Nat) :
    ∀ idx : Nat, seed.natAbs + 1000000 * (idx + sizes.length) < B0 → (∀ s ∈ sizes, s ≤ 44) →
    (∀ (k s : Nat) (g : List ℝ), sizes[k]? = some s → gauss (s * s) (seed + 1000000 * ((idx + k : Nat) : Int)) = .ok g →
      LinearIndependent ℝ (fun j : Fin s => reshape g j)) →
    ∃ B, blockLoop seed sizes idx = .ok B ∧ Spec.Shape B sizes ∧ Spec.Orthogonal B sizes := by
  induction sizes with
  | nil =>
    intro idx _ _ _
    exact ⟨[], rfl, rfl, fun i i' h => by simp at h⟩
  | cons s sizes ih =>
    intro idx hseed hs hreg
    rw [List.length_cons] at hseed
    obtain ⟨B, h1, h2, h3⟩ := ih (idx + 1) (by omega) (fun t ht => hs t (by simp [ht])) (by
      intro k t g hk hg
      refine hreg (k + 1) t g (by simpa using hk) ?_
      rw [show idx + (k + 1) = idx + 1 + k by omega]
      exact hg)
    have hs44 := hs s (by simp)
    obtain ⟨g, hg, -, hq⟩ := C83_rotation (seed + 1000000 * idx) (by omega) s hs44
    obtain ⟨q, hcol, ho⟩ := hq (hreg 0 s g (by simp) (by simpa using hg))
    refine ⟨rows (List.ofFn q) ++ B, ?_, ?_, ?_⟩
    · unfold blockLoop
      rw [hcol, h1]
      simp [Res.assert, hs44]
    · refine shape_cons _ ?_ B sizes h2
      rw [List.eq_replicate_iff]
      refine ⟨by simp [rows], ?_⟩
      intro b hb
      simp [rows] at hb
      obtain ⟨_, rfl⟩ := hb
      rfl
    · exact orthogonal_cons q ho.rows B sizes h3

/-- C84: with block sizes up to 44 that add up to the dimension, the block-diagonal matrix computed is orthogonal,
provided the random matrices are regular. -/
theorem C84_orthogonal (seed : Int) (sizes : List Nat) (hs : ∀ s ∈ sizes, s ≤ 44)
    (hseed : seed.natAbs + 1000000 * sizes.length < 2 ^ 31 * 127773) (hreg : Spec.Regular seed sizes) :
    ∃ B, blockRotation seed sizes.sum sizes = .ok B ∧ Spec.Shape B sizes ∧ Spec.Orthogonal B sizes := by
  obtain ⟨B, h1, h2, h3⟩ := blockLoop_eq seed _ (le_refl _) sizes 0 (by simpa using hseed) hs
    (by intro k s g hk hg; exact hreg k s g hk (by simpa using hg))
  refine ⟨B, ?_, h2, h3⟩
  unfold blockRotation
  rw [h1]
  simp [Res.assert]

theorem getRow_eq (B : List (List ℝ)) (sizes : List Nat) (i : Nat) (hB : Spec.Shape B sizes) (hi : i < sizes.sum) :
    getRow B ((List.range sizes.sum).map (Spec.blockOf sizes)) sizes.sum i =
      .ok ((List.range sizes.sum).map (Spec.full B sizes i)) := by
  obtain ⟨hl, hm⟩ := shape_maps hB
  have hmap : ((List.range sizes.sum).map (Spec.blockOf sizes))[i]? = some (Spec.blockOf sizes i) := by simp [hi]
  have hrow : B[i]? = some (B.getD i []) := by
    simp [List.getD_eq_getElem?_getD, List.getElem?_eq_getElem (show i < B.length by omega)]
  have hlen : (B.getD i []).length = (Spec.blockOf sizes i).1 := by
    have := congrArg (fun l : List Nat => l[i]?) hB
    simp only [List.getElem?_map, hrow, Option.map_some] at this
    simpa [hi] using this
  unfold getRow Res.readNat
  rw [hmap]
  simp only [Res.ok_bind]
  rw [hrow]
  simp only [Res.ok_bind]
  generalize List.range sizes.sum = l
  induction l with
  | nil => rfl
  | cons j l ih =>
    rw [List.foldr_cons, ih]
    simp only [Res.ok_bind, List.map_cons]
    unfold Spec.full
    dsimp only
    by_cases hj : j < (Spec.blockOf sizes i).2 ∨ j ≥ (Spec.blockOf sizes i).2 + (Spec.blockOf sizes i).1
    · rw [if_pos hj, if_neg (by omega)]
      simp
    · rw [if_neg hj, if_pos (by omega)]
      have hlt : j - (Spec.blockOf sizes i).2 < (B.getD i []).length := by omega
      rw [List.getElem?_eq_getElem hlt]
      simp only [Res.ok_bind]
      rw [List.getD_eq_getElem?_getD (l := B.getD i []), List.getElem?_eq_getElem hlt]
      rfl

theorem testRow_ok (B : List (List ℝ)) (sizes : List Nat) (i : Nat) (hB : Spec.Shape B sizes)
    (ho : Spec.Orthogonal B sizes) (hi : i < sizes.sum) (precision : ℝ) (hp : 0 < precision) :
    testRow B ((List.range sizes.sum).map (Spec.blockOf sizes)) sizes.sum precision i = .ok () := by
  unfold testRow
  rw [getRow_eq B sizes i hB hi]
  simp only [Res.ok_bind]
  rw [C51_apply B sizes _ hB (by simp)]
  simp only [Res.ok_bind]
  rw [if_pos]
  intro j hj
  have hget : ((List.range sizes.sum).map fun k => ∑ l ∈ Finset.range sizes.sum, Spec.full B sizes k l *
      ((List.range sizes.sum).map (Spec.full B sizes i)).getD l 0).getD j 0 =
      ∑ l ∈ Finset.range sizes.sum, Spec.full B sizes j l * Spec.full B sizes i l := by
    rw [List.getD_eq_getElem?_getD]
    simp only [List.getElem?_map, List.getElem?_range hj, Option.map_some, Option.getD_some]
    refine Finset.sum_congr rfl fun l hl => ?_
    rw [Finset.mem_range] at hl
    simp [List.getD_eq_getElem?_getD, hl]
  rw [hget, ho j i hj hi]
  by_cases hc : i = j
  · subst hc; simpa using hp
  · rw [if_neg hc, if_neg (Ne.symm hc)]; simpa using hp

/-- C84: the transformation accepts the matrix: its own test of orthogonality passes (in exact arithmetic), and the
maps are those of the blocks. -/
theorem C84_accepted (B : List (List ℝ)) (sizes : List Nat) (hpos : ∀ s ∈ sizes, 1 ≤ s) (hne : sizes ≠ [])
    (hB : Spec.Shape B sizes) (ho : Spec.Orthogonal B sizes) :
    create B sizes.sum sizes = .ok ((List.range sizes.sum).map (Spec.blockOf sizes)) := by
  have hsum : 0 < sizes.sum := by
    obtain ⟨s, ss, rfl⟩ := List.exists_cons_of_ne_nil hne
    have := hpos s (by simp)
    simp; omega
  unfold create
  rw [C51_maps sizes hpos hne]
  simp only [Res.assert, hsum, gt_iff_lt, decide_true, if_true, Res.ok_bind]
  split_ifs
  · have : test B ((List.range sizes.sum).map (Spec.blockOf sizes)) sizes.sum (1 / 10 ^ 5) = .ok () := by
      unfold test
      have key : ∀ l : List Nat, (∀ i ∈ l, i < sizes.sum) → l.foldl (fun r i => r.bind fun _ =>
          testRow B ((List.range sizes.sum).map (Spec.blockOf sizes)) sizes.sum (1 / 10 ^ 5) i) (Res.ok ()) =
          Res.ok () := by
        intro l
        induction l with
        | nil => intro _; rfl
        | cons i l ih =>
          intro h
          rw [List.foldl_cons]
          simp only [Res.ok_bind]
          rw [testRow_ok B sizes i hB ho (h i (by simp)) _ (by positivity)]
          exact ih fun k hk => h k (by simp [hk])
      exact key _ fun i hi => List.mem_range.mp hi
    rw [this]
    rfl
  · rfl

/-- C84: a matrix that is not orthogonal is rejected below dimension 100: the process stops. -/
theorem C84_rejected : create [[2]] 1 [1] = .error := by
  simp [create, Res.assert, rowMap, mapLoop, Res.readNat, test, testRow, getRow, apply, dotLoop]
  norm_num

example : Spec.Regular 7 [1, 1] := by
  intro k s g hk hg
  have hs1 : s = 1 := by
    have : s ∈ [1, 1] := List.mem_of_getElem? hk
    simpa using this
  subst hs1
  have hk2 : k < 2 := by
    by_contra h
    rw [List.getElem?_eq_none (by simp; omega)] at hk
    cases hk
  obtain ⟨us, -, -, -, h⟩ := gauss_ok (1 * 1) (by omega) (7 + 1000000 * k) (by omega)
  have hgs := Res.ok.inj (hg.symm.trans h)
  have hne := gaussNumber_ne ((us.getD 0 0 : ℚ) : ℝ) ((us.getD (1 * 1 + 0) 0 : ℚ) : ℝ)
  rw [Fintype.linearIndependent_iff]
  intro c hc
  have e := congrFun hc 0
  simp [reshape, hgs] at e hne
  intro i
  fin_cases i
  rcases e with e | e
  · exact e
  · exact absurd e hne

end Rotation
