import Verif.Model.MO
import Mathlib.Tactic.Linarith
import Mathlib.Tactic.Ring
import Mathlib.Tactic.FieldSimp
import Mathlib.Tactic.NormNum
import Mathlib.Tactic.Positivity

/-!
Properties C30 (dominance), C31 (normalisation) and C32 (distance to the region of interest).
-/

namespace MO
open Utils

/-! ### Grid -/

/-- A multiple of the discretisation 5e-13. -/
def Spec.OnGrid (v : ℚ) : Prop := ∃ k : ℤ, v = k * (5 / 10 ^ 13)

theorem almostEqual_grid {a b : ℚ} (ha : Spec.OnGrid a) (hb : Spec.OnGrid b) :
    almostEqual a b precision = decide (a = b) := by
  obtain ⟨j, rfl⟩ := ha
  obtain ⟨k, rfl⟩ := hb
  unfold almostEqual precision
  rw [decide_eq_decide]
  constructor
  · intro h
    have e : (j : ℚ) * (5 / 10 ^ 13) - k * (5 / 10 ^ 13) = ((j - k : ℤ) : ℚ) * (5 / 10 ^ 13) := by
      push_cast; ring
    rw [e, abs_mul, abs_of_pos (by norm_num : (0 : ℚ) < 5 / 10 ^ 13)] at h
    have h1 : |((j - k : ℤ) : ℚ)| < 1 := by
      by_contra hc
      push Not at hc
      have := mul_le_mul_of_nonneg_right hc (by norm_num : (0 : ℚ) ≤ 5 / 10 ^ 13)
      have h2 : (1 : ℚ) * (5 / 10 ^ 13) < 1 / 10 ^ 13 := lt_of_le_of_lt this h
      norm_num at h2
    rw [← Int.cast_abs] at h1
    have h2 : |j - k| < 1 := by exact_mod_cast h1
    have : j - k = 0 := by rwa [Int.abs_lt_one_iff] at h2
    rw [show j = k by omega]
  · intro h
    rw [h, sub_self, abs_zero]; norm_num

/-! ### C30 -/

/-- Pareto dominance (minimisation): nowhere worse and somewhere better. -/
def Spec.Dominates (a b : List ℚ) : Prop :=
  List.Forall₂ (· ≤ ·) a b ∧ a ≠ b

/-- The flags computed by the loop: some coordinate is smaller / larger. -/
theorem flags_eq (a b : List ℚ) (h : a.length = b.length) (ha : ∀ v ∈ a, Spec.OnGrid v)
    (hb : ∀ v ∈ b, Spec.OnGrid v) (f : Bool × Bool) :
    flags a b f = .ok (f.1 || (a.zip b).any (fun p => decide (p.1 < p.2)),
                       f.2 || (a.zip b).any (fun p => decide (p.2 < p.1))) := by
  induction a generalizing b f with
  | nil => cases b with
    | nil => simp [flags]
    | cons => simp at h
  | cons x a ih => cases b with
    | nil => simp at h
    | cons y b =>
      have ih' := ih b (by simpa using h) (fun v hv => ha v (by simp [hv])) (fun v hv => hb v (by simp [hv]))
      rw [flags, almostEqual_grid (ha x (by simp)) (hb y (by simp))]
      rcases lt_trichotomy x y with hlt | heq | hgt
      · have h1 : ¬ x = y := ne_of_lt hlt
        have h2 : ¬ y < x := not_lt.2 hlt.le
        simp [h1, hlt, h2, ih']
      · subst heq; simp [ih']
      · have h1 : ¬ x = y := ne_of_gt hgt
        have h2 : ¬ x < y := not_lt.2 hgt.le
        simp [h1, hgt, h2, ih']

theorem no_larger (a b : List ℚ) (h : a.length = b.length) :
    (a.zip b).any (fun p => decide (p.2 < p.1)) = false ↔ List.Forall₂ (· ≤ ·) a b := by
  induction a generalizing b with
  | nil => cases b with
    | nil => simp
    | cons => simp at h
  | cons x a ih => cases b with
    | nil => simp at h
    | cons y b =>
      have := ih b (by simpa using h)
      rw [List.forall₂_cons, ← this]
      simp

theorem no_smaller (a b : List ℚ) (h : a.length = b.length) :
    (a.zip b).any (fun p => decide (p.1 < p.2)) = false ↔ List.Forall₂ (· ≤ ·) b a := by
  rw [← no_larger b a h.symm]
  have e : (b.zip a) = (a.zip b).map Prod.swap := by rw [List.zip_swap]
  rw [e, List.any_map]
  rfl

theorem forall₂_antisymm {a b : List ℚ} (h1 : List.Forall₂ (· ≤ ·) a b) (h2 : List.Forall₂ (· ≤ ·) b a) : a = b := by
  induction h1 with
  | nil => rfl
  | cons h _ ih =>
    rw [List.forall₂_cons] at h2
    rw [le_antisymm h h2.1, ih h2.2]

theorem forall₂_refl (a : List ℚ) : List.Forall₂ (· ≤ ·) a a := by
  induction a with
  | nil => exact .nil
  | cons _ _ ih => exact .cons le_rfl ih

/-- **C30.** For vectors of the same length on the normalisation grid, the result is 1, -1, -2 or 0 exactly
when the first dominates the second, the second dominates the first, they are equal, or neither of these. -/
theorem C30_dominance (a b : List ℚ) (h : a.length = b.length) (ha : ∀ v ∈ a, Spec.OnGrid v)
    (hb : ∀ v ∈ b, Spec.OnGrid v) :
    (dominance a b = .ok 1 ↔ Spec.Dominates a b) ∧
    (dominance a b = .ok (-1) ↔ Spec.Dominates b a) ∧
    (dominance a b = .ok (-2) ↔ a = b) ∧
    (dominance a b = .ok 0 ↔ ¬ Spec.Dominates a b ∧ ¬ Spec.Dominates b a ∧ a ≠ b) := by
  have hf := flags_eq a b h ha hb (false, false)
  have h1 := no_larger a b h
  have h2 := no_smaller a b h
  unfold dominance Spec.Dominates
  rw [hf, Res.ok_bind]
  simp only [Bool.false_or]
  cases e1 : (a.zip b).any (fun p => decide (p.1 < p.2)) <;>
  cases e2 : (a.zip b).any (fun p => decide (p.2 < p.1)) <;> rw [e1] at h2 <;> rw [e2] at h1
  · have ab := h1.1 rfl
    have ba := h2.1 rfl
    have e := forall₂_antisymm ab ba
    subst e
    simp [ab]
  · have ba := h2.1 rfl
    have nab : ¬ List.Forall₂ (· ≤ ·) a b := fun hh => by simpa using h1.2 hh
    have ne : a ≠ b := by rintro rfl; exact nab (forall₂_refl a)
    simp [ba, nab, ne, ne.symm]
  · have ab := h1.1 rfl
    have nba : ¬ List.Forall₂ (· ≤ ·) b a := fun hh => by simpa using h2.2 hh
    have ne : a ≠ b := by rintro rfl; exact nba (forall₂_refl a)
    simp [ab, nba, ne]
  · have nab : ¬ List.Forall₂ (· ≤ ·) a b := fun hh => by simpa using h1.2 hh
    have nba : ¬ List.Forall₂ (· ≤ ·) b a := fun hh => by simpa using h2.2 hh
    have ne : a ≠ b := by rintro rfl; exact nab (forall₂_refl a)
    simp [nab, nba, ne]

example : dominance [1, 0] [1, 1 / 2] = .ok 1 ∧ dominance [1 / 4, 1] [1, 1 / 2] = .ok 0 ∧
    Spec.OnGrid (1 / 4) ∧ Spec.OnGrid 1 := by
  refine ⟨by decide +kernel, by decide +kernel, ⟨500000000000, by norm_num⟩, ⟨2000000000000, by norm_num⟩⟩

/-- **C30** (swap). Exchanging the arguments exchanges 1 and -1 and keeps 0 and -2. -/
theorem C30_swap (a b : List ℚ) (h : a.length = b.length) (ha : ∀ v ∈ a, Spec.OnGrid v)
    (hb : ∀ v ∈ b, Spec.OnGrid v) :
    (dominance a b = .ok 1 ↔ dominance b a = .ok (-1)) ∧ (dominance a b = .ok 0 ↔ dominance b a = .ok 0) ∧
    (dominance a b = .ok (-2) ↔ dominance b a = .ok (-2)) := by
  obtain ⟨p1, p2, p3, p4⟩ := C30_dominance a b h ha hb
  obtain ⟨q1, q2, q3, q4⟩ := C30_dominance b a h.symm hb ha
  refine ⟨by rw [p1, q2], ?_, by rw [p3, q3]; exact eq_comm⟩
  rw [p4, q4]
  constructor
  · rintro ⟨x, y, z⟩; exact ⟨y, x, z.symm⟩
  · rintro ⟨x, y, z⟩; exact ⟨y, x, z.symm⟩

/-- **C30** (transitivity). -/
theorem C30_trans (a b c : List ℚ) (h : a.length = b.length) (h' : b.length = c.length)
    (ha : ∀ v ∈ a, Spec.OnGrid v) (hb : ∀ v ∈ b, Spec.OnGrid v) (hc : ∀ v ∈ c, Spec.OnGrid v)
    (h1 : dominance a b = .ok 1) (h2 : dominance b c = .ok 1) : dominance a c = .ok 1 := by
  rw [(C30_dominance a b h ha hb).1] at h1
  rw [(C30_dominance b c h' hb hc).1] at h2
  rw [(C30_dominance a c (h.trans h') ha hc).1]
  have tr : List.Forall₂ (· ≤ ·) a c := by
    have h1 := h1.1
    have h2 := h2.1
    clear * - h1 h2
    induction h1 generalizing c with
    | nil => exact h2
    | cons hx _ ih =>
      cases h2 with
      | cons hy h2 => exact .cons (le_trans hx hy) (ih _ h2)
  refine ⟨tr, ?_⟩
  rintro rfl
  exact h1.2 (forall₂_antisymm h1.1 h2.1)

/-- **C30** (the tolerance). Off the grid the relation is not Pareto dominance: nearly equal vectors are
reported as identical, and "identical" is not transitive. -/
theorem C30_off_grid : ∃ a b c : List ℚ, dominance a b = .ok (-2) ∧ dominance b c = .ok (-2) ∧
    dominance a c = .ok 1 :=
  ⟨[0], [6 / 10 ^ 14], [12 / 10 ^ 14], by decide +kernel, by decide +kernel, by decide +kernel⟩

/-! ### C31 -/

/-- The nearest multiple of the discretisation to the relative position of `y` between `ideal` and `nadir`
(ties up), not below 0. -/
def Spec.raw (y ideal nadir : ℚ) : ℚ :=
  Max.max 0 (⌊(y - ideal) / (nadir - ideal) * (2 * 10 ^ 12) + 1 / 2⌋ * (5 / 10 ^ 13))

theorem one_grid : Spec.OnGrid 1 := ⟨2 * 10 ^ 12, by norm_num⟩

theorem zero_grid : Spec.OnGrid 0 := ⟨0, by simp⟩

theorem raw_grid (y i n : ℚ) : Spec.OnGrid (Spec.raw y i n) := by
  unfold Spec.raw
  rcases le_total (0 : ℚ) (⌊(y - i) / (n - i) * (2 * 10 ^ 12) + 1 / 2⌋ * (5 / 10 ^ 13)) with h | h
  · rw [max_eq_right h]; exact ⟨_, rfl⟩
  · rw [max_eq_left h]; exact zero_grid

theorem raw_nonneg (y i n : ℚ) : 0 ≤ Spec.raw y i n := le_max_left _ _

theorem raw_eq (y i n : ℚ) :
    (if (Utils.round ((y - i) / (n - i) / discretization) : ℚ) * discretization < 0 then 0
     else (Utils.round ((y - i) / (n - i) / discretization) : ℚ) * discretization) = Spec.raw y i n := by
  have e : (y - i) / (n - i) / discretization = (y - i) / (n - i) * (2 * 10 ^ 12) := by
    unfold discretization; rw [div_eq_iff (by norm_num)]; ring
  rw [e]
  unfold Utils.round Spec.raw
  rw [show discretization = 5 / 10 ^ 13 by unfold discretization; norm_num]
  split
  · rename_i h; rw [max_eq_left h.le]
  · rename_i h; rw [max_eq_right (not_lt.1 h)]

/-- **C31.** With ideal below nadir, normalisation succeeds and both coordinates are on the grid and
non-negative; a coordinate 0 comes with the other coordinate at least 1, so no normalised vector dominates
one of the extremes (0, 1) and (1, 0). Each coordinate is the relative position rounded to the nearest grid
point (not below 0), unless the other coordinate is 0. -/
theorem C31_normalize (y0 y1 i0 i1 n0 n1 : ℚ) (h0 : 5 / 10 ^ 13 < n0 - i0) (h1 : 5 / 10 ^ 13 < n1 - i1) :
    ∃ a b, normalize [y0, y1] [i0, i1] [n0, n1] = .ok [a, b] ∧ Spec.OnGrid a ∧ Spec.OnGrid b ∧
      0 ≤ a ∧ 0 ≤ b ∧ (a = 0 → 1 ≤ b) ∧ (b = 0 → 1 ≤ a) ∧
      (a = Spec.raw y0 i0 n0 ∨ (b = 0 ∧ a = 1 ∧ Spec.raw y0 i0 n0 < 1)) ∧
      (b = Spec.raw y1 i1 n1 ∨ (a = 0 ∧ b = 1 ∧ Spec.raw y1 i1 n1 < 1)) := by
  have hd : discretization = 5 / 10 ^ 13 := by unfold discretization; norm_num
  have hl : normLoop [y0, y1] [i0, i1] [n0, n1] = .ok [Spec.raw y0 i0 n0, Spec.raw y1 i1 n1] := by
    have c0 : decide (n0 - i0 > discretization) = true := by rw [hd]; exact decide_eq_true h0
    have c1 : decide (n1 - i1 > discretization) = true := by rw [hd]; exact decide_eq_true h1
    simp only [normLoop, c0, c1, Res.assert, if_true, Res.ok_bind, raw_eq]
  unfold normalize
  rw [if_neg (by simp), hl]
  simp only [Res.ok_bind]
  have ga := raw_grid y0 i0 n0
  have gb := raw_grid y1 i1 n1
  have na := raw_nonneg y0 i0 n0
  have nb := raw_nonneg y1 i1 n1
  generalize Spec.raw y0 i0 n0 = a at *
  generalize Spec.raw y1 i1 n1 = b at *
  simp only [almostEqual_grid ga zero_grid]
  by_cases hb : decide (a = 0) = true ∧ b < 1
  · have ha : a = 0 := by simpa using hb.1
    subst ha
    rw [if_pos hb, almostEqual_grid one_grid zero_grid, if_neg (by simp)]
    exact ⟨0, 1, rfl, zero_grid, one_grid, le_rfl, by norm_num, fun _ => le_rfl, by norm_num, .inl rfl,
      .inr ⟨rfl, rfl, hb.2⟩⟩
  · rw [if_neg hb, almostEqual_grid gb zero_grid]
    by_cases hc : decide (b = 0) = true ∧ a < 1
    · have hb' : b = 0 := by simpa using hc.1
      subst hb'
      rw [if_pos hc]
      exact ⟨1, 0, rfl, one_grid, zero_grid, by norm_num, le_rfl, by norm_num, fun _ => le_rfl,
        .inr ⟨rfl, rfl, hc.2⟩, .inl rfl⟩
    · rw [if_neg hc]
      refine ⟨a, b, rfl, ga, gb, na, nb, ?_, ?_, .inl rfl, .inl rfl⟩
      · intro e; by_contra hlt; exact hb ⟨by simp [e], not_le.1 hlt⟩
      · intro e; by_contra hlt; exact hc ⟨by simp [e], not_le.1 hlt⟩

/-- **C31** (accuracy). Between ideal and nadir the rounded coordinate is within half a grid step of the
relative position and within [0, 1]. -/
theorem C31_accuracy (y i n : ℚ) (h : i ≤ y) (h' : y ≤ n) (hin : i < n) :
    |Spec.raw y i n - (y - i) / (n - i)| ≤ 5 / 10 ^ 13 / 2 ∧ Spec.raw y i n ≤ 1 := by
  have hp : 0 < n - i := sub_pos.2 hin
  have t0 : 0 ≤ (y - i) / (n - i) := div_nonneg (by linarith) hp.le
  have t1 : (y - i) / (n - i) ≤ 1 := by rw [div_le_one hp]; linarith
  unfold Spec.raw
  generalize (y - i) / (n - i) = t at *
  have f1 := Int.floor_le (t * (2 * 10 ^ 12) + 1 / 2)
  have f2 := Int.lt_floor_add_one (t * (2 * 10 ^ 12) + 1 / 2)
  have f0 : 0 ≤ ⌊t * (2 * 10 ^ 12) + 1 / 2⌋ := Int.floor_nonneg.2 (by positivity)
  have f0' : (0 : ℚ) ≤ (⌊t * (2 * 10 ^ 12) + 1 / 2⌋ : ℚ) := by exact_mod_cast f0
  have f3 : ⌊t * (2 * 10 ^ 12) + 1 / 2⌋ ≤ 2 * 10 ^ 12 := by
    have : ⌊t * (2 * 10 ^ 12) + 1 / 2⌋ < 2 * 10 ^ 12 + 1 := by
      rw [Int.floor_lt]; push_cast; linarith
    omega
  have f3' : (⌊t * (2 * 10 ^ 12) + 1 / 2⌋ : ℚ) ≤ 2 * 10 ^ 12 := by exact_mod_cast f3
  rw [max_eq_right (by positivity)]
  constructor
  · rw [abs_le]; constructor <;> linarith
  · linarith

example : normalize [3, 10] [1, 2] [5, 4] = .ok [1 / 2, 4] := by decide +kernel

example : normalize [1, 2] [1, 2] [5, 4] = .ok [0, 1] ∧ normalize [2, -7] [1, 2] [5, 4] = .ok [1, 0] := by
  decide +kernel

/-! ### C32 -/

theorem within_iff (a b : ℚ) (ga : Spec.OnGrid a) (gb : Spec.OnGrid b) :
    withinROI [a, b] = true ↔ (0 ≤ a ∧ a ≤ 1) ∧ 0 ≤ b ∧ b ≤ 1 := by
  have key : ∀ v : ℚ, Spec.OnGrid v →
      ((almostEqual v 0 precision || almostEqual v 1 precision || (decide (v > 0) && decide (v < 1))) = true ↔
        0 ≤ v ∧ v ≤ 1) := by
    intro v gv
    rw [almostEqual_grid gv zero_grid, almostEqual_grid gv one_grid]
    simp only [Bool.or_eq_true, decide_eq_true_eq, Bool.and_eq_true]
    constructor
    · rintro ((h | h) | h)
      · subst h; norm_num
      · subst h; norm_num
      · exact ⟨h.1.le, h.2.le⟩
    · rintro ⟨h1, h2⟩
      rcases h1.eq_or_lt with h | h
      · exact .inl (.inl h.symm)
      rcases h2.eq_or_lt with h' | h'
      · exact .inl (.inr h')
      · exact .inr ⟨h, h'⟩
  unfold withinROI
  simp only [List.foldl_cons, List.foldl_nil]
  by_cases ha : (0 ≤ a ∧ a ≤ 1)
  · rw [if_pos ((key a ga).2 ha)]
    by_cases hb : (0 ≤ b ∧ b ≤ 1)
    · rw [if_pos ((key b gb).2 hb)]; simp [ha, hb]
    · rw [if_neg (fun h => hb ((key b gb).1 h))]; simp only [ha, true_and, and_self, Bool.false_eq_true, false_iff]
      exact hb
  · rw [if_neg (fun h => ha ((key a ga).1 h))]
    by_cases hb : (0 ≤ b ∧ b ≤ 1)
    · rw [if_pos ((key b gb).2 hb)]; simp only [Bool.false_eq_true, false_iff]; exact fun h => ha h.1
    · rw [if_neg (fun h => hb ((key b gb).1 h))]; simp only [Bool.false_eq_true, false_iff]; exact fun h => ha h.1

/-- The Euclidean distances of the point (a, b) to the points of the unit square. -/
def Spec.distances (a b : ℝ) : Set ℝ :=
  {d | ∃ u v : ℝ, 0 ≤ u ∧ u ≤ 1 ∧ 0 ≤ v ∧ v ≤ 1 ∧ d = Real.sqrt ((a - u) ^ 2 + (b - v) ^ 2)}

theorem sqrt_ge_of_sq {d s : ℝ} (h : d ^ 2 ≤ s) (hd : 0 ≤ d) : d ≤ Real.sqrt s := by
  rw [← Real.sqrt_sq hd]
  exact Real.sqrt_le_sqrt h

/-- **C32.** For grid points with non-negative coordinates the result is the distance to the unit square:
the smallest Euclidean distance to one of its points. It is 0 exactly within the square. -/
theorem C32_distance (a b : ℚ) (ga : Spec.OnGrid a) (gb : Spec.OnGrid b) (ha : 0 ≤ a) (hb : 0 ≤ b) :
    ∃ d, distanceToROI [a, b] = .ok d ∧ IsLeast (Spec.distances a b) d ∧ (d = 0 ↔ a ≤ 1 ∧ b ≤ 1) := by
  have ha' : (0 : ℝ) ≤ a := by exact_mod_cast ha
  have hb' : (0 : ℝ) ≤ b := by exact_mod_cast hb
  unfold distanceToROI
  by_cases hw : withinROI [a, b] = true
  · rw [if_pos hw]
    rw [within_iff a b ga gb] at hw
    have ha1 : (a : ℝ) ≤ 1 := by exact_mod_cast hw.1.2
    have hb1 : (b : ℝ) ≤ 1 := by exact_mod_cast hw.2.2
    refine ⟨0, rfl, ⟨⟨a, b, ha', ha1, hb', hb1, by simp⟩, ?_⟩, by simp [hw.1.2, hw.2.2]⟩
    rintro d ⟨u, v, -, -, -, -, rfl⟩
    exact Real.sqrt_nonneg _
  · rw [if_neg hw]
    rw [within_iff a b ga gb] at hw
    have a0 : decide (a ≥ 0) = true := decide_eq_true ha
    have b0 : decide (b ≥ 0) = true := decide_eq_true hb
    simp only [a0, b0, Res.assert, if_true, Res.ok_bind, gt_iff_lt, sub_pos]
    by_cases h1 : 1 < a
    · have h1' : (1 : ℝ) < a := by exact_mod_cast h1
      by_cases h2 : 1 < b
      · have h2' : (1 : ℝ) < b := by exact_mod_cast h2
        rw [if_pos ⟨h1, h2⟩]
        refine ⟨_, rfl, ⟨⟨1, 1, by norm_num, le_rfl, by norm_num, le_rfl, by push_cast; rfl⟩, ?_⟩, ?_⟩
        · rintro d ⟨u, v, hu0, hu1, hv0, hv1, rfl⟩
          apply Real.sqrt_le_sqrt
          push_cast
          have e1 : ((a : ℝ) - 1) ^ 2 ≤ (a - u) ^ 2 := pow_le_pow_left₀ (by linarith) (by linarith) 2
          have e2 : ((b : ℝ) - 1) ^ 2 ≤ (b - v) ^ 2 := pow_le_pow_left₀ (by linarith) (by linarith) 2
          linarith
        · have : 0 < Real.sqrt (((a - 1 : ℚ) : ℝ) ^ 2 + ((b - 1 : ℚ) : ℝ) ^ 2) := by
            apply Real.sqrt_pos.2
            push_cast
            have := pow_pos (sub_pos.2 h1') 2
            have := sq_nonneg ((b : ℝ) - 1)
            linarith
          constructor
          · intro h; rw [h] at this; exact absurd this (lt_irrefl _)
          · intro h; exact absurd h1 (not_lt.2 h.1)
      · have h2' : (b : ℝ) ≤ 1 := by exact_mod_cast not_lt.1 h2
        rw [if_neg (fun h => h2 h.2), if_pos h1]
        have hp : (0 : ℝ) ≤ (a : ℝ) - 1 := by linarith
        refine ⟨_, rfl, ⟨⟨1, b, by norm_num, le_rfl, hb', h2', ?_⟩, ?_⟩, ?_⟩
        · push_cast; rw [sub_self (b : ℝ), zero_pow two_ne_zero, add_zero, Real.sqrt_sq hp]
        · rintro d ⟨u, v, hu0, hu1, hv0, hv1, rfl⟩
          push_cast
          apply sqrt_ge_of_sq _ hp
          have e1 : ((a : ℝ) - 1) ^ 2 ≤ (a - u) ^ 2 := pow_le_pow_left₀ (by linarith) (by linarith) 2
          have := sq_nonneg ((b : ℝ) - v)
          linarith
        · push_cast
          constructor
          · intro h; linarith
          · intro h; exact absurd h1 (not_lt.2 h.1)
    · have h1' : (a : ℝ) ≤ 1 := by exact_mod_cast not_lt.1 h1
      have h2 : 1 < b := by
        by_contra hc
        exact hw ⟨⟨ha, not_lt.1 h1⟩, hb, not_lt.1 hc⟩
      have h2' : (1 : ℝ) < b := by exact_mod_cast h2
      rw [if_neg (fun h => h1 h.1), if_neg h1]
      have hp : (0 : ℝ) ≤ (b : ℝ) - 1 := by linarith
      refine ⟨_, rfl, ⟨⟨a, 1, ha', h1', by norm_num, le_rfl, ?_⟩, ?_⟩, ?_⟩
      · push_cast; rw [sub_self (a : ℝ), zero_pow two_ne_zero, zero_add, Real.sqrt_sq hp]
      · rintro d ⟨u, v, hu0, hu1, hv0, hv1, rfl⟩
        push_cast
        apply sqrt_ge_of_sq _ hp
        have e1 : ((b : ℝ) - 1) ^ 2 ≤ (b - v) ^ 2 := pow_le_pow_left₀ (by linarith) (by linarith) 2
        have := sq_nonneg ((a : ℝ) - u)
        linarith
      · push_cast
        constructor
        · intro h; linarith
        · intro h; exact absurd h2 (not_lt.2 h.2)

example : Spec.OnGrid (3 / 2) ∧ Spec.OnGrid (1 / 2) :=
  ⟨⟨3 * 10 ^ 12, by norm_num⟩, ⟨10 ^ 12, by norm_num⟩⟩

end MO
