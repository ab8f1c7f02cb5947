import Mathlib.Analysis.SpecialFunctions.Trigonometric.Bounds
import Mathlib.Topology.Order.IntermediateValue
import Mathlib.Analysis.SpecialFunctions.Pow.Continuity
import Mathlib.Analysis.SpecialFunctions.Trigonometric.Basic
import Verif.Model.Transform

/-!
# The oscillating and the asymmetric transformation are increasing and onto
-/

noncomputable section

namespace Warp
open Transform

/-- The exponent of the oscillating transformation. -/
def phase (a b t : ℝ) : ℝ := t + 0.49 * (Real.sin (a * t) + Real.sin (b * t))

theorem sin_sub_le (x y : ℝ) (h : x ≤ y) : Real.sin x - Real.sin y ≤ y - x := by
  have := Real.abs_sin_sub_sin_le x y
  have h1 := le_abs_self (Real.sin x - Real.sin y)
  rw [abs_sub_comm x y, abs_of_nonneg (sub_nonneg.mpr h : 0 ≤ y - x)] at this
  linarith

theorem phase_mono {a b : ℝ} (ha : 0 ≤ a) (hb : 0 ≤ b) (hab : a + b ≤ 2) : Monotone (phase a b) := by
  intro x y h
  have h1 := sin_sub_le (a * x) (a * y) (mul_le_mul_of_nonneg_left h ha)
  have h2 := sin_sub_le (b * x) (b * y) (mul_le_mul_of_nonneg_left h hb)
  unfold phase
  nlinarith

theorem phase_onto (a b s : ℝ) : ∃ t, phase a b t = s := by
  have hc : ContinuousOn (phase a b) (Set.Icc (s - 1) (s + 1)) := by unfold phase; fun_prop
  have := intermediate_value_Icc (by linarith : s - 1 ≤ s + 1) hc
  obtain ⟨t, -, ht⟩ := this (show s ∈ Set.Icc (phase a b (s - 1)) (phase a b (s + 1)) by
    unfold phase
    constructor
    · nlinarith [Real.sin_le_one (a * (s - 1)), Real.sin_le_one (b * (s - 1))]
    · nlinarith [Real.neg_one_le_sin (a * (s + 1)), Real.neg_one_le_sin (b * (s + 1))])
  exact ⟨t, ht⟩

theorem tosz_pos {x : ℝ} (hx : 0 < x) : tosz (1 / 10) x = Real.exp (phase 1 0.79 (Real.log x * 10) * (1 / 10)) := by
  unfold tosz phase
  rw [if_pos hx]
  dsimp only
  rw [← Real.exp_mul, one_mul, div_eq_mul_inv]
  norm_num

theorem tosz_neg {x : ℝ} (hx : x < 0) :
    tosz (1 / 10) x = -Real.exp (phase 0.55 0.31 (Real.log (-x) * 10) * (1 / 10)) := by
  unfold tosz phase
  rw [if_neg (by linarith), if_pos hx]
  dsimp only
  rw [← Real.exp_mul, div_eq_mul_inv]
  norm_num

theorem tosz_zero (a : ℝ) : tosz a 0 = 0 := by simp [tosz]

theorem tosz_one : tosz (1 / 10) 1 = 1 := by
  rw [tosz_pos one_pos]
  simp [phase]

theorem tosz_neg_one : tosz (1 / 10) (-1) = -1 := by
  rw [tosz_neg (by norm_num)]
  simp [phase]

theorem tosz_mono : Monotone (tosz (1 / 10)) := by
  intro x y h
  rcases lt_trichotomy x 0 with hx | rfl | hx
  · rcases lt_trichotomy y 0 with hy | rfl | hy
    · rw [tosz_neg hx, tosz_neg hy, neg_le_neg_iff, Real.exp_le_exp]
      refine mul_le_mul_of_nonneg_right (phase_mono (by norm_num) (by norm_num) (by norm_num) ?_) (by norm_num)
      exact mul_le_mul_of_nonneg_right (Real.log_le_log (by linarith) (by linarith)) (by norm_num)
    · rw [tosz_neg hx, tosz_zero]
      exact (neg_neg_of_pos (Real.exp_pos _)).le
    · rw [tosz_neg hx, tosz_pos hy]
      exact (neg_neg_of_pos (Real.exp_pos _)).le.trans (Real.exp_pos _).le
  · rcases h.lt_or_eq with hy | rfl
    · rw [tosz_zero, tosz_pos hy]; exact (Real.exp_pos _).le
    · exact le_rfl
  · have hy := hx.trans_le h
    rw [tosz_pos hx, tosz_pos hy, Real.exp_le_exp]
    refine mul_le_mul_of_nonneg_right (phase_mono (by norm_num) (by norm_num) (by norm_num) ?_) (by norm_num)
    exact mul_le_mul_of_nonneg_right (Real.log_le_log hx h) (by norm_num)

theorem tosz_onto (y : ℝ) : ∃ x, tosz (1 / 10) x = y := by
  have key : ∀ a b y : ℝ, 0 < y → ∃ x, 0 < x ∧ Real.exp (phase a b (Real.log x * 10) * (1 / 10)) = y := by
    intro a b y hy
    obtain ⟨t, ht⟩ := phase_onto a b (Real.log y * 10)
    refine ⟨Real.exp (t / 10), Real.exp_pos _, ?_⟩
    rw [Real.log_exp, div_mul_cancel₀ _ (by norm_num), ht, mul_assoc]
    norm_num
    exact Real.exp_log hy
  rcases lt_trichotomy y 0 with hy | rfl | hy
  · obtain ⟨x, hx, e⟩ := key 0.55 0.31 (-y) (by linarith)
    refine ⟨-x, ?_⟩
    rw [tosz_neg (by linarith), neg_neg, e, neg_neg]
  · exact ⟨0, tosz_zero _⟩
  · obtain ⟨x, hx, e⟩ := key 1 0.79 y hy
    exact ⟨x, by rw [tosz_pos hx, e]⟩

/-- The logarithm of the asymmetric transformation. -/
def growth (c t : ℝ) : ℝ := (1 + c * Real.exp (t / 2)) * t

theorem growth_mono {c : ℝ} (h0 : 0 ≤ c) (h1 : c ≤ 1) : Monotone (growth c) := by
  intro s t h
  unfold growth
  have hexp : Real.exp (s / 2) ≤ Real.exp (t / 2) := Real.exp_le_exp.mpr (by linarith)
  have p1 := Real.exp_pos (s / 2)
  have p2 := Real.exp_pos (t / 2)
  by_cases ht : 0 ≤ t
  · by_cases hs : 0 ≤ s
    · have := mul_le_mul hexp h hs p2.le
      nlinarith
    · push Not at hs
      have a1 := mul_nonneg p2.le ht
      have a2 : Real.exp (s / 2) * s ≤ 0 := mul_nonpos_of_nonneg_of_nonpos p1.le hs.le
      nlinarith
  · push Not at ht
    -- with `t < 0`: exp(s/2) * s ≤ exp(t/2) * t + (t - s)
    have e1 : Real.exp (s / 2) = Real.exp (t / 2) * Real.exp ((s - t) / 2) := by
      rw [← Real.exp_add]; congr 1; ring
    have e2 : 1 + (s - t) / 2 ≤ Real.exp ((s - t) / 2) := by
      have := Real.add_one_le_exp ((s - t) / 2); linarith
    have e3 : Real.exp (t / 2) * (-t) ≤ 2 := by
      have h4 := Real.add_one_le_exp (-(t / 2))
      have h5 : Real.exp (t / 2) * Real.exp (-(t / 2)) = 1 := by rw [← Real.exp_add]; simp
      nlinarith
    have e4 : Real.exp (s / 2) * s ≤ Real.exp (s / 2) * t := mul_le_mul_of_nonneg_left h p1.le
    have e5 : Real.exp (s / 2) * t ≤ Real.exp (t / 2) * t + (t - s) := by
      rw [e1]
      have : Real.exp (t / 2) * (1 + (s - t) / 2) * (-t) ≤ Real.exp (t / 2) * Real.exp ((s - t) / 2) * (-t) :=
        mul_le_mul_of_nonneg_right (mul_le_mul_of_nonneg_left e2 p2.le) (by linarith)
      nlinarith
    have e6 : c * (Real.exp (s / 2) * s - Real.exp (t / 2) * t) ≤ c * (t - s) :=
      mul_le_mul_of_nonneg_left (by linarith) h0
    have e7 : c * (t - s) ≤ 1 * (t - s) := mul_le_mul_of_nonneg_right h1 (by linarith)
    nlinarith

theorem growth_onto {c : ℝ} (h0 : 0 ≤ c) (s : ℝ) : ∃ t, growth c t = s := by
  have hg : ∀ t, growth c t = t + c * Real.exp (t / 2) * t := fun t => by unfold growth; ring
  have hc : Continuous (growth c) := by unfold growth; fun_prop
  have p : 0 ≤ c * Real.exp (s / 2) := mul_nonneg h0 (Real.exp_pos _).le
  by_cases hs : 0 ≤ s
  · obtain ⟨t, -, ht⟩ := intermediate_value_Icc hs hc.continuousOn
      (show s ∈ Set.Icc (growth c 0) (growth c s) from ⟨by rw [hg]; simpa using hs, by rw [hg]; nlinarith⟩)
    exact ⟨t, ht⟩
  · push Not at hs
    obtain ⟨t, -, ht⟩ := intermediate_value_Icc hs.le hc.continuousOn
      (show s ∈ Set.Icc (growth c s) (growth c 0) from ⟨by rw [hg]; nlinarith, by rw [hg]; simpa using hs.le⟩)
    exact ⟨t, ht⟩

/-- The factor of coordinate `i`. -/
def weight (i n : Nat) : ℝ := 0.2 * i / ((n : ℝ) - 1)

theorem weight_range {n : Nat} (hn : 2 ≤ n) (i : Fin n) : 0 ≤ weight i n ∧ weight i n ≤ 1 := by
  have h1 : (0 : ℝ) < (n : ℝ) - 1 := by
    have : (2 : ℝ) ≤ n := by exact_mod_cast hn
    linarith
  have h2 : (i : ℝ) ≤ (n : ℝ) - 1 := by
    have : (i : ℝ) + 1 ≤ n := by exact_mod_cast i.2
    linarith
  unfold weight
  constructor
  · positivity
  · rw [div_le_one h1]
    have : (0 : ℝ) ≤ (i : ℝ) := by positivity
    linarith

theorem tasy_pos (i n : Nat) {x : ℝ} (hx : 0 < x) : tasy 0.2 i n x = Real.exp (growth (weight i n) (Real.log x)) := by
  unfold tasy
  rw [if_pos hx, Real.rpow_def_of_pos hx]
  unfold growth weight
  congr 1
  rw [mul_comm]
  congr 3
  rw [Real.sqrt_eq_rpow, Real.rpow_def_of_pos hx]
  congr 1
  ring

theorem tasy_nonpos (i n : Nat) {x : ℝ} (hx : x ≤ 0) : tasy 0.2 i n x = x := if_neg (by linarith)

theorem tasy_one (i n : Nat) : tasy 0.2 i n 1 = 1 := by
  rw [tasy_pos i n one_pos]
  simp [growth]

theorem tasy_mono {n : Nat} (hn : 2 ≤ n) (i : Fin n) : Monotone (tasy 0.2 i n) := by
  obtain ⟨w0, w1⟩ := weight_range hn i
  intro x y h
  by_cases hx : 0 < x
  · rw [tasy_pos _ _ hx, tasy_pos _ _ (hx.trans_le h), Real.exp_le_exp]
    exact growth_mono w0 w1 (Real.log_le_log hx h)
  · push Not at hx
    rw [tasy_nonpos _ _ hx]
    by_cases hy : 0 < y
    · rw [tasy_pos _ _ hy]; exact hx.trans (Real.exp_pos _).le
    · push Not at hy
      rw [tasy_nonpos _ _ hy]; exact h

theorem tasy_onto {n : Nat} (hn : 2 ≤ n) (i : Fin n) (y : ℝ) : ∃ x, tasy 0.2 i n x = y := by
  by_cases hy : 0 < y
  · obtain ⟨t, ht⟩ := growth_onto (weight_range hn i).1 (Real.log y)
    exact ⟨Real.exp t, by rw [tasy_pos _ _ (Real.exp_pos _), Real.log_exp, ht, Real.exp_log hy]⟩
  · push Not at hy
    exact ⟨y, tasy_nonpos _ _ hy⟩

/-- An inverse of an increasing function that fixes 1 and -1 keeps numbers between them there. -/
theorem inverse_small {T inv : ℝ → ℝ} (hT : Monotone T) (h1 : T 1 = 1) (h2 : T (-1) = -1) (hinv : ∀ y, T (inv y) = y)
    {y : ℝ} (hy : |y| < 1) : |inv y| < 1 := by
  rw [abs_lt] at hy ⊢
  constructor
  · by_contra h
    push Not at h
    have := hT h
    rw [hinv, h2] at this
    linarith
  · by_contra h
    push Not at h
    have := hT h
    rw [hinv, h1] at this
    linarith

end Warp
