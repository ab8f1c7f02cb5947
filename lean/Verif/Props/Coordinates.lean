import Mathlib.Analysis.SpecialFunctions.Trigonometric.Bounds
import Mathlib.Analysis.SpecialFunctions.Log.Deriv
import Mathlib.Analysis.Calculus.Deriv.MeanValue
import Mathlib.Topology.Order.IntermediateValue
import Mathlib.Analysis.Complex.ExponentialBounds
import Mathlib.Tactic.Linarith
import Mathlib.Tactic.FieldSimp
import Verif.Model.Transform

/-!
# Monotone coordinate transformations: C57
-/

namespace Transform

/-- The function in the exponent of the oscillation. -/
noncomputable def wave (a b t : ℝ) : ℝ := t + 0.49 * (Real.sin (a * t) + Real.sin (b * t))

theorem wave_lt {a b : ℝ} (ha : 0 ≤ a) (hb : 0 ≤ b) (hab : a + b ≤ 2) {s t : ℝ} (h : s < t) :
    wave a b s < wave a b t := by
  have h1 := Real.abs_sin_sub_sin_le (a * t) (a * s)
  have h2 := Real.abs_sin_sub_sin_le (b * t) (b * s)
  rw [← mul_sub, abs_of_nonneg (mul_nonneg ha (by linarith))] at h1
  rw [← mul_sub, abs_of_nonneg (mul_nonneg hb (by linarith))] at h2
  have h1 := (abs_le.mp h1).1
  have h2 := (abs_le.mp h2).1
  have h3 : (a + b) * (t - s) ≤ 2 * (t - s) := mul_le_mul_of_nonneg_right hab (by linarith)
  unfold wave
  nlinarith

theorem wave_bounds (a b t : ℝ) : t - 0.98 ≤ wave a b t ∧ wave a b t ≤ t + 0.98 := by
  have h1 := Real.neg_one_le_sin (a * t)
  have h2 := Real.neg_one_le_sin (b * t)
  have h3 := Real.sin_le_one (a * t)
  have h4 := Real.sin_le_one (b * t)
  unfold wave
  constructor <;> linarith

theorem wave_surj (a b T : ℝ) : ∃ t, wave a b t = T := by
  have hc : Continuous (wave a b) := by unfold wave; fun_prop
  have h1 := (wave_bounds a b (T - 0.98)).2
  have h2 := (wave_bounds a b (T + 0.98)).1
  have := intermediate_value_Icc (by linarith : T - 0.98 ≤ T + 0.98) hc.continuousOn
  have hT : T ∈ Set.Icc (wave a b (T - 0.98)) (wave a b (T + 0.98)) := ⟨by linarith, by linarith⟩
  obtain ⟨t, _, ht⟩ := this hT
  exact ⟨t, ht⟩

theorem exp_rpow (w α : ℝ) : Real.exp w ^ α = Real.exp (w * α) := (Real.exp_mul w α).symm

theorem tosz_pos {α x : ℝ} (hx : 0 < x) : tosz α x = Real.exp (wave 1 0.79 (Real.log x / α) * α) := by
  unfold tosz wave
  rw [if_pos hx]
  dsimp only
  rw [exp_rpow, one_mul]

theorem tosz_neg {α x : ℝ} (hx : x < 0) : tosz α x = -Real.exp (wave 0.55 0.31 (Real.log (-x) / α) * α) := by
  unfold tosz wave
  rw [if_neg (by linarith), if_pos hx]
  dsimp only
  rw [exp_rpow]

theorem tosz_zero (α : ℝ) : tosz α 0 = 0 := by simp [tosz]

theorem tosz_sign (α x : ℝ) : (0 < tosz α x ↔ 0 < x) ∧ (tosz α x < 0 ↔ x < 0) := by
  rcases lt_trichotomy x 0 with h | h | h
  · rw [tosz_neg h]
    have := Real.exp_pos (wave 0.55 0.31 (Real.log (-x) / α) * α)
    constructor <;> constructor <;> intro h <;> linarith
  · subst h; rw [tosz_zero]; simp
  · rw [tosz_pos h]
    have := Real.exp_pos (wave 1 0.79 (Real.log x / α) * α)
    constructor <;> constructor <;> intro h <;> linarith

theorem tosz_strictMono {α : ℝ} (hα : 0 < α) : StrictMono (tosz α) := by
  intro x y hxy
  rcases lt_or_ge 0 x with hx | hx
  · rw [tosz_pos hx, tosz_pos (hx.trans hxy), Real.exp_lt_exp]
    refine mul_lt_mul_of_pos_right (wave_lt (by norm_num) (by norm_num) (by norm_num) ?_) hα
    exact div_lt_div_of_pos_right (Real.log_lt_log hx hxy) hα
  · rcases lt_or_ge y 0 with hy | hy
    · rw [tosz_neg hy, tosz_neg (hxy.trans hy), neg_lt_neg_iff, Real.exp_lt_exp]
      refine mul_lt_mul_of_pos_right (wave_lt (by norm_num) (by norm_num) (by norm_num) ?_) hα
      exact div_lt_div_of_pos_right (Real.log_lt_log (by linarith) (by linarith)) hα
    · have h1 : tosz α x ≤ 0 := not_lt.mp fun h => absurd ((tosz_sign α x).1.mp h) (by linarith)
      have h2 : 0 ≤ tosz α y := not_lt.mp fun h => absurd ((tosz_sign α y).2.mp h) (by linarith)
      rcases eq_or_lt_of_le hx with hx0 | hx0
      · subst hx0
        have := (tosz_sign α y).1.mpr hxy
        rw [tosz_zero]; exact this
      · have := (tosz_sign α x).2.mpr hx0
        linarith

/-- **C57** The oscillation of a coordinate (with any positive parameter; the suites use 0.1) is a strictly increasing
bijection of the reals that fixes 0, preserves the sign, and changes the size of a coordinate by at most the factor
`exp (0.98 α)`. -/
theorem C57_oscillation {α : ℝ} (hα : 0 < α) :
    StrictMono (tosz α) ∧ Function.Bijective (tosz α) ∧ tosz α 0 = 0 ∧
    ∀ x, (0 < tosz α x ↔ 0 < x) ∧ (tosz α x < 0 ↔ x < 0) ∧
      Real.exp (-(0.98 * α)) * |x| ≤ |tosz α x| ∧ |tosz α x| ≤ Real.exp (0.98 * α) * |x| := by
  have key : ∀ a b x, 0 < x → Real.exp (-(0.98 * α)) * x ≤ Real.exp (wave a b (Real.log x / α) * α) ∧
      Real.exp (wave a b (Real.log x / α) * α) ≤ Real.exp (0.98 * α) * x := by
    intro a b x hx
    have h1 := wave_bounds a b (Real.log x / α)
    have h2 : Real.log x / α * α = Real.log x := by field_simp
    constructor
    · calc Real.exp (-(0.98 * α)) * x = Real.exp (-(0.98 * α) + Real.log x) := by
            rw [Real.exp_add, Real.exp_log hx]
        _ ≤ _ := by
            rw [Real.exp_le_exp]
            nlinarith [h1.1]
    · calc Real.exp (wave a b (Real.log x / α) * α) ≤ Real.exp (0.98 * α + Real.log x) := by
            rw [Real.exp_le_exp]
            nlinarith [h1.2]
        _ = _ := by rw [Real.exp_add, Real.exp_log hx]
  refine ⟨tosz_strictMono hα, ⟨(tosz_strictMono hα).injective, ?_⟩, tosz_zero α, ?_⟩
  · intro y
    rcases lt_trichotomy y 0 with h | h | h
    · obtain ⟨t, ht⟩ := wave_surj 0.55 0.31 (Real.log (-y) / α)
      refine ⟨-Real.exp (t * α), ?_⟩
      have hp := Real.exp_pos (t * α)
      rw [tosz_neg (by linarith), neg_neg, Real.log_exp, mul_div_cancel_right₀ _ hα.ne', ht,
        div_mul_cancel₀ _ hα.ne', Real.exp_log (by linarith), neg_neg]
    · exact ⟨0, by rw [tosz_zero, h]⟩
    · obtain ⟨t, ht⟩ := wave_surj 1 0.79 (Real.log y / α)
      refine ⟨Real.exp (t * α), ?_⟩
      rw [tosz_pos (Real.exp_pos _), Real.log_exp, mul_div_cancel_right₀ _ hα.ne', ht,
        div_mul_cancel₀ _ hα.ne', Real.exp_log h]
  · intro x
    refine ⟨(tosz_sign α x).1, (tosz_sign α x).2, ?_⟩
    rcases lt_trichotomy x 0 with h | h | h
    · rw [tosz_neg h, abs_neg, abs_of_pos (Real.exp_pos _), abs_of_neg h]
      exact key 0.55 0.31 (-x) (by linarith)
    · subst h; simp [tosz_zero]
    · rw [tosz_pos h, abs_of_pos (Real.exp_pos _), abs_of_pos h]
      exact key 1 0.79 x h

/-- The oscillation is not the identity: it moves the point `exp (π / 20)`. -/
example : tosz 0.1 (Real.exp (Real.pi / 20)) ≠ Real.exp (Real.pi / 20) := by
  rw [tosz_pos (Real.exp_pos _), Real.log_exp]
  intro h
  have h1 := Real.exp_injective h
  have h2 : Real.pi / 20 / 0.1 = Real.pi / 2 := by ring
  unfold wave at h1
  rw [h2, one_mul, Real.sin_pi_div_two] at h1
  have h3 : 0 < Real.sin (0.79 * (Real.pi / 2)) := by
    apply Real.sin_pos_of_pos_of_lt_pi <;> nlinarith [Real.pi_pos]
  nlinarith

/-! ### Asymmetry -/

theorem log_wave_lt {c : ℝ} (hc : 0 ≤ c) (hc7 : c ≤ 7) : StrictMonoOn (fun s : ℝ => Real.log s + c * (s * Real.log s))
    (Set.Ioi 0) := by
  refine strictMonoOn_of_deriv_pos (convex_Ioi 0) ?_ ?_
  · intro s hs
    have : s ≠ 0 := ne_of_gt hs
    exact ContinuousAt.continuousWithinAt (by fun_prop (disch := assumption))
  · intro s hs
    rw [interior_Ioi] at hs
    have hs : 0 < s := hs
    have hd : HasDerivAt (fun s : ℝ => Real.log s + c * (s * Real.log s))
        (s⁻¹ + c * (1 * Real.log s + s * s⁻¹)) s :=
      (Real.hasDerivAt_log hs.ne').add (((hasDerivAt_id s).mul (Real.hasDerivAt_log hs.ne')).const_mul c)
    rw [hd.deriv, mul_inv_cancel₀ hs.ne', one_mul]
    have he : 2.7182818283 < Real.exp 1 := Real.exp_one_gt_d9
    have h2 : (Real.exp (-2))⁻¹ > 7 := by
      rw [← Real.exp_neg, neg_neg, show (2 : ℝ) = 1 + 1 by norm_num, Real.exp_add]
      nlinarith
    have hp := Real.exp_pos (-2)
    have h3 : 7 * Real.exp (-2) < 1 := by
      have := mul_lt_mul_of_pos_right h2 hp
      rwa [inv_mul_cancel₀ hp.ne'] at this
    have h4 := Real.log_le_sub_one_of_pos (div_pos hp hs)
    rw [Real.log_div hp.ne' hs.ne', Real.log_exp] at h4
    rw [div_eq_mul_inv] at h4
    have hi : 0 < s⁻¹ := inv_pos.mpr hs
    have h5 : -(Real.exp (-2) * s⁻¹) ≤ Real.log s + 1 := by linarith
    have h6 : c * -(Real.exp (-2) * s⁻¹) ≤ c * (Real.log s + 1) := mul_le_mul_of_nonneg_left h5 hc
    have h7 : c * (Real.exp (-2) * s⁻¹) ≤ 7 * (Real.exp (-2) * s⁻¹) :=
      mul_le_mul_of_nonneg_right hc7 (by positivity)
    have h8 : 7 * Real.exp (-2) * s⁻¹ < 1 * s⁻¹ := mul_lt_mul_of_pos_right h3 hi
    nlinarith

/-- **C57** The asymmetry map of coordinate `i` of `n` (at least two) with a parameter `β ≥ 0`: the identity on
non-positive coordinates and for the first coordinate; positive coordinates stay positive, those above 1 do not
decrease and those below 1 do not increase; the map is strictly increasing when `β ≤ 7` (the suites use 0.2 and
0.5). -/
theorem C57_asymmetry {β : ℝ} (hβ : 0 ≤ β) {n i : Nat} (hn : 2 ≤ n) (hi : i < n) :
    (∀ x ≤ 0, tasy β i n x = x) ∧ (∀ x, tasy β 0 n x = x) ∧ (∀ x, 0 < x → 0 < tasy β i n x) ∧
    (∀ x, 1 ≤ x → x ≤ tasy β i n x) ∧ (∀ x, 0 < x → x ≤ 1 → tasy β i n x ≤ x) ∧
    (β ≤ 7 → StrictMono (tasy β i n)) := by
  have hn' : (1 : ℝ) ≤ (n : ℝ) - 1 := by
    have : (2 : ℝ) ≤ n := by exact_mod_cast hn
    linarith
  have hc : 0 ≤ β * i / ((n : ℝ) - 1) := by positivity
  have hcb : β * i / ((n : ℝ) - 1) ≤ β := by
    rw [div_le_iff₀ (by linarith)]
    have : (i : ℝ) ≤ (n : ℝ) - 1 := by
      have : ((i + 1 : Nat) : ℝ) ≤ n := by exact_mod_cast hi
      push_cast at this; linarith
    exact mul_le_mul_of_nonneg_left this hβ
  have hneg : ∀ x ≤ 0, tasy β i n x = x := by
    intro x hx; unfold tasy; rw [if_neg (by linarith)]
  have hpos : ∀ x, 0 < x → 0 < tasy β i n x := by
    intro x hx; unfold tasy; rw [if_pos hx]; exact Real.rpow_pos_of_pos hx _
  have hexp : ∀ x : ℝ, 1 ≤ 1 + β * i / ((n : ℝ) - 1) * Real.sqrt x := by
    intro x; have := Real.sqrt_nonneg x; nlinarith
  refine ⟨hneg, ?_, hpos, ?_, ?_, ?_⟩
  · intro x; unfold tasy; split_ifs <;> simp
  · intro x hx
    unfold tasy
    rw [if_pos (by linarith)]
    calc x = x ^ (1 : ℝ) := (Real.rpow_one x).symm
      _ ≤ _ := Real.rpow_le_rpow_of_exponent_le hx (hexp x)
  · intro x hx hx1
    unfold tasy
    rw [if_pos hx]
    calc x ^ (1 + β * i / ((n : ℝ) - 1) * Real.sqrt x) ≤ x ^ (1 : ℝ) :=
          Real.rpow_le_rpow_of_exponent_ge hx hx1 (hexp x)
      _ = x := Real.rpow_one x
  · intro h7 x y hxy
    rcases lt_or_ge 0 x with hx | hx
    · have hy := hx.trans hxy
      unfold tasy
      rw [if_pos hx, if_pos hy, Real.rpow_def_of_pos hx, Real.rpow_def_of_pos hy, Real.exp_lt_exp]
      generalize β * i / ((n : ℝ) - 1) = c at *
      have h := log_wave_lt hc (hcb.trans h7) (Set.mem_Ioi.mpr (Real.sqrt_pos.mpr hx))
        (Set.mem_Ioi.mpr (Real.sqrt_pos.mpr hy)) (Real.sqrt_lt_sqrt hx.le hxy)
      simp only [Real.log_sqrt hx.le, Real.log_sqrt hy.le] at h
      nlinarith
    · rcases lt_or_ge 0 y with hy | hy
      · rw [hneg x hx]; exact lt_of_le_of_lt hx (hpos y hy)
      · rw [hneg x hx, hneg y hy]; exact hxy

/-- The hypotheses hold for the last of five coordinates with parameter 0.5, where 4 is mapped to 4². -/
example : tasy 0.5 4 5 4 = 4 ^ (2 : ℝ) := by
  unfold tasy
  rw [if_pos (by norm_num)]
  congr 1
  rw [show (4 : ℝ) = 2 ^ 2 by norm_num, Real.sqrt_sq (by norm_num)]
  norm_num

/-- The parameter matters: with a parameter of 100 the map of the second of two coordinates is not increasing. -/
theorem C57_large_parameter : ¬ StrictMono (tasy 100 1 2) := by
  intro h
  have h1 : tasy 100 1 2 (1 / 100) < tasy 100 1 2 (1 / 4) := h (by norm_num)
  unfold tasy at h1
  rw [if_pos (by norm_num), if_pos (by norm_num)] at h1
  have e1 : Real.sqrt (1 / 100) = 1 / 10 := by
    rw [show (1 / 100 : ℝ) = (1 / 10) ^ 2 by norm_num, Real.sqrt_sq (by norm_num)]
  have e2 : Real.sqrt (1 / 4) = 1 / 2 := by
    rw [show (1 / 4 : ℝ) = (1 / 2) ^ 2 by norm_num, Real.sqrt_sq (by norm_num)]
  rw [e1, e2, show (1 + 100 * ((1 : Nat) : ℝ) / (((2 : Nat) : ℝ) - 1) * (1 / 10)) = ((11 : Nat) : ℝ) by norm_num,
    show (1 + 100 * ((1 : Nat) : ℝ) / (((2 : Nat) : ℝ) - 1) * (1 / 2)) = ((51 : Nat) : ℝ) by norm_num,
    Real.rpow_natCast, Real.rpow_natCast] at h1
  norm_num at h1

end Transform
