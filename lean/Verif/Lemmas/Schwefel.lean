import Mathlib.Analysis.Real.Pi.Bounds
import Mathlib.Analysis.SpecialFunctions.Trigonometric.Bounds

/-!
# The maximum of `x * sin (sqrt |x|)`, penalized outside `[-500, 500]`

Numerical bounds for C86.
-/

namespace Schwefel
open Real

/-- The recorded best parameter of the Schwefel function. -/
noncomputable def x0 : ℝ := 420.96874633

noncomputable def s0 : ℝ := √x0
noncomputable def r0 : ℝ := s0 - 13 * π / 2

theorem s0_sq : s0 ^ 2 = 420.96874633 := by
  unfold s0 x0
  exact sq_sqrt (by norm_num)

theorem s0_bounds : 20.517522909211043 < s0 ∧ s0 < 20.517522909211044 := by
  unfold s0 x0
  constructor
  · apply lt_sqrt_of_sq_lt; norm_num
  · rw [sqrt_lt' (by norm_num)]; norm_num

theorem r0_bounds : 0.0971706608773869 < r0 ∧ r0 < 0.0971706608773880 := by
  have h1 := s0_bounds
  have h2 := pi_gt_d20
  have h3 := pi_lt_d20
  unfold r0
  constructor <;> linarith

theorem sin_half (t : ℝ) : sin (13 * π / 2 + t) = cos t := by
  have : 13 * π / 2 + t = (t + π / 2) + (3 : ℕ) * (2 * π) := by push_cast; ring
  rw [this, sin_add_nat_mul_two_pi, sin_add_pi_div_two]

theorem sin_s0 : sin s0 = cos r0 := by
  rw [← sin_half r0]
  congr 1
  unfold r0
  ring

open Complex in
theorem complex_cos_taylor {x : ℂ} (hx : ‖x‖ ≤ 1) :
    ‖Complex.cos x - (1 - x ^ 2 / 2 + x ^ 4 / 24 - x ^ 6 / 720 + x ^ 8 / 40320)‖ ≤ ‖x‖ ^ 10 * (11 / 36288000) :=
  calc
    ‖Complex.cos x - (1 - x ^ 2 / 2 + x ^ 4 / 24 - x ^ 6 / 720 + x ^ 8 / 40320)‖ =
        ‖(Complex.exp (-x * I) - ∑ m ∈ Finset.range 10, (-x * I) ^ m / m.factorial) / 2 +
         (Complex.exp (x * I) - ∑ m ∈ Finset.range 10, (x * I) ^ m / m.factorial) / 2‖ := by
      have h2 : I ^ 2 = -1 := I_sq
      have h4 : I ^ 4 = 1 := I_pow_four
      have h6 : I ^ 6 = -1 := by rw [show 6 = 4 + 2 from rfl, pow_add, h4, h2]; ring
      have h8 : I ^ 8 = 1 := by rw [show 8 = 4 + 4 from rfl, pow_add, h4]; ring
      congr 1
      simp only [Complex.cos, Finset.sum_range_succ, Finset.sum_range_zero, Nat.factorial, mul_pow, h2, h4, h6, h8]
      push_cast
      ring
    _ ≤ ‖Complex.exp (-x * I) - ∑ m ∈ Finset.range 10, (-x * I) ^ m / m.factorial‖ / 2 +
        ‖Complex.exp (x * I) - ∑ m ∈ Finset.range 10, (x * I) ^ m / m.factorial‖ / 2 := by
      grw [norm_add_le]
      simp
    _ ≤ ‖-x * I‖ ^ 10 * (Nat.succ 10 * (Nat.factorial 10 * (10 : ℕ) : ℝ)⁻¹) / 2 +
        ‖x * I‖ ^ 10 * (Nat.succ 10 * (Nat.factorial 10 * (10 : ℕ) : ℝ)⁻¹) / 2 := by
      grw [Complex.exp_bound (by simpa) (by simp), Complex.exp_bound (by simpa) (by simp)]
    _ ≤ ‖x‖ ^ 10 * (11 / 36288000) := by norm_num [Nat.factorial]

theorem cos_taylor {x : ℝ} (hx : |x| ≤ 1) :
    |cos x - (1 - x ^ 2 / 2 + x ^ 4 / 24 - x ^ 6 / 720 + x ^ 8 / 40320)| ≤ |x| ^ 10 * (11 / 36288000) := by
  have := complex_cos_taylor (x := x) (by simpa)
  rw [← Complex.ofReal_cos] at this
  have e : ((cos x : ℝ) : ℂ) - (1 - (x : ℂ) ^ 2 / 2 + (x : ℂ) ^ 4 / 24 - (x : ℂ) ^ 6 / 720 + (x : ℂ) ^ 8 / 40320) =
      ((cos x - (1 - x ^ 2 / 2 + x ^ 4 / 24 - x ^ 6 / 720 + x ^ 8 / 40320) : ℝ) : ℂ) := by push_cast; ring
  rw [e, Complex.norm_real, Complex.norm_real, norm_eq_abs, norm_eq_abs] at this
  exact this

theorem cos_r0 : 0.995282644911578 < cos r0 ∧ cos r0 < 0.995282644911579 := by
  obtain ⟨h1, h2⟩ := r0_bounds
  constructor
  · have ha := abs_le.1 (cos_taylor (x := 0.0971706608773880) (by rw [abs_of_pos (by norm_num)]; norm_num))
    rw [abs_of_pos (by norm_num)] at ha
    have hb : cos 0.0971706608773880 ≤ cos r0 :=
      cos_le_cos_of_nonneg_of_le_pi (by linarith) (by linarith [pi_gt_three]) h2.le
    have := ha.1
    norm_num at this hb ⊢
    linarith
  · have ha := abs_le.1 (cos_taylor (x := 0.0971706608773869) (by rw [abs_of_pos (by norm_num)]; norm_num))
    rw [abs_of_pos (by norm_num)] at ha
    have hb : cos r0 ≤ cos 0.0971706608773869 :=
      cos_le_cos_of_nonneg_of_le_pi (by norm_num) (by linarith [pi_gt_three]) h1.le
    have := ha.2
    norm_num at this hb ⊢
    linarith

theorem sin_r0 : 0.097017816599 < sin r0 ∧ sin r0 < 0.097017816601 := by
  obtain ⟨h1, h2⟩ := cos_r0
  obtain ⟨h3, h4⟩ := r0_bounds
  have hpos : 0 ≤ sin r0 := sin_nonneg_of_nonneg_of_le_pi (by linarith) (by linarith [pi_gt_three])
  have hsq := sin_sq_add_cos_sq r0
  have hc1 : (0.995282644911578 : ℝ) ^ 2 < cos r0 ^ 2 := pow_lt_pow_left₀ h1 (by norm_num) (by norm_num)
  have hc2 : cos r0 ^ 2 < (0.995282644911579 : ℝ) ^ 2 := pow_lt_pow_left₀ h2 (by linarith) (by norm_num)
  constructor
  · apply lt_of_pow_lt_pow_left₀ 2 hpos
    norm_num at hc1 hc2 ⊢
    linarith
  · apply lt_of_pow_lt_pow_left₀ 2 (by norm_num)
    norm_num at hc1 hc2 ⊢
    linarith

/-- The value at the recorded best parameter. -/
theorem peak_value : |418.9828872724339 - x0 * sin s0| ≤ 1 / 10 ^ 12 := by
  obtain ⟨h1, h2⟩ := cos_r0
  rw [sin_s0, abs_le]
  unfold x0
  constructor
  · norm_num at h1 h2 ⊢; linarith
  · norm_num at h1 h2 ⊢; linarith

/-- Half the derivative of `s ^ 2 * sin s` at `s0`, divided by `s0`: almost 0. -/
theorem slope_small : |2 * s0 * cos r0 - x0 * sin r0| ≤ 1 / 10 ^ 6 := by
  obtain ⟨h1, h2⟩ := cos_r0
  obtain ⟨h3, h4⟩ := sin_r0
  obtain ⟨h5, h6⟩ := s0_bounds
  have a : (20.517522909211043 : ℝ) * 0.995282644911578 ≤ s0 * cos r0 :=
    mul_le_mul h5.le h1.le (by norm_num) (by linarith)
  have b : s0 * cos r0 ≤ (20.517522909211044 : ℝ) * 0.995282644911579 :=
    mul_le_mul h6.le h2.le (by linarith) (by norm_num)
  rw [abs_le]
  unfold x0
  norm_num at a b h3 h4 ⊢
  constructor <;> linarith

theorem cos_le_quartic {d : ℝ} (h : |d| ≤ 1) : cos d ≤ 1 - d ^ 2 / 2 + 5 / 96 * d ^ 4 := by
  have := (abs_le.1 (cos_bound h)).2
  have h4 : |d| ^ 4 = d ^ 4 := by rw [← abs_pow, abs_of_nonneg (by positivity)]
  rw [h4] at this
  linarith

theorem neg_sin_le {d : ℝ} (h : |d| ≤ 1) : -sin d ≤ -d + |d| ^ 3 / 4 := by
  rcases lt_trichotomy d 0 with hd | hd | hd
  · have h1 : sin (-d) ≤ -d := sin_le (by linarith)
    rw [sin_neg] at h1
    have : 0 ≤ |d| ^ 3 := by positivity
    linarith
  · subst hd; simp
  · rw [abs_of_pos hd] at h ⊢
    have := sin_gt_sub_cube hd
    have : 0 < d ^ 3 := by positivity
    linarith

theorem sin_le_add {d : ℝ} (h : |d| ≤ 1) : sin d ≤ d + |d| ^ 3 / 4 := by
  have := neg_sin_le (d := -d) (by rwa [abs_neg])
  rw [sin_neg, abs_neg] at this
  linarith

theorem sin_add_s0 (d : ℝ) : sin (s0 + d) = cos r0 * cos d - sin r0 * sin d := by
  have : s0 + d = 13 * π / 2 + (r0 + d) := by unfold r0; ring
  rw [this, sin_half, cos_add]

theorem parabola (a : ℝ) : 1 / 10 ^ 6 * a - 100 * a ^ 2 ≤ 1 / 10 ^ 11 := by
  nlinarith [sq_nonneg (a - 1 / (2 * 10 ^ 8))]

/-- Near the maximum. -/
theorem near {d : ℝ} (h1 : -0.1 ≤ d) (h2 : d ≤ 0.41) : (s0 + d) ^ 2 * sin (s0 + d) ≤ x0 * sin s0 + 1 / 10 ^ 11 := by
  obtain ⟨c1, c2⟩ := cos_r0
  obtain ⟨t1, t2⟩ := sin_r0
  obtain ⟨b1, b2⟩ := s0_bounds
  have hs := s0_sq
  have hslope := abs_le.1 slope_small
  have hd : |d| ≤ 0.41 := abs_le.2 ⟨by linarith, h2⟩
  have ha0 := abs_nonneg d
  have hcos := cos_le_quartic (d := d) (by linarith)
  have hsin := neg_sin_le (d := d) (by linarith)
  rw [sin_add_s0, sin_s0]
  have hC : 0 ≤ cos r0 := by linarith
  have hS : 0 ≤ sin r0 := by linarith
  have hT : 0 ≤ (s0 + d) ^ 2 := sq_nonneg _
  have e1 : cos r0 * cos d - sin r0 * sin d ≤
      cos r0 * (1 - d ^ 2 / 2 + 5 / 96 * d ^ 4) + sin r0 * (-d + |d| ^ 3 / 4) := by
    have := mul_le_mul_of_nonneg_left hcos hC
    have := mul_le_mul_of_nonneg_left hsin hS
    linarith
  have e2 := mul_le_mul_of_nonneg_left e1 hT
  have hd2 : |d| ^ 2 = d ^ 2 := sq_abs d
  have e3 : (s0 + d) ^ 2 * (cos r0 * (1 - d ^ 2 / 2 + 5 / 96 * d ^ 4) + sin r0 * (-d + |d| ^ 3 / 4)) =
      x0 * cos r0 + (2 * s0 * cos r0 - x0 * sin r0) * d + d ^ 2 * (cos r0 - 2 * s0 * sin r0 - sin r0 * d
        + (s0 + d) ^ 2 * (-cos r0 / 2 + 5 / 96 * cos r0 * d ^ 2 + sin r0 * |d| / 4)) := by
    have : |d| ^ 3 = d ^ 2 * |d| := by rw [← hd2]; ring
    rw [this]
    have hx : x0 = s0 ^ 2 := by rw [hs]; rfl
    rw [hx]
    ring
  have hin : -cos r0 / 2 + 5 / 96 * cos r0 * d ^ 2 + sin r0 * |d| / 4 ≤ -0.4 := by
    have h3 : d ^ 2 ≤ 0.41 ^ 2 := by rw [← hd2]; exact pow_le_pow_left₀ ha0 hd 2
    have h4 : cos r0 * d ^ 2 ≤ 1 * 0.41 ^ 2 := mul_le_mul (by linarith) h3 (sq_nonneg _) (by norm_num)
    have h5 : sin r0 * |d| ≤ 0.1 * 0.41 := mul_le_mul (by linarith) hd ha0 (by norm_num)
    norm_num at h3 h4 h5 c1 ⊢
    linarith
  have hsq : (400 : ℝ) ≤ (s0 + d) ^ 2 := by nlinarith
  have hcoef : cos r0 - 2 * s0 * sin r0 - sin r0 * d
        + (s0 + d) ^ 2 * (-cos r0 / 2 + 5 / 96 * cos r0 * d ^ 2 + sin r0 * |d| / 4) ≤ -100 := by
    have h6 : (s0 + d) ^ 2 * (-cos r0 / 2 + 5 / 96 * cos r0 * d ^ 2 + sin r0 * |d| / 4) ≤ 400 * -0.4 := by
      have := mul_le_mul_of_nonneg_left hin hT
      nlinarith
    have h7 : 0 ≤ s0 * sin r0 := mul_nonneg (by linarith) hS
    have h8 : -(sin r0 * d) ≤ 0.1 := by nlinarith
    linarith
  have hlin : (2 * s0 * cos r0 - x0 * sin r0) * d ≤ 1 / 10 ^ 6 * |d| := by
    calc _ ≤ |(2 * s0 * cos r0 - x0 * sin r0) * d| := le_abs_self _
      _ = |2 * s0 * cos r0 - x0 * sin r0| * |d| := abs_mul _ _
      _ ≤ _ := mul_le_mul_of_nonneg_right slope_small ha0
  have hquad : d ^ 2 * (cos r0 - 2 * s0 * sin r0 - sin r0 * d
        + (s0 + d) ^ 2 * (-cos r0 / 2 + 5 / 96 * cos r0 * d ^ 2 + sin r0 * |d| / 4)) ≤ |d| ^ 2 * -100 := by
    rw [hd2]
    exact mul_le_mul_of_nonneg_left hcoef (sq_nonneg _)
  have hfin := parabola |d|
  linarith [e2, e3]

/-- Very near the recorded point. -/
theorem near_below {d : ℝ} (h : |d| ≤ 1 / 10 ^ 7) : x0 * sin s0 - 1 / 10 ^ 11 ≤ (s0 + d) ^ 2 * sin (s0 + d) := by
  obtain ⟨c1, c2⟩ := cos_r0
  obtain ⟨t1, t2⟩ := sin_r0
  obtain ⟨b1, b2⟩ := s0_bounds
  have hs := s0_sq
  have ha0 := abs_nonneg d
  have hh := abs_le.1 h
  have hcos : 1 - d ^ 2 / 2 ≤ cos d := one_sub_sq_div_two_le_cos
  have hsin := sin_le_add (d := d) (by linarith)
  rw [sin_add_s0, sin_s0]
  have hC : 0 ≤ cos r0 := by linarith
  have hS : 0 ≤ sin r0 := by linarith
  have hT : 0 ≤ (s0 + d) ^ 2 := sq_nonneg _
  have hd2 : |d| ^ 2 = d ^ 2 := sq_abs d
  have e1 : cos r0 * (1 - d ^ 2 / 2) + sin r0 * (-d - |d| ^ 3 / 4) ≤ cos r0 * cos d - sin r0 * sin d := by
    have := mul_le_mul_of_nonneg_left hcos hC
    have := mul_le_mul_of_nonneg_left hsin hS
    linarith
  have e2 := mul_le_mul_of_nonneg_left e1 hT
  have e3 : (s0 + d) ^ 2 * (cos r0 * (1 - d ^ 2 / 2) + sin r0 * (-d - |d| ^ 3 / 4)) =
      x0 * cos r0 + (2 * s0 * cos r0 - x0 * sin r0) * d + d ^ 2 * (cos r0 - 2 * s0 * sin r0 - sin r0 * d
        - (s0 + d) ^ 2 * (cos r0 / 2 + sin r0 * |d| / 4)) := by
    have : |d| ^ 3 = d ^ 2 * |d| := by rw [← hd2]; ring
    rw [this]
    have hx : x0 = s0 ^ 2 := by rw [hs]; rfl
    rw [hx]
    ring
  have hin : cos r0 / 2 + sin r0 * |d| / 4 ≤ 1 := by nlinarith
  have hsq : (s0 + d) ^ 2 ≤ 500 := by nlinarith
  have hcoef : -600 ≤ cos r0 - 2 * s0 * sin r0 - sin r0 * d
        - (s0 + d) ^ 2 * (cos r0 / 2 + sin r0 * |d| / 4) := by
    have h6 : (s0 + d) ^ 2 * (cos r0 / 2 + sin r0 * |d| / 4) ≤ 500 := by nlinarith
    have h7 : s0 * sin r0 ≤ 21 * 0.1 := mul_le_mul (by linarith) (by linarith) hS (by norm_num)
    have h8 : sin r0 * d ≤ 1 := by nlinarith
    linarith
  have hlin : -(1 / 10 ^ 6 * |d|) ≤ (2 * s0 * cos r0 - x0 * sin r0) * d := by
    have : |(2 * s0 * cos r0 - x0 * sin r0) * d| ≤ 1 / 10 ^ 6 * |d| := by
      rw [abs_mul]
      exact mul_le_mul_of_nonneg_right slope_small ha0
    linarith [(abs_le.1 this).1]
  have hquad : |d| ^ 2 * -600 ≤ d ^ 2 * (cos r0 - 2 * s0 * sin r0 - sin r0 * d
        - (s0 + d) ^ 2 * (cos r0 / 2 + sin r0 * |d| / 4)) := by
    rw [hd2]
    exact mul_le_mul_of_nonneg_left hcoef (sq_nonneg _)
  have hsmall : |d| ^ 2 ≤ (1 / 10 ^ 7) ^ 2 := pow_le_pow_left₀ ha0 h 2
  norm_num at hsmall h hlin hquad ⊢
  linarith [e2, e3]

theorem peak_large : 418 ≤ x0 * sin s0 := by
  have := (abs_le.1 peak_value).2
  norm_num at this ⊢
  linarith

/-- Positive arguments up to `(8 π)²`. -/
theorem positive {s : ℝ} (h0 : 0 ≤ s) (h8 : s ≤ 8 * π) : s ^ 2 * sin s ≤ x0 * sin s0 + 1 / 10 ^ 11 := by
  obtain ⟨b1, b2⟩ := s0_bounds
  have hp := peak_large
  have p1 := pi_gt_d20
  have p2 := pi_lt_d20
  by_cases h1 : s ≤ 20.42
  · have : s ^ 2 * sin s ≤ s ^ 2 * 1 := mul_le_mul_of_nonneg_left (sin_le_one s) (sq_nonneg s)
    nlinarith
  by_cases h2 : s ≤ 20.92
  · have := near (d := s - s0) (by linarith) (by linarith)
    rwa [add_sub_cancel] at this
  by_cases h3 : s ≤ 7 * π
  · set t := s - 13 * π / 2 with ht
    have hst : s = 13 * π / 2 + t := by rw [ht]; ring
    have hsin : sin s = cos t := by rw [hst, sin_half]
    have ht1 : 0.499 ≤ t := by linarith
    have ht2 : t ≤ 1.571 := by linarith
    have hcos : cos t ≤ 1 - 2 / π ^ 2 * t ^ 2 :=
      cos_le_one_sub_mul_cos_sq (abs_le.2 ⟨by linarith, by linarith⟩)
    have hk : (0.2026 : ℝ) ≤ 2 / π ^ 2 := by
      rw [le_div_iff₀ (by positivity)]
      nlinarith
    have hcos' : cos t ≤ 1 - 0.2026 * t ^ 2 := by nlinarith [sq_nonneg t]
    rw [hsin]
    have hs2 : s ^ 2 * cos t ≤ s ^ 2 * (1 - 0.2026 * t ^ 2) := mul_le_mul_of_nonneg_left hcos' (sq_nonneg s)
    have hle : s ≤ 20.4205 + t := by linarith
    have hnn : 0 ≤ 1 - 0.2026 * t ^ 2 := by nlinarith
    have hs3 : s ^ 2 ≤ (20.4205 + t) ^ 2 := pow_le_pow_left₀ h0 hle 2
    have hs4 := mul_le_mul_of_nonneg_right hs3 hnn
    have hs5 : (20.4205 + t) ^ 2 * (1 - 0.2026 * t ^ 2) ≤ 417.1 := by
      have e : (20.4205 + t) ^ 2 * (1 - 0.2026 * t ^ 2) = 20.4205 ^ 2 + 2 * 20.4205 * t + t ^ 2
          - 0.2026 * t ^ 2 * 20.4205 ^ 2 - 0.2026 * t ^ 2 * (2 * 20.4205 * t + t ^ 2) := by ring
      have h5 : 0 ≤ 0.2026 * t ^ 2 * (2 * 20.4205 * t + t ^ 2) := by positivity
      rw [e]
      nlinarith
    linarith
  · have hsin : sin s ≤ 0 := by
      have : s = (s - 8 * π) + (4 : ℕ) * (2 * π) := by push_cast; ring
      rw [this, sin_add_nat_mul_two_pi]
      exact sin_nonpos_of_nonpos_of_neg_pi_le (by linarith) (by linarith)
    have : s ^ 2 * sin s ≤ 0 := mul_nonpos_of_nonneg_of_nonpos (sq_nonneg s) hsin
    linarith

/-- Negative arguments down to -512. -/
theorem negative {s : ℝ} (h0 : 0 ≤ s) (h8 : s ^ 2 ≤ 512) : -(s ^ 2 * sin s) ≤ x0 * sin s0 := by
  have hp := peak_large
  have p1 := pi_gt_d20
  have p2 := pi_lt_d20
  have hs : s ≤ 22.628 := by nlinarith
  by_cases h1 : s ≤ 20
  · have : s ^ 2 * -sin s ≤ s ^ 2 * 1 := mul_le_mul_of_nonneg_left (by linarith [neg_one_le_sin s]) (sq_nonneg s)
    nlinarith
  by_cases h3 : s ≤ 7 * π
  · have hsin : 0 ≤ sin s := by
      have : s = (s - 6 * π) + (3 : ℕ) * (2 * π) := by push_cast; ring
      rw [this, sin_add_nat_mul_two_pi]
      exact sin_nonneg_of_nonneg_of_le_pi (by linarith) (by linarith)
    have : 0 ≤ s ^ 2 * sin s := mul_nonneg (sq_nonneg s) hsin
    linarith
  · have hsin : -sin s ≤ 0.65 := by
      have e : s = (s - 7 * π) + π + (3 : ℕ) * (2 * π) := by push_cast; ring
      have h4 : sin s = -sin (s - 7 * π) := by
        conv_lhs => rw [e, sin_add_nat_mul_two_pi, sin_add_pi]
      have h5 : sin (s - 7 * π) ≤ s - 7 * π := sin_le (by linarith)
      linarith
    have : s ^ 2 * -sin s ≤ s ^ 2 * 0.65 := mul_le_mul_of_nonneg_left hsin (sq_nonneg s)
    linarith

/-- The penalty for one coordinate. -/
noncomputable def penalty (x : ℝ) : ℝ := if |x| - 500 > 0 then (|x| - 500) * (|x| - 500) else 0

theorem penalty_nonneg (x : ℝ) : 0 ≤ penalty x := by
  unfold penalty
  split_ifs
  · exact mul_self_nonneg _
  · exact le_rfl

/-- No coordinate contributes more than the recorded one. -/
theorem coordinate (x : ℝ) {m : ℝ} (hm : 1 ≤ m) : x * sin √|x| - m * penalty x ≤ x0 * sin √|x0| + 1 / 10 ^ 11 := by
  have e0 : sin √|x0| = sin s0 := by
    rw [abs_of_pos (by unfold x0; norm_num)]
    rfl
  rw [e0]
  have hp := peak_large
  have hpen := penalty_nonneg x
  have hmp : penalty x ≤ m * penalty x := le_mul_of_one_le_left hpen hm
  have hsq : √|x| ^ 2 = |x| := sq_sqrt (abs_nonneg x)
  by_cases h : |x| ≤ 512
  · have hs : √|x| ≤ 8 * π := by
      have := pi_gt_d20
      have : √|x| ≤ 23 := by
        rw [sqrt_le_iff]
        constructor <;> linarith
      linarith
    rcases le_total 0 x with hx | hx
    · have := positive (sqrt_nonneg |x|) hs
      rw [hsq, abs_of_nonneg hx] at this
      rw [abs_of_nonneg hx]
      linarith
    · have := negative (sqrt_nonneg |x|) (by rw [hsq]; exact h)
      rw [hsq, abs_of_nonpos hx] at this
      rw [abs_of_nonpos hx]
      linarith
  · have hpv : penalty x = (|x| - 500) * (|x| - 500) := if_pos (by linarith)
    have hle : x * sin √|x| ≤ |x| := by
      calc x * sin √|x| ≤ abs (x * sin √|x|) := le_abs_self _
        _ = |x| * abs (sin √|x|) := abs_mul _ _
        _ ≤ |x| * 1 := mul_le_mul_of_nonneg_left (abs_sin_le_one _) (abs_nonneg _)
        _ = |x| := mul_one _
    rw [hpv] at hmp
    nlinarith

/-- Points close to the recorded one have almost the same value. -/
theorem close {x : ℝ} (h : |x - x0| ≤ 1 / 10 ^ 6) : abs (x * sin √|x| - x0 * sin √|x0|) ≤ 1 / 10 ^ 11 := by
  have hb := abs_le.1 h
  have hx : 400 ≤ x := by unfold x0 at hb; norm_num at hb ⊢; linarith
  have hx' : x ≤ 500 := by unfold x0 at hb; norm_num at hb ⊢; linarith
  rw [abs_le]
  constructor
  · have e0 : sin √|x0| = sin s0 := by
      rw [abs_of_pos (by unfold x0; norm_num)]
      rfl
    have hd : abs (√|x| - s0) ≤ 1 / 10 ^ 7 := by
      have h1 : (20 : ℝ) ≤ √|x| := by
        apply le_sqrt_of_sq_le
        rw [abs_of_nonneg (by linarith)]
        linarith
      have h2 := s0_bounds.1
      have hsq : √|x| ^ 2 = x := by rw [sq_sqrt (abs_nonneg x), abs_of_nonneg (by linarith)]
      have hs := s0_sq
      have hm : (√|x| - s0) * (√|x| + s0) = x - x0 := by
        have : (√|x| - s0) * (√|x| + s0) = √|x| ^ 2 - s0 ^ 2 := by ring
        rw [this, hsq, hs]; rfl
      have ha : abs (√|x| - s0) * (√|x| + s0) = |x - x0| := by
        rw [← hm, abs_mul, abs_of_pos (by linarith : 0 < √|x| + s0)]
      have hnn := abs_nonneg (√|x| - s0)
      have : abs (√|x| - s0) * 40 ≤ abs (√|x| - s0) * (√|x| + s0) := mul_le_mul_of_nonneg_left (by linarith) hnn
      norm_num at h ⊢
      linarith
    have := near_below hd
    rw [add_sub_cancel, sq_sqrt (abs_nonneg x), abs_of_nonneg (by linarith : 0 ≤ x)] at this
    rw [e0, abs_of_nonneg (by linarith : 0 ≤ x)]
    linarith
  · have := coordinate x (m := 1) le_rfl
    have hpz : penalty x = 0 := if_neg (by rw [abs_of_nonneg (by linarith)]; linarith)
    rw [hpz] at this
    linarith

end Schwefel
