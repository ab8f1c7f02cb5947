import Mathlib.Analysis.Convex.SpecificFunctions.Basic
import Mathlib.Analysis.SpecialFunctions.Pow.Real
import Verif.Model.ConsSuite
import Verif.Props.Bbob
import Verif.Props.Constrained

/-!
# Lemmas on the objective functions of the constrained suites

Every objective function lies above its tangent plane at the origin (or is an increasing function of one that does), with
the plane given by the gradient function; the property is kept by shifts and affine maps.
-/

noncomputable section

namespace ConsSuite
open Classical Transform Bbob

variable {n : Nat}

/-- An increasing function of the objective function lies above a plane through its value at `x` with a normal that is a
non-negative multiple of `g`. -/
def Supported (f : Vec n → ℝ) (g : Vec n) (x : Vec n) : Prop :=
  ∃ (G : Vec n → ℝ) (slope : ℝ), 0 ≤ slope ∧ (∀ w, G x + slope * ∑ i, g i * (w i - x i) ≤ G w) ∧
    ∀ w, G x ≤ G w → f x ≤ f w

/-- The problem evaluates `f`, all its assertions hold. -/
def Plain (P : Prob n) (f : Vec n → ℝ) : Prop :=
  ∃ v, P.bestValue = some v ∧ ∀ x, P.eval x = .ok (f x) ∧ v ≤ f x

/-- What is needed of an objective function with its gradient at the point `x`. -/
structure Fine (O : Objective n) (f : Vec n → ℝ) (x : Vec n) : Prop where
  plain : Plain O.problem f
  supported : Supported f (O.gradient x) x
  gradient : O.gradient x ≠ 0

theorem Fine.congr {O : Objective n} {f f' : Vec n → ℝ} {x : Vec n} (h : Fine O f x) (e : f = f') : Fine O f' x := e ▸ h

theorem fine_varsShift {P : Prob n} {g : Vec n → Vec n} {f : Vec n → ℝ} {o x : Vec n}
    (h : Fine ⟨P, g⟩ f fun i => x i - o i) :
    Fine ⟨Transform.varsShift o P, gradientOf (.varsShift o) g⟩ (fun x => f fun i => x i - o i) x := by
  obtain ⟨⟨v, hv, hp⟩, ⟨G, s, hs, hG, hm⟩, hg⟩ := h
  refine ⟨⟨v, hv, fun y => ?_⟩, ⟨fun x => G fun i => x i - o i, s, hs, fun w => ?_, fun w => hm _⟩, hg⟩
  · obtain ⟨h1, h2⟩ := hp fun i => y i - o i
    refine ⟨?_, h2⟩
    show via P (fun x i => x i - o i) y = _
    unfold via
    rw [h1, Res.ok_bind]
    have hv : P.bestValue = some v := hv
    rw [hv]
    exact check_ok h2
  · have := hG fun i => w i - o i
    simpa [gradientOf] using this

theorem fine_affine {P : Prob n} {g : Vec n → Vec n} {f : Vec n → ℝ} {M : Fin n → Fin n → ℝ} {x : Vec n}
    (hM : Transform.Spec.Orthonormal M)
    (h : Fine ⟨P, g⟩ f (affineMap M 0 x)) :
    Fine ⟨Transform.affine M 0 P, gradientOf (.affine M 0) g⟩ (fun x => f (affineMap M 0 x)) x := by
  obtain ⟨⟨v, hv, hp⟩, ⟨G, s, hs, hG, hm⟩, hg⟩ := h
  refine ⟨⟨v, hv, fun y => ?_⟩, ⟨fun x => G (affineMap M 0 x), s, hs, fun w => ?_, fun w => hm _⟩, ?_⟩
  · obtain ⟨h1, h2⟩ := hp (affineMap M 0 y)
    refine ⟨?_, h2⟩
    show via P (affineMap M 0) y = _
    unfold via
    rw [h1, Res.ok_bind]
    have hv : P.bestValue = some v := hv
    rw [hv]
    exact check_ok h2
  · have := hG (affineMap M 0 w)
    refine le_trans (le_of_eq ?_) this
    congr 2
    dsimp only [gradientOf]
    calc ∑ j, (∑ i, g (affineMap M 0 x) i * M i j) * (w j - x j)
        = ∑ j, ∑ i, g (affineMap M 0 x) i * (M i j * (w j - x j)) := by
          refine Finset.sum_congr rfl fun j _ => ?_
          rw [Finset.sum_mul]
          exact Finset.sum_congr rfl fun i _ => by ring
      _ = ∑ i, ∑ j, g (affineMap M 0 x) i * (M i j * (w j - x j)) := Finset.sum_comm
      _ = _ := by
          refine Finset.sum_congr rfl fun i _ => ?_
          rw [← Finset.mul_sum]
          congr 1
          unfold affineMap
          rw [Pi.zero_apply, zero_add, zero_add, ← Finset.sum_sub_distrib]
          exact Finset.sum_congr rfl fun j _ => by ring
  · intro h0
    apply hg
    funext i
    have h1 : ∀ j, ∑ k, g (affineMap M 0 x) k * M k j = 0 := fun j => congrFun h0 j
    have : ∑ j, (∑ k, g (affineMap M 0 x) k * M k j) * M i j = g (affineMap M 0 x) i := by
      calc ∑ j, (∑ k, g (affineMap M 0 x) k * M k j) * M i j
          = ∑ j, ∑ k, g (affineMap M 0 x) k * (M i j * M k j) := by
            refine Finset.sum_congr rfl fun j _ => ?_
            rw [Finset.sum_mul]
            exact Finset.sum_congr rfl fun k _ => by ring
        _ = ∑ k, ∑ j, g (affineMap M 0 x) k * (M i j * M k j) := Finset.sum_comm
        _ = ∑ k, g (affineMap M 0 x) k * (if i = k then 1 else 0) := by
            refine Finset.sum_congr rfl fun k _ => ?_
            rw [← Finset.mul_sum, hM i k]
        _ = _ := by simp
    show g (affineMap M 0 x) i = 0
    rw [← this]
    simp [h1]

theorem fine_objShift {P : Prob n} {g : Vec n → Vec n} {f : Vec n → ℝ} {o : ℝ} {x : Vec n} (h : Fine ⟨P, g⟩ f x) :
    Fine ⟨Transform.objShift o P, gradientOf (.objShift o) g⟩ (fun x => f x + o) x := by
  obtain ⟨⟨v, hv, hp⟩, ⟨G, s, hs, hG, hm⟩, hg⟩ := h
  have hv : P.bestValue = some v := hv
  refine ⟨⟨v + o, ?_, fun y => ?_⟩, ⟨G, s, hs, hG, fun w hw => ?_⟩, hg⟩
  · show P.bestValue.map (· + o) = _
    rw [hv]; rfl
  · obtain ⟨h1, h2⟩ := hp y
    refine ⟨?_, by linarith⟩
    show (P.eval y).bind (fun y => check (P.bestValue.map (· + o)) (y + o)) = _
    have h1 : P.eval y = .ok (f y) := h1
    rw [h1, Res.ok_bind, hv]
    exact check_ok (by linarith)
  · have := hm w hw
    linarith

theorem fine_allocate {f : Vec n → ℝ} {best : Vec n} {g : Vec n → Vec n} {x : Vec n} (hle : ∀ x, f best ≤ f x)
    (hs : Supported f (g x) x) (hg : g x ≠ 0) :
    ∃ P, allocate false f best = .ok P ∧ Fine ⟨P, g⟩ f x :=
  ⟨_, rfl, ⟨⟨f best, rfl, fun x => ⟨check_ok (hle x), hle x⟩⟩, hs, hg⟩⟩

/-! ### The functions -/

theorem supported_of {f : Vec n → ℝ} {g x : Vec n} (h : ∀ w, f x + ∑ i, g i * (w i - x i) ≤ f w) : Supported f g x :=
  ⟨f, 1, zero_le_one, fun w => by rw [one_mul]; exact h w, fun _ h => h⟩

/-- Weighted sums of squares. -/
theorem supported_squares {f : Vec n → ℝ} {g : Vec n → Vec n} (d : Fin n → ℝ) (hd : ∀ i, 0 ≤ d i)
    (hf : ∀ x, f x = ∑ i, d i * (x i * x i)) (hg : ∀ x i, g x i = 2 * (d i * x i)) (x : Vec n) :
    Supported f (g x) x := by
  refine supported_of fun w => ?_
  rw [hf, hf, ← Finset.sum_add_distrib]
  refine Finset.sum_le_sum fun i _ => ?_
  rw [hg]
  nlinarith [mul_nonneg (hd i) (mul_self_nonneg (w i - x i))]

theorem squares_ne_zero {g : Vec n → Vec n} (d : Fin n → ℝ) (hd : ∀ i, 0 < d i)
    (hg : ∀ x i, g x i = 2 * (d i * x i)) {x : Vec n} (hx : x ≠ 0) : g x ≠ 0 := by
  intro h
  apply hx
  funext i
  have := congrFun h i
  rw [hg, Pi.zero_apply] at this
  have h1 := (hd i).ne'
  simpa [h1] using this

theorem sphere_fine {x : Vec n} (hx : x ≠ 0) :
    ∃ P, allocate false sphere (0 : Vec n) = .ok P ∧ Fine ⟨P, sphereGradient⟩ sphere x := by
  refine fine_allocate (fun x => by simpa [sphere] using sphere_nonneg x) ?_ ?_
  · exact supported_squares (fun _ => 1) (by simp) (fun x => by simp [sphere]) (fun x i => by simp [sphereGradient]) x
  · exact squares_ne_zero (fun _ => 1) (by simp) (fun x i => by simp [sphereGradient]) hx

theorem ellipsoid_fine {c : ℝ} (hc : 0 < c) {x : Vec n} (hx : x ≠ 0) :
    ∃ P, allocate false (ellipsoid c) (0 : Vec n) = .ok P ∧ Fine ⟨P, ellipsoidGradient c⟩ (ellipsoid c) x := by
  have hd : ∀ i : Fin n, 0 < c ^ ((i : ℝ) / ((n : ℝ) - 1)) := fun i => Real.rpow_pos_of_pos hc _
  have hg : ∀ (x : Vec n) i, ellipsoidGradient c x i = 2 * (c ^ ((i : ℝ) / ((n : ℝ) - 1)) * x i) := fun x i => by
    unfold ellipsoidGradient; ring
  refine fine_allocate (fun x => by simpa [ellipsoid] using ellipsoid_nonneg hc.le x) ?_ ?_
  · refine supported_squares _ (fun i => (hd i).le) (fun x => ?_) hg x
    refine Finset.sum_congr rfl fun i _ => ?_
    split_ifs with h
    · rw [h]; simp
    · ring
  · exact squares_ne_zero _ hd hg hx

theorem discus_fine {x : Vec n} (hx : x ≠ 0) :
    ∃ P, allocate false discus (0 : Vec n) = .ok P ∧ Fine ⟨P, discusGradient⟩ discus x := by
  have hd : ∀ i : Fin n, (0 : ℝ) < if i.1 = 0 then 10 ^ 6 else 1 := fun i => by split_ifs <;> norm_num
  have hg : ∀ (x : Vec n) i, discusGradient x i = 2 * ((if i.1 = 0 then 10 ^ 6 else 1) * x i) := fun x i => by
    unfold discusGradient; split_ifs <;> ring
  refine fine_allocate (fun x => by simpa [discus] using discus_nonneg x) ?_ ?_
  · refine supported_squares _ (fun i => (hd i).le) (fun x => ?_) hg x
    refine Finset.sum_congr rfl fun i _ => ?_
    split_ifs <;> ring
  · exact squares_ne_zero _ hd hg hx

theorem bentCigar_fine {x : Vec n} (hx : x ≠ 0) :
    ∃ P, allocate false bentCigar (0 : Vec n) = .ok P ∧ Fine ⟨P, bentCigarGradient⟩ bentCigar x := by
  have hd : ∀ i : Fin n, (0 : ℝ) < if i.1 = 0 then 1 else 10 ^ 6 := fun i => by split_ifs <;> norm_num
  have hg : ∀ (x : Vec n) i, bentCigarGradient x i = 2 * ((if i.1 = 0 then 1 else 10 ^ 6) * x i) := fun x i => by
    unfold bentCigarGradient; split_ifs <;> ring
  refine fine_allocate (fun x => by simpa [bentCigar] using bentCigar_nonneg x) ?_ ?_
  · refine supported_squares _ (fun i => (hd i).le) (fun x => ?_) hg x
    refine Finset.sum_congr rfl fun i _ => ?_
    split_ifs <;> ring
  · exact squares_ne_zero _ hd hg hx

/-- The linear slope lies above its tangent at every point of the open region of interest. -/
theorem linearSlope_supported (best : Vec n) (hb : ∀ i, best i = -5 ∨ best i = 5) (x : Vec n)
    (hx : ∀ i, -5 < x i ∧ x i < 5) (w : Vec n) :
    linearSlope best x + ∑ i, -slope best i * (w i - x i) ≤ linearSlope best w := by
  unfold linearSlope
  rw [← Finset.sum_add_distrib]
  refine Finset.sum_le_sum fun i _ => ?_
  have hs := slope_power_pos i
  obtain ⟨h1, h2⟩ := hx i
  rcases hb i with h | h
  · have e : slope best i = -Real.sqrt 100 ^ ((i : ℝ) / ((n : ℝ) - 1)) := if_neg (by rw [h]; norm_num)
    rw [e, abs_neg, abs_of_pos hs, h, if_pos (by linarith)]
    generalize Real.sqrt 100 ^ ((i : ℝ) / ((n : ℝ) - 1)) = s at hs
    split_ifs with h3
    · nlinarith
    · nlinarith
  · have e : slope best i = Real.sqrt 100 ^ ((i : ℝ) / ((n : ℝ) - 1)) := if_pos (by rw [h]; norm_num)
    rw [e, abs_of_pos hs, h, if_pos (by linarith)]
    generalize Real.sqrt 100 ^ ((i : ℝ) / ((n : ℝ) - 1)) = s at hs
    split_ifs with h3
    · nlinarith
    · nlinarith

theorem linearSlope_fine (hn : 2 ≤ n) (best : Vec n) (hb : ∀ i, best i = -5 ∨ best i = 5) (x : Vec n)
    (hx : ∀ i, -5 < x i ∧ x i < 5) :
    ∃ P, allocate false (linearSlope best) best = .ok P ∧ Fine ⟨P, linearSlopeGradient best⟩ (linearSlope best) x := by
  refine fine_allocate (fun x => by rw [linearSlope_best best hb]; exact linearSlope_nonneg best hb x) ?_ ?_
  · exact supported_of fun w => linearSlope_supported best hb x hx w
  · intro h
    have h0 := congrFun h ⟨0, by omega⟩
    have hs := slope_power_pos (⟨0, by omega⟩ : Fin n)
    simp only [linearSlopeGradient, Pi.zero_apply, neg_eq_zero] at h0
    unfold Bbob.slope at h0
    split_ifs at h0 <;> linarith

/-- One term of the sum of different powers lies above its tangent. -/
theorem power_tangent (p : ℝ) (hp : 2 ≤ p) (x w : ℝ) :
    |x| ^ p + p * (|x| ^ (p - 1) * sign x) * (w - x) ≤ |w| ^ p := by
  have pos : ∀ x : ℝ, 0 < x → ∀ w : ℝ, x ^ p + p * x ^ (p - 1) * (w - x) ≤ |w| ^ p := by
    intro x hx w
    have e : x ^ p = x ^ (p - 1) * x := by
      rw [← Real.rpow_add_one hx.ne']; congr 1; ring
    have hxp : 0 < x ^ (p - 1) := Real.rpow_pos_of_pos hx _
    by_cases hw : 0 ≤ w
    · have hb := one_add_mul_self_le_rpow_one_add (s := w / x - 1) (by
        have := div_nonneg hw hx.le; linarith) (p := p) (by linarith)
      rw [add_sub_cancel, Real.div_rpow hw hx.le, le_div_iff₀ (Real.rpow_pos_of_pos hx _)] at hb
      rw [abs_of_nonneg hw]
      refine le_trans (le_of_eq ?_) hb
      rw [e]
      field_simp
    · have h0 : 0 ≤ |w| ^ p := Real.rpow_nonneg (abs_nonneg _) _
      push Not at hw
      rw [e]
      have : x + p * (w - x) ≤ 0 := by nlinarith
      nlinarith
  rcases lt_trichotomy x 0 with hx | hx | hx
  · have := pos (-x) (by linarith) (-w)
    rw [abs_neg] at this
    have hs : sign x = -1 := by unfold sign; rw [if_neg (by linarith), if_pos hx]
    rw [abs_of_neg hx, hs]
    linarith
  · subst hx
    have hs : sign 0 = 0 := by unfold sign; simp
    rw [hs, abs_zero, Real.zero_rpow (by linarith)]
    simpa using Real.rpow_nonneg (abs_nonneg w) p
  · have hs : sign x = 1 := by unfold sign; rw [if_pos hx]
    have := pos x hx w
    rw [abs_of_pos hx, hs]
    linarith

theorem differentPowers_fine (hn : 2 ≤ n) {x : Vec n} (hx : x ≠ 0) :
    ∃ P, allocate false differentPowers (0 : Vec n) = .ok P ∧ Fine ⟨P, differentPowersGradient⟩ differentPowers x := by
  have hp := cast_sub_one_pos hn
  have ha : ∀ i : Fin n, (2 : ℝ) ≤ 2 + 4 * (i : ℝ) / ((n : ℝ) - 1) := fun i => by
    have : (0 : ℝ) ≤ 4 * (i : ℝ) / ((n : ℝ) - 1) := by positivity
    linarith
  obtain ⟨k, hk⟩ : ∃ k, x k ≠ 0 := by
    by_contra h
    push Not at h
    exact hx (funext h)
  have hsum : 0 < ∑ j : Fin n, |x j| ^ (2 + 4 * (j : ℝ) / ((n : ℝ) - 1)) :=
    Finset.sum_pos' (fun j _ => Real.rpow_nonneg (abs_nonneg _) _)
      ⟨k, Finset.mem_univ _, Real.rpow_pos_of_pos (abs_pos.mpr hk) _⟩
  refine fine_allocate (fun x => by rw [differentPowers_zero hn]; exact Real.sqrt_nonneg _) ?_ ?_
  · refine ⟨fun x => ∑ j : Fin n, |x j| ^ (2 + 4 * (j : ℝ) / ((n : ℝ) - 1)),
      2 * ∑ j : Fin n, |x j| ^ (2 + 4 * (j : ℝ) / ((n : ℝ) - 1)), by positivity, fun w => ?_,
      fun w hw => Real.sqrt_le_sqrt hw⟩
    dsimp only
    rw [Finset.mul_sum, ← Finset.sum_add_distrib]
    refine Finset.sum_le_sum fun i _ => ?_
    refine le_trans (le_of_eq ?_) (power_tangent _ (ha i) (x i) (w i))
    unfold differentPowersGradient
    dsimp only
    generalize ∑ j : Fin n, |x j| ^ (2 + 4 * (j : ℝ) / ((n : ℝ) - 1)) = S at hsum
    generalize 2 + 4 * (i : ℝ) / ((n : ℝ) - 1) = p
    generalize |x i| ^ (p - 1) = t
    have := hsum.ne'
    field_simp
    ring
  · intro h
    have h0 := congrFun h k
    unfold differentPowersGradient at h0
    dsimp only at h0
    rw [Pi.zero_apply] at h0
    have h1 : |x k| ^ (2 + 4 * (k : ℝ) / ((n : ℝ) - 1) - 1) ≠ 0 := (Real.rpow_pos_of_pos (abs_pos.mpr hk) _).ne'
    have h2 : sign (x k) ≠ 0 := by
      unfold sign
      rcases lt_or_gt_of_ne hk with h | h
      · rw [if_neg (by linarith), if_pos h]; norm_num
      · rw [if_pos h]; norm_num
    have h3 := ha k
    have h4 : 0.5 * (2 + 4 * (k : ℝ) / ((n : ℝ) - 1)) /
        ∑ j : Fin n, |x j| ^ (2 + 4 * (j : ℝ) / ((n : ℝ) - 1)) ≠ 0 :=
      div_ne_zero (by positivity) hsum.ne'
    exact mul_ne_zero h4 (mul_ne_zero h1 h2) h0

/-- At a point with integer coordinates. -/
theorem rastrigin_fine {x : Vec n} (hx : x ≠ 0) (hint : ∀ i, ∃ k : ℤ, x i = k) :
    ∃ P, allocate false rastrigin (0 : Vec n) = .ok P ∧ Fine ⟨P, rastriginGradient⟩ rastrigin x := by
  have hg : ∀ i, rastriginGradient x i = 2 * x i := by
    intro i
    obtain ⟨k, hk⟩ := hint i
    unfold rastriginGradient
    have : Real.sin (2 * Real.pi * x i) = 0 := by
      rw [hk, show 2 * Real.pi * (k : ℝ) = ((2 * k : ℤ) : ℝ) * Real.pi by push_cast; ring]
      exact Real.sin_int_mul_pi _
    rw [this]
    ring
  have hv : rastrigin x = ∑ i, x i * x i := by
    unfold rastrigin
    have : ∑ i, Real.cos (2 * Real.pi * x i) = n := by
      calc ∑ i, Real.cos (2 * Real.pi * x i) = ∑ _i : Fin n, (1 : ℝ) := by
            refine Finset.sum_congr rfl fun i _ => ?_
            obtain ⟨k, hk⟩ := hint i
            rw [hk, show 2 * Real.pi * (k : ℝ) = (k : ℝ) * (2 * Real.pi) by ring]
            exact Real.cos_int_mul_two_pi k
        _ = n := by simp
    rw [this]
    ring
  refine fine_allocate (fun x => by rw [rastrigin_zero]; exact rastrigin_nonneg x) ?_ ?_
  · refine supported_of fun w => ?_
    rw [hv]
    have h1 : ∑ i, w i * w i ≤ rastrigin w := by
      have := sum_cos_le (fun i => 2 * Real.pi * w i)
      unfold rastrigin
      linarith
    refine le_trans ?_ h1
    rw [← Finset.sum_add_distrib]
    refine Finset.sum_le_sum fun i _ => ?_
    rw [hg]
    nlinarith [mul_self_nonneg (w i - x i)]
  · intro h
    apply hx
    funext i
    have := congrFun h i
    rw [hg] at this
    simpa using this

end ConsSuite
