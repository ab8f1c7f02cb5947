import Mathlib.Analysis.SpecialFunctions.Pow.Deriv
import Mathlib.Analysis.SpecialFunctions.Trigonometric.Deriv
import Mathlib.Analysis.SpecialFunctions.Sqrt
import Mathlib.Analysis.InnerProductSpace.NormPow
import Mathlib.Analysis.Calculus.FDeriv.Pi
import Verif.Model.ConsSuite

/-!
# Gradients of the objective functions of the constrained suites
-/

noncomputable section

namespace ConsSuite
open Classical Transform Bbob

variable {n : Nat}

namespace Spec

/-- `g` is the gradient of `f` at `x`: `f` is differentiable at `x`, and its derivative in the direction `d` is
`∑ i, g i * d i`. -/
def IsGradient (f : Vec n → ℝ) (g x : Vec n) : Prop :=
  HasFDerivAt f (∑ i, g i • (ContinuousLinearMap.proj i : (Fin n → ℝ) →L[ℝ] ℝ)) x

end Spec

open Spec

/-- What the definition says of directions. -/
theorem gradient_apply (g d : Vec n) :
    (∑ i, g i • (ContinuousLinearMap.proj i : (Fin n → ℝ) →L[ℝ] ℝ)) d = ∑ i, g i * d i := by
  rw [sum_apply]
  rfl

theorem isGradient_iff {f : Vec n → ℝ} {g x : Vec n} {L : (Fin n → ℝ) →L[ℝ] ℝ} (h : HasFDerivAt f L x)
    (hL : ∀ d : Vec n, L d = ∑ i, g i * d i) : IsGradient f g x := by
  have : L = ∑ i, g i • (ContinuousLinearMap.proj i : (Fin n → ℝ) →L[ℝ] ℝ) := by
    ext1 d
    rw [hL, gradient_apply]
  rw [this] at h
  exact h

/-- Sums of functions of one coordinate. -/
theorem separable {φ : Fin n → ℝ → ℝ} {g x : Vec n} (h : ∀ i, HasDerivAt (φ i) (g i) (x i)) :
    IsGradient (fun x => ∑ i, φ i (x i)) g x := by
  have key : ∀ i ∈ (Finset.univ : Finset (Fin n)), HasFDerivAt (fun x : Fin n → ℝ => φ i (x i))
      (g i • (ContinuousLinearMap.proj i : (Fin n → ℝ) →L[ℝ] ℝ)) x := fun i _ =>
    (h i).comp_hasFDerivAt x (ContinuousLinearMap.proj i : (Fin n → ℝ) →L[ℝ] ℝ).hasFDerivAt
  exact HasFDerivAt.fun_sum key

theorem isGradient_add_const {f : Vec n → ℝ} {g x : Vec n} (h : IsGradient f g x) (c : ℝ) :
    IsGradient (fun x => f x + c) g x :=
  HasFDerivAt.add_const c h

theorem isGradient_mul_const {f : Vec n → ℝ} {g x : Vec n} (h : IsGradient f g x) (c : ℝ) :
    IsGradient (fun x => f x * c) (fun i => g i * c) x := by
  refine isGradient_iff (HasFDerivAt.mul_const h c) fun d => ?_
  show c • (∑ i, g i • (ContinuousLinearMap.proj i : (Fin n → ℝ) →L[ℝ] ℝ)) d = _
  rw [gradient_apply, smul_eq_mul, Finset.mul_sum]
  exact Finset.sum_congr rfl fun i _ => by ring

/-- Affine maps. -/
theorem isGradient_affine {f : Vec n → ℝ} {g x : Vec n} {M : Fin n → Fin n → ℝ} {b : Vec n}
    (h : IsGradient f g (affineMap M b x)) :
    IsGradient (fun x => f (affineMap M b x)) (fun j => ∑ i, g i * M i j) x := by
  have hA : HasFDerivAt (affineMap M b) (ContinuousLinearMap.pi fun i => ∑ j, M i j •
      (ContinuousLinearMap.proj j : (Fin n → ℝ) →L[ℝ] ℝ)) x := by
    rw [hasFDerivAt_pi]
    intro i
    have : IsGradient (fun x : Vec n => ∑ j, x j * M i j) (M i) x :=
      separable (φ := fun j t => t * M i j) fun j => by simpa using (hasDerivAt_id (x j)).mul_const (M i j)
    exact HasFDerivAt.const_add (b i) this
  refine isGradient_iff (HasFDerivAt.comp x h hA) fun d => ?_
  rw [ContinuousLinearMap.comp_apply, gradient_apply]
  calc ∑ i, g i * (∑ j, M i j • (ContinuousLinearMap.proj j : (Fin n → ℝ) →L[ℝ] ℝ)) d
      = ∑ i, ∑ j, g i * M i j * d j := by
        refine Finset.sum_congr rfl fun i _ => ?_
        rw [gradient_apply, Finset.mul_sum]
        exact Finset.sum_congr rfl fun j _ => by ring
    _ = ∑ j, ∑ i, g i * M i j * d j := Finset.sum_comm
    _ = _ := Finset.sum_congr rfl fun j _ => by rw [Finset.sum_mul]

theorem isGradient_shift {f : Vec n → ℝ} {g x o : Vec n} (h : IsGradient f g fun i => x i - o i) :
    IsGradient (fun x => f fun i => x i - o i) g x := by
  have h1 : HasFDerivAt (fun x : Fin n → ℝ => fun i => x i - o i) (ContinuousLinearMap.id ℝ (Fin n → ℝ)) x :=
    (hasFDerivAt_id x).sub_const o
  have := HasFDerivAt.comp (f := fun x : Fin n → ℝ => fun i => x i - o i) x h h1
  rwa [ContinuousLinearMap.comp_id] at this

theorem isGradient_scale {f : Vec n → ℝ} {g x s : Vec n} (h : IsGradient f g fun i => s i * x i) :
    IsGradient (fun x => f fun i => s i * x i) (fun i => s i * g i) x := by
  have e : ∀ x : Vec n, affineMap (fun i j => if i = j then s i else 0) 0 x = fun i => s i * x i := fun x => by
    funext i
    simp [affineMap, mul_comm]
  have := isGradient_affine (f := f) (g := g) (M := fun i j => if i = j then s i else 0) (b := 0) (x := x)
    (by rw [e]; exact h)
  simp only [e] at this
  have eg : (fun j => ∑ i, g i * (if i = j then s i else 0)) = fun i => s i * g i := by
    funext j
    simp [mul_comm]
  rwa [eg] at this

/-! ### The functions -/

theorem sphere_gradient (x : Vec n) : IsGradient sphere (sphereGradient x) x :=
  separable (φ := fun _ t => t * t) fun i => by
    exact ((hasDerivAt_id (x i)).mul (hasDerivAt_id (x i))).congr_deriv (by simp [sphereGradient, two_mul])

theorem squares {c x : Vec n} : IsGradient (fun x => ∑ i, c i * x i * x i) (fun i => 2 * c i * x i) x :=
  separable (φ := fun i t => c i * t * t) fun i => by
    have h := ((hasDerivAt_id (x i)).const_mul (c i)).mul (hasDerivAt_id (x i))
    refine h.congr_deriv ?_
    simp; ring

theorem isGradient_congr {f f' : Vec n → ℝ} {g g' x : Vec n} (h : IsGradient f g x) (ef : f = f') (eg : g = g') :
    IsGradient f' g' x := ef ▸ eg ▸ h

theorem ellipsoid_gradient (c : ℝ) (x : Vec n) : IsGradient (ellipsoid c) (ellipsoidGradient c x) x := by
  refine isGradient_congr (squares (c := fun i => c ^ ((i : ℝ) / ((n : ℝ) - 1)))) ?_ rfl
  funext y
  unfold ellipsoid
  refine Finset.sum_congr rfl fun i _ => ?_
  split_ifs with h
  · rw [h]; simp
  · rfl

theorem discus_gradient (x : Vec n) : IsGradient discus (discusGradient x) x := by
  refine isGradient_congr (squares (c := fun i => if i.1 = 0 then 10 ^ 6 else 1)) ?_ ?_
  · funext y
    unfold discus
    refine Finset.sum_congr rfl fun i _ => ?_
    split_ifs <;> simp
  · funext i
    unfold discusGradient
    split_ifs <;> ring

theorem bentCigar_gradient (x : Vec n) : IsGradient bentCigar (bentCigarGradient x) x := by
  refine isGradient_congr (squares (c := fun i => if i.1 = 0 then 1 else 10 ^ 6)) ?_ ?_
  · funext y
    unfold bentCigar
    refine Finset.sum_congr rfl fun i _ => ?_
    split_ifs <;> simp
  · funext i
    unfold bentCigarGradient
    split_ifs <;> ring

theorem rastrigin_gradient (x : Vec n) : IsGradient rastrigin (rastriginGradient x) x := by
  have h : IsGradient (fun x : Vec n => (∑ i, (x i * x i - 10 * Real.cos (2 * Real.pi * x i))) + 10 * (n : ℝ))
      (rastriginGradient x) x := by
    refine isGradient_add_const (separable (φ := fun _ t => t * t - 10 * Real.cos (2 * Real.pi * t)) fun i => ?_) _
    have h1 := (hasDerivAt_id (x i)).mul (hasDerivAt_id (x i))
    have h2 := (((hasDerivAt_id (x i)).const_mul (2 * Real.pi)).cos).const_mul (10 : ℝ)
    refine (h1.sub h2).congr_deriv ?_
    unfold rastriginGradient
    simp; ring
  refine isGradient_congr h ?_ rfl
  funext y
  unfold rastrigin
  rw [Finset.sum_sub_distrib, ← Finset.mul_sum]
  ring

theorem linearSlope_gradient (best : Vec n) (x : Vec n) (hx : ∀ i, x i * best i < 25) :
    IsGradient (linearSlope best) (linearSlopeGradient best x) x := by
  refine separable (φ := fun i t => if t * best i < 25 then 5 * |slope best i| - slope best i * t
    else 5 * |slope best i| - slope best i * best i) fun i => ?_
  have h1 : HasDerivAt (fun t => 5 * |slope best i| - slope best i * t) (-slope best i) (x i) := by
    have := ((hasDerivAt_id (x i)).const_mul (slope best i)).const_sub (5 * |slope best i|)
    simpa using this
  refine h1.congr_of_eventuallyEq ?_
  have : ∀ᶠ t in nhds (x i), t * best i < 25 :=
    (continuous_id.mul continuous_const).continuousAt.eventually_lt continuousAt_const (hx i)
  filter_upwards [this] with t ht
  rw [if_pos ht]

theorem sign_pow {t p : ℝ} : |t| ^ (p - 1) * sign t = |t| ^ (p - 2) * t := by
  unfold sign
  rcases lt_trichotomy t 0 with h | h | h
  · rw [if_neg (by linarith), if_pos h]
    have : |t| ^ (p - 1) = |t| ^ (p - 2) * |t| := by
      rw [← Real.rpow_add_one (abs_pos.mpr h.ne).ne']
      congr 1; ring
    rw [this, abs_of_neg h]; ring
  · subst h
    simp
  · rw [if_pos h]
    have : |t| ^ (p - 1) = |t| ^ (p - 2) * |t| := by
      rw [← Real.rpow_add_one (abs_pos.mpr h.ne').ne']
      congr 1; ring
    rw [this, abs_of_pos h]; ring

theorem differentPowers_gradient (hn : 2 ≤ n) (x : Vec n) (hx : differentPowers x ≠ 0) :
    IsGradient differentPowers (fun i => differentPowers x * differentPowersGradient x i) x := by
  set S : Vec n → ℝ := fun x => ∑ i : Fin n, |x i| ^ (2 + 4 * (i : ℝ) / ((n : ℝ) - 1)) with hS
  have hn' : (0 : ℝ) < (n : ℝ) - 1 := by
    have : (2 : ℝ) ≤ n := by exact_mod_cast hn
    linarith
  have hp : ∀ i : Fin n, (2 : ℝ) ≤ 2 + 4 * (i : ℝ) / ((n : ℝ) - 1) := fun i => by
    have : (0 : ℝ) ≤ 4 * (i : ℝ) / ((n : ℝ) - 1) := by positivity
    linarith
  have hSx : 0 < S x := by
    have h0 : 0 ≤ S x := Finset.sum_nonneg fun i _ => Real.rpow_nonneg (abs_nonneg _) _
    rcases h0.lt_or_eq with h | h
    · exact h
    · exact absurd (show Real.sqrt (S x) = 0 by rw [← h, Real.sqrt_zero]) hx
  have h1 : IsGradient S (fun i => (2 + 4 * (i : ℝ) / ((n : ℝ) - 1)) *
      |x i| ^ (2 + 4 * (i : ℝ) / ((n : ℝ) - 1) - 2) * x i) x :=
    separable (φ := fun i t => |t| ^ (2 + 4 * (i : ℝ) / ((n : ℝ) - 1))) fun i =>
      hasDerivAt_abs_rpow (x i) (by linarith [hp i])
  have h2 := HasFDerivAt.sqrt h1 hSx.ne'
  refine isGradient_iff h2 fun d => ?_
  rw [smul_apply, gradient_apply, smul_eq_mul, Finset.mul_sum]
  refine Finset.sum_congr rfl fun i _ => ?_
  unfold differentPowersGradient differentPowers
  dsimp only
  rw [sign_pow]
  change _ = Real.sqrt (S x) * (0.5 * (2 + 4 * (i : ℝ) / ((n : ℝ) - 1)) / S x * _) * d i
  have hq : 0 < Real.sqrt (S x) := Real.sqrt_pos.mpr hSx
  have hq2 : S x = Real.sqrt (S x) * Real.sqrt (S x) := (Real.mul_self_sqrt hSx.le).symm
  generalize Real.sqrt (S x) = q at *
  rw [hq2]
  field_simp
  ring

end ConsSuite
