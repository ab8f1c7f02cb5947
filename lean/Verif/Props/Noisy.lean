/-
C90: the problems of the bbob-noisy suite. Their noise-free parts have the recorded optimum, the noisy values never
fall below the recorded best value, and functions with the same noise-free part differ in the noise only.
-/
import Verif.Model.Noisy
import Verif.Props.Noise
import Verif.Props.Bbob

namespace Noisy
open Transform

/-! ### Specification -/

/-- The noiseless function underlying a noisy one. -/
def Spec.base (function : Nat) : Nat :=
  if function ≤ 103 then 1 else if function ≤ 106 then 8 else if function ≤ 109 then 1 else if function ≤ 112 then 8
  else if function ≤ 115 then 7 else if function ≤ 118 then 10 else if function ≤ 121 then 14
  else if function ≤ 124 then 17 else if function ≤ 127 then 19 else 21

/-- The noise: Gaussian, uniform and Cauchy in turn, moderate for the first six functions and severe for the others. -/
noncomputable def Spec.noise (function n : Nat) : Noise.Model :=
  let strength : ℝ := if function ≤ 106 then 0.01 else 1
  if function % 3 = 2 then .gaussian strength
  else if function % 3 = 0 then .uniform (strength * (0.49 + 1 / n)) strength
  else .cauchy strength (if function ≤ 106 then 0.05 else 0.2)

/-- The sum of the squared distances to the interval `[-5, 5]` in each coordinate. -/
noncomputable def Spec.violation (x : Vec n) : ℝ := ∑ i, max 0 (|x i| - 5) ^ 2

/-! ### Lemmas -/

theorem boundary_sum (xs : List (ℝ × ℝ × ℝ)) (p : ℝ) :
    xs.foldl (fun p (x, lo, hi) =>
      if x > hi then p + (x - hi) * (x - hi) else if x < lo then p + (x - lo) * (x - lo) else p) p =
    p + (xs.map fun (x, lo, hi) => if x > hi then (x - hi) * (x - hi) else if x < lo then (x - lo) * (x - lo) else 0).sum := by
  induction xs generalizing p with
  | nil => simp
  | cons a xs ih =>
    obtain ⟨x, lo, hi⟩ := a
    rw [List.foldl_cons, ih, List.map_cons, List.sum_cons]
    dsimp only
    split_ifs <;> ring

theorem boundary_eq (x : Vec n) :
    Noise.boundary (List.ofFn fun i => (x i, (-5 : ℝ), (5 : ℝ))) = 100 * Spec.violation x := by
  unfold Noise.boundary Spec.violation
  rw [boundary_sum, List.map_ofFn, List.sum_ofFn, zero_add]
  congr 1
  refine Finset.sum_congr rfl fun i _ => ?_
  simp only [Function.comp]
  split_ifs with h1 h2
  · rw [abs_of_pos (by linarith), max_eq_right (by linarith), sq]
  · rw [abs_of_neg (by linarith), max_eq_right (by linarith)]
    ring
  · rw [max_eq_left (by rw [sub_nonpos, abs_le]; constructor <;> linarith)]
    norm_num

theorem fopt_base (function inst : Nat) (h1 : 101 ≤ function) (h2 : function ≤ 130) :
    Legacy.computeFopt function inst = Legacy.computeFopt (Spec.base function) inst := by
  have e : Legacy.rseed function = Legacy.rseed (Spec.base function) := by
    interval_cases function <;> rfl
  unfold Legacy.computeFopt
  rw [e]

/-- The noise-free problem with the number of the noiseless function. -/
noncomputable def plain (base inst n : Nat) : Res (Prob n) :=
  if base = 1 then Bbob.sphereProblem .bbob 1 inst (1 + 10000 * inst) n
  else if base = 8 then Bbob.rosenbrockProblem .bbob 8 inst (8 + 10000 * inst) n
  else if base = 7 then Bbob.stepEllipsoidProblem .bbob 7 inst (7 + 10000 * inst) 0 n
  else if base = 10 then Bbob.rotatedEllipsoidProblem .bbob 10 inst (10 + 10000 * inst) (10 ^ 4) n
  else if base = 14 then Bbob.differentPowersProblem .bbob 14 inst (14 + 10000 * inst) n
  else if base = 17 then Bbob.schaffersProblem .bbob 17 inst (17 + 10000 * inst) 10 0 n
  else if base = 19 then Bbob.griewankRosenbrockProblem 19 inst (19 + 10000 * inst) 1 n
  else Bbob.gallagherProblem .bbob 21 inst (21 + 10000 * inst) 101 0 n

section
variable {f g inst : Nat} (e : Legacy.computeFopt f inst = Legacy.computeFopt g inst)
include e

theorem sphere_congr (t : Bbob.Template) (seed : Int) (n : Nat) :
    Bbob.sphereProblem t f inst seed n = Bbob.sphereProblem t g inst seed n := by
  unfold Bbob.sphereProblem
  rw [e]

theorem rosenbrock_congr (t : Bbob.Template) (seed : Int) (n : Nat) :
    Bbob.rosenbrockProblem t f inst seed n = Bbob.rosenbrockProblem t g inst seed n := by
  unfold Bbob.rosenbrockProblem
  rw [e]

theorem stepEllipsoid_congr (t : Bbob.Template) (c : ℝ) (seed : Int) (n : Nat) :
    Bbob.stepEllipsoidProblem t f inst seed c n = Bbob.stepEllipsoidProblem t g inst seed c n := by
  unfold Bbob.stepEllipsoidProblem
  rw [e]

theorem rotatedEllipsoid_congr (t : Bbob.Template) (c : ℝ) (seed : Int) (n : Nat) :
    Bbob.rotatedEllipsoidProblem t f inst seed c n = Bbob.rotatedEllipsoidProblem t g inst seed c n := by
  unfold Bbob.rotatedEllipsoidProblem
  rw [e]

theorem differentPowers_congr (t : Bbob.Template) (seed : Int) (n : Nat) :
    Bbob.differentPowersProblem t f inst seed n = Bbob.differentPowersProblem t g inst seed n := by
  unfold Bbob.differentPowersProblem
  rw [e]

theorem schaffers_congr (t : Bbob.Template) (c d : ℝ) (seed : Int) (n : Nat) :
    Bbob.schaffersProblem t f inst seed c d n = Bbob.schaffersProblem t g inst seed c d n := by
  unfold Bbob.schaffersProblem
  rw [e]

theorem griewankRosenbrock_congr (c : ℝ) (seed : Int) (n : Nat) :
    Bbob.griewankRosenbrockProblem f inst seed c n = Bbob.griewankRosenbrockProblem g inst seed c n := by
  unfold Bbob.griewankRosenbrockProblem
  rw [e]

theorem gallagher_congr (t : Bbob.Template) (k : Nat) (c : ℝ) (seed : Int) (n : Nat) :
    Bbob.gallagherProblem t f inst seed k c n = Bbob.gallagherProblem t g inst seed k c n := by
  unfold Bbob.gallagherProblem
  rw [e]

end

theorem get_eq (function inst n : Nat) (h1 : 101 ≤ function) (h2 : function ≤ 130) :
    get function inst n = under (plain (Spec.base function) inst n) (Spec.noise function n) := by
  have e := fopt_base function inst h1 h2
  interval_cases function
  · refine congrArg₂ under (sphere_congr e _ _ _) ?_
    norm_num [Spec.noise]
  · refine congrArg₂ under (sphere_congr e _ _ _) ?_
    norm_num [Spec.noise]
  · refine congrArg₂ under (sphere_congr e _ _ _) ?_
    norm_num [Spec.noise]
  · refine congrArg₂ under (rosenbrock_congr e _ _ _) ?_
    norm_num [Spec.noise]
  · refine congrArg₂ under (rosenbrock_congr e _ _ _) ?_
    norm_num [Spec.noise]
  · refine congrArg₂ under (rosenbrock_congr e _ _ _) ?_
    norm_num [Spec.noise]
  · refine congrArg₂ under (sphere_congr e _ _ _) ?_
    norm_num [Spec.noise]
  · refine congrArg₂ under (sphere_congr e _ _ _) ?_
    norm_num [Spec.noise]
  · refine congrArg₂ under (sphere_congr e _ _ _) ?_
    norm_num [Spec.noise]
  · refine congrArg₂ under (rosenbrock_congr e _ _ _) ?_
    norm_num [Spec.noise]
  · refine congrArg₂ under (rosenbrock_congr e _ _ _) ?_
    norm_num [Spec.noise]
  · refine congrArg₂ under (rosenbrock_congr e _ _ _) ?_
    norm_num [Spec.noise]
  · refine congrArg₂ under (stepEllipsoid_congr e _ _ _ _) ?_
    norm_num [Spec.noise]
  · refine congrArg₂ under (stepEllipsoid_congr e _ _ _ _) ?_
    norm_num [Spec.noise]
  · refine congrArg₂ under (stepEllipsoid_congr e _ _ _ _) ?_
    norm_num [Spec.noise]
  · refine congrArg₂ under (rotatedEllipsoid_congr e _ _ _ _) ?_
    norm_num [Spec.noise]
  · refine congrArg₂ under (rotatedEllipsoid_congr e _ _ _ _) ?_
    norm_num [Spec.noise]
  · refine congrArg₂ under (rotatedEllipsoid_congr e _ _ _ _) ?_
    norm_num [Spec.noise]
  · refine congrArg₂ under (differentPowers_congr e _ _ _) ?_
    norm_num [Spec.noise]
  · refine congrArg₂ under (differentPowers_congr e _ _ _) ?_
    norm_num [Spec.noise]
  · refine congrArg₂ under (differentPowers_congr e _ _ _) ?_
    norm_num [Spec.noise]
  · refine congrArg₂ under (schaffers_congr e _ _ _ _ _) ?_
    norm_num [Spec.noise]
  · refine congrArg₂ under (schaffers_congr e _ _ _ _ _) ?_
    norm_num [Spec.noise]
  · refine congrArg₂ under (schaffers_congr e _ _ _ _ _) ?_
    norm_num [Spec.noise]
  · refine congrArg₂ under (griewankRosenbrock_congr e _ _ _) ?_
    norm_num [Spec.noise]
  · refine congrArg₂ under (griewankRosenbrock_congr e _ _ _) ?_
    norm_num [Spec.noise]
  · refine congrArg₂ under (griewankRosenbrock_congr e _ _ _) ?_
    norm_num [Spec.noise]
  · refine congrArg₂ under (gallagher_congr e _ _ _ _ _) ?_
    norm_num [Spec.noise]
  · refine congrArg₂ under (gallagher_congr e _ _ _ _ _) ?_
    norm_num [Spec.noise]
  · refine congrArg₂ under (gallagher_congr e _ _ _ _ _) ?_
    norm_num [Spec.noise]

/-- The noise-free problems have the recorded optimum. -/
theorem plain_known (base inst n : Nat) (hb : base ∈ [1, 7, 8, 10, 14, 17, 19, 21]) (hi : inst ≤ 10 ^ 10) (hn : 2 ≤ n)
    (hr : base ≠ 1 ∧ base ≠ 8 → n ≤ 44 ∧ Bbob.Spec.Regular (base + 10000 * inst) n ∧
      Bbob.Spec.Regular (base + 10000 * inst + 1000000) n) :
    ∃ P v, plain base inst n = .ok P ∧ Legacy.computeFopt base inst = .ok v ∧ Bbob.Spec.KnownIn 4 P v := by
  have hs : ∀ k : Int, 0 ≤ k → k ≤ 10 ^ 7 → ((base + 10000 * inst : Int) + k).natAbs < 2 ^ 31 * 127773 := by
    intro k h0 hk
    have : base ≤ 21 := by
      simp only [List.mem_cons, List.not_mem_nil, or_false] at hb
      omega
    omega
  simp only [List.mem_cons, List.not_mem_nil, or_false] at hb
  rcases hb with rfl | rfl | rfl | rfl | rfl | rfl | rfl | rfl
  · exact Bbob.wider (by simp [Bbob.Spec.reach]) (Bbob.sphereProblem_known .bbob 1 inst (by norm_num) hi _ hs hn)
  · obtain ⟨a, b⟩ := hr (by omega)
    exact Bbob.wider (by simp [Bbob.Spec.reach]) (Bbob.stepEllipsoidProblem_known .bbob 7 inst (by norm_num) hi _ hs hn a b 0 le_rfl)
  · exact Bbob.wider (by simp [Bbob.Spec.reach]) (Bbob.rosenbrockProblem_known .bbob 8 inst (by norm_num) hi _ hs hn)
  · obtain ⟨a, b⟩ := hr (by omega)
    exact Bbob.wider (by simp [Bbob.Spec.reach]) (Bbob.rotatedEllipsoidProblem_known .bbob 10 inst (by norm_num) hi _ hs hn a b (10 ^ 4) (by norm_num))
  · obtain ⟨a, b⟩ := hr (by omega)
    exact Bbob.wider (by simp [Bbob.Spec.reach]) (Bbob.differentPowersProblem_known .bbob 14 inst (by norm_num) hi _ hs hn a b)
  · obtain ⟨a, b⟩ := hr (by omega)
    exact Bbob.wider (by simp [Bbob.Spec.reach]) (Bbob.schaffersProblem_known .bbob 17 inst (by norm_num) hi _ hs hn a b 10 0 le_rfl)
  · obtain ⟨a, b⟩ := hr (by omega)
    exact Bbob.griewankRosenbrockProblem_known 19 inst _ hs hn a b (by norm_num) hi 1 zero_le_one
  · obtain ⟨a, b⟩ := hr (by omega)
    exact Bbob.wider (by simp [Bbob.Spec.reach]) (Bbob.gallagherProblem_known .bbob 21 inst (by norm_num) hi _ hs hn a b 101 (Or.inl rfl) 0 le_rfl)

/-! ### The theorems -/

/-- C90: for every function, every instance and every dimension from 2 on, the noisy problem can be created. Its noise
is the one of the specification; its noise-free part has the recorded best parameter in `[-5, 5]` with the recorded
best value, computed from the number of the underlying noiseless function and the instance, and no point has a smaller
value. After any sequence of draws, noisy evaluations (of any problems) and resets, every point can be evaluated, the
recorded noise-free value is the value of the noise-free part, and the noisy value is above the recorded best value, for
the Cauchy noise above the noise-free value, by at least 1.01e-8 and a hundred times the violation of the bounds. -/
theorem C90_noisy (function inst n : Nat) (h1 : 101 ≤ function) (h2 : function ≤ 130) (hi : inst ≤ 10 ^ 10)
    (hn : 2 ≤ n)
    (hr : Spec.base function ≠ 1 ∧ Spec.base function ≠ 8 → n ≤ 44 ∧
      Bbob.Spec.Regular (Spec.base function + 10000 * inst) n ∧
      Bbob.Spec.Regular (Spec.base function + 10000 * inst + 1000000) n) :
    ∃ P v, get function inst n = .ok ⟨P, Spec.noise function n⟩ ∧
      Legacy.computeFopt (Spec.base function) inst = .ok v ∧ Bbob.Spec.KnownIn 4 P v ∧
      ∀ (history : List Noise.Op) (x : Vec n), ∃ os s y y0 s',
        Noise.run history Noise.reset = .ok (os, s) ∧
        evaluate ⟨P, Spec.noise function n⟩ x s = .ok ((y, y0), s') ∧
        P.eval x = .ok y0 ∧ v ≤ y0 ∧
        v + 1.01 / 10 ^ 8 + 100 * Spec.violation x ≤ y ∧
        (function % 3 = 1 → y0 + 1.01 / 10 ^ 8 + 100 * Spec.violation x ≤ y) := by
  obtain ⟨P, v, eP, ev, hk⟩ := plain_known (Spec.base function) inst n
    (by interval_cases function <;> decide) hi hn hr
  refine ⟨P, v, by rw [get_eq function inst n h1 h2, eP]; rfl, ev, hk, fun history x => ?_⟩
  obtain ⟨hl, hh, p, ⟨hp, hv, -, hmin⟩, -⟩ := hk
  obtain ⟨y0, e0, h0⟩ := hmin x
  obtain ⟨os, s, y, s', er, ey, hy⟩ := Noise.C47_limit history (Spec.noise function n) v y0
    (List.ofFn fun i => (x i, (-5 : ℝ), (5 : ℝ))) h0
  unfold Noise.Spec.limit at hy
  rw [boundary_eq] at hy
  refine ⟨os, s, y, y0, s', er, ?_, e0, h0, ?_, ?_⟩
  · unfold evaluate
    dsimp only
    rw [e0, Res.ok_bind, hv, hl, hh]
    exact ey
  · revert hy
    generalize Spec.noise function n = m
    cases m <;> dsimp only <;> intro hy <;> linarith
  · intro h3
    have : Spec.noise function n = .cauchy (if function ≤ 106 then 0.01 else 1) (if function ≤ 106 then 0.05 else 0.2) := by
      unfold Spec.noise
      dsimp only
      rw [if_neg (by omega), if_neg (by omega)]
    rw [this] at hy
    exact hy

/-- C90: functions with the same underlying function have, for the same instance and dimension, the same noise-free part
(region of interest, best parameter, best value and noise-free values). -/
theorem C90_shared (f g inst n : Nat) (hf : 101 ≤ f ∧ f ≤ 130) (hg : 101 ≤ g ∧ g ≤ 130) (h : Spec.base f = Spec.base g) :
    (get f inst n).bind (fun P => .ok P.inner) = (get g inst n).bind (fun P => .ok P.inner) := by
  rw [get_eq f inst n hf.1 hf.2, get_eq g inst n hg.1 hg.2, h]
  unfold under
  cases plain (Spec.base g) inst n <;> rfl

/-- C90: for the sphere, Rosenbrock and different powers functions the noise-free part is the problem of the bbob suite
with the same instance. -/
theorem C90_noiseless (f inst n : Nat) (hf : 101 ≤ f ∧ f ≤ 130) (h : Spec.base f = 1 ∨ Spec.base f = 8 ∨ Spec.base f = 14) :
    (get f inst n).bind (fun P => .ok P.inner) = Bbob.get .bbob (Spec.base f) inst n := by
  rw [get_eq f inst n hf.1 hf.2]
  have e : plain (Spec.base f) inst n = Bbob.get .bbob (Spec.base f) inst n := by
    rcases h with h | h | h <;> rw [h] <;> norm_num [plain, Bbob.get]
  rw [← e]
  unfold under
  cases plain (Spec.base f) inst n <;> rfl

/-- C90: there are no other functions. -/
theorem C90_unknown (function inst n : Nat) (h : function < 101 ∨ 130 < function) :
    get function inst n = .error := by
  unfold get
  iterate 30 rw [if_neg (by omega)]

/-! ### The hypotheses hold for function 121, instance 2 and two variables -/

theorem regular_example : Bbob.Spec.Regular (14 + 10000 * 2) 2 ∧ Bbob.Spec.Regular (14 + 10000 * 2 + 1000000) 2 := by
  constructor
  · refine Bbob.regular_two _ (by decide) (a := 1286923745 / 2147483647) (b := 1211809557 / 2147483647) (c := 148316351 / 2147483647)
      (d := 1716839800 / 2147483647) (a' := 2107033175 / 2147483647) (b' := 941169957 / 2147483647) (c' := 2045595447 / 2147483647)
      (d' := 2026407144 / 2147483647) (by decide +kernel) ?_
    have ga : 0 < Legacy.gaussNumber (((1286923745 / 2147483647 : ℚ)) : ℝ) (((2107033175 / 2147483647 : ℚ)) : ℝ) :=
      Rotation.gaussNumber_pos (by norm_num) (by norm_num) (Rotation.cos_pos_of (by norm_num) (by norm_num))
    have gb : Legacy.gaussNumber (((1211809557 / 2147483647 : ℚ)) : ℝ) (((941169957 / 2147483647 : ℚ)) : ℝ) < 0 :=
      Rotation.gaussNumber_neg (by norm_num) (by norm_num) (Rotation.cos_neg_of (by norm_num) (by norm_num))
    have gc : 0 < Legacy.gaussNumber (((148316351 / 2147483647 : ℚ)) : ℝ) (((2045595447 / 2147483647 : ℚ)) : ℝ) :=
      Rotation.gaussNumber_pos (by norm_num) (by norm_num) (Rotation.cos_pos_of (by norm_num) (by norm_num))
    have gd : 0 < Legacy.gaussNumber (((1716839800 / 2147483647 : ℚ)) : ℝ) (((2026407144 / 2147483647 : ℚ)) : ℝ) :=
      Rotation.gaussNumber_pos (by norm_num) (by norm_num) (Rotation.cos_pos_of (by norm_num) (by norm_num))
    exact ((mul_neg_of_neg_of_pos gb gc).trans (mul_pos ga gd)).ne'
  · refine Bbob.regular_two _ (by decide) (a := 904921618 / 2147483647) (b := 1022376551 / 2147483647) (c := 160320846 / 2147483647)
      (d := 612928883 / 2147483647) (a' := 2129425625 / 2147483647) (b' := 1812697445 / 2147483647) (c' := 615360276 / 2147483647)
      (d' := 144973764 / 2147483647) (by decide +kernel) ?_
    have ga : 0 < Legacy.gaussNumber (((904921618 / 2147483647 : ℚ)) : ℝ) (((2129425625 / 2147483647 : ℚ)) : ℝ) :=
      Rotation.gaussNumber_pos (by norm_num) (by norm_num) (Rotation.cos_pos_of (by norm_num) (by norm_num))
    have gb : 0 < Legacy.gaussNumber (((1022376551 / 2147483647 : ℚ)) : ℝ) (((1812697445 / 2147483647 : ℚ)) : ℝ) :=
      Rotation.gaussNumber_pos (by norm_num) (by norm_num) (Rotation.cos_pos_of (by norm_num) (by norm_num))
    have gc : Legacy.gaussNumber (((160320846 / 2147483647 : ℚ)) : ℝ) (((615360276 / 2147483647 : ℚ)) : ℝ) < 0 :=
      Rotation.gaussNumber_neg (by norm_num) (by norm_num) (Rotation.cos_neg_of (by norm_num) (by norm_num))
    have gd : 0 < Legacy.gaussNumber (((612928883 / 2147483647 : ℚ)) : ℝ) (((144973764 / 2147483647 : ℚ)) : ℝ) :=
      Rotation.gaussNumber_pos (by norm_num) (by norm_num) (Bbob.cos_pos_low (by norm_num) (by norm_num))
    exact ((mul_neg_of_pos_of_neg gb gc).trans (mul_pos ga gd)).ne'

/-- C90 for a function with rotation matrices and Cauchy noise. -/
example : ∃ P v, get 121 2 2 = .ok ⟨P, .cauchy 1 0.2⟩ ∧ Legacy.computeFopt 14 2 = .ok v ∧ Bbob.Spec.KnownIn 4 P v := by
  obtain ⟨P, v, e, ev, h, -⟩ := C90_noisy 121 2 2 (by omega) (by omega) (by norm_num) le_rfl
    fun _ => ⟨by omega, regular_example.1, regular_example.2⟩
  refine ⟨P, v, ?_, ev, h⟩
  rw [e]
  norm_num [Spec.noise]

/-- C90 for a function without rotation matrices, with more than 44 variables. -/
example : ∃ P v, get 105 7 100 = .ok ⟨P, Spec.noise 105 100⟩ ∧ Legacy.computeFopt 8 7 = .ok v ∧ Bbob.Spec.KnownIn 4 P v := by
  obtain ⟨P, v, e, ev, h, -⟩ := C90_noisy 105 7 100 (by omega) (by omega) (by norm_num) (by omega)
    fun h => absurd rfl h.2
  exact ⟨P, v, e, ev, h⟩

example : (get 103 5 10).bind (fun P => .ok P.inner) = (get 107 5 10).bind (fun P => .ok P.inner) :=
  C90_shared 103 107 5 10 (by omega) (by omega) rfl

example : (get 120 5 10).bind (fun P => .ok P.inner) = Bbob.get .bbob 14 5 10 :=
  C90_noiseless 120 5 10 (by omega) (by decide)

example : get 100 1 2 = .error := C90_unknown 100 1 2 (by omega)

end Noisy
