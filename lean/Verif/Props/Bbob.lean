import Mathlib.Tactic.IntervalCases
import Mathlib.Data.List.GetD
import Mathlib.Algebra.Order.Chebyshev
import Mathlib.Algebra.Order.BigOperators.GroupWithZero.Finset
import Verif.Model.Bbob
import Verif.Props.Transform
import Verif.Props.Rotation

/-!
# The problems of the bbob suite: C85
-/

namespace Bbob
open Classical Transform

variable {n : Nat}

namespace Spec

/-- The region of interest is `[-5, 5]`, the recorded best parameter lies in `[-r, r]`, its value is the recorded best
value, which is `v`, the function can be evaluated at every point (no assertion fails), and no value is below `v`. -/
def KnownIn (r : ℝ) (P : Prob n) (v : ℝ) : Prop :=
  P.lo = (fun _ => -5) ∧ P.hi = (fun _ => 5) ∧ ∃ p, Transform.Spec.Optimal P p v ∧ ∀ i, -r ≤ p i ∧ p i ≤ r

/-- The same with a best parameter anywhere in the region of interest. -/
def Known (P : Prob n) (v : ℝ) : Prop := KnownIn 5 P v

/-- The optima of the sbox-cost suite lie in `[-5, 5]`, those of the other suites in `[-4, 4]` (see the comment in
`/repo/src/f_gallagher.c` line 255). -/
def reach (t : Template) : ℝ := if t = .boxed then 5 else 4

/-- The functions with rotation matrices. -/
def Rotated (function : Nat) : Prop := 6 ≤ function ∧ function ≠ 8 ∧ function ≠ 20

/-- The random matrix from which the rotation for the seed is made is regular. -/
def Regular (seed : Int) (n : Nat) : Prop :=
  ∀ g, Legacy.gauss (n * n) seed = .ok g → LinearIndependent ℝ (fun j : Fin n => Rotation.reshape g j)

/-- The first seed for a function and an instance: functions 4 and 18 use those of 3 and 17. -/
def seed (function inst : Nat) : Int :=
  (if function = 4 then 3 else if function = 18 then 17 else function) + 10000 * inst

end Spec

/-! ### Random data -/

theorem getXopt_ok (t : Template) (seed : Int) (hs : seed.natAbs < 2 ^ 31 * 127773) (n : Nat) :
    ∃ x, getXopt t seed n = .ok x ∧ (∀ i, -Spec.reach t ≤ x i ∧ x i ≤ Spec.reach t) ∧ ∀ i, -5 ≤ x i ∧ x i ≤ 5 := by
  have key : ∀ (r : ℚ) (l : List ℚ), l.length = n → (∀ x ∈ l, -r ≤ x ∧ x ≤ r) →
      ∀ i : Fin n, -(r : ℝ) ≤ vec (n := n) l i ∧ vec (n := n) l i ≤ (r : ℝ) := by
    intro r l hl h i
    have hi : i.1 < l.length := by omega
    obtain ⟨a, b⟩ := h l[i.1] (List.getElem_mem hi)
    unfold vec
    rw [List.getD_eq_getElem _ _ hi]
    constructor
    · exact_mod_cast a
    · exact_mod_cast b
  unfold getXopt Spec.reach
  split_ifs
  · obtain ⟨xs, e, l, h⟩ := Legacy.C45_sbox seed hs n
    rw [e]
    have := key 5 xs l fun x hx => ⟨(h x hx).1, (h x hx).2.1.le⟩
    norm_num at this
    exact ⟨_, rfl, this, this⟩
  · obtain ⟨xs, e, l, h⟩ := Legacy.C45_xopt seed hs n
    rw [e]
    have := key 4 xs l fun x hx => ⟨(h x hx).1, (h x hx).2.1.le⟩
    norm_num at this
    exact ⟨_, rfl, this, fun i => ⟨by linarith [(this i).1], by linarith [(this i).2]⟩⟩

theorem reach_le (t : Template) : 4 ≤ Spec.reach t ∧ Spec.reach t ≤ 5 := by
  unfold Spec.reach
  split_ifs <;> norm_num

theorem Spec.KnownIn.mono {r r' : ℝ} (h : r ≤ r') {P : Prob n} {v : ℝ} (k : Spec.KnownIn r P v) : Spec.KnownIn r' P v := by
  obtain ⟨h1, h2, p, h3, h4⟩ := k
  exact ⟨h1, h2, p, h3, fun i => ⟨by linarith [(h4 i).1], by linarith [(h4 i).2]⟩⟩

theorem wider {r r' : ℝ} (h : r ≤ r') {a : Prob n → Prop} {b : ℝ → Prop} (k : ∃ P v, a P ∧ b v ∧ Spec.KnownIn r P v) :
    ∃ P v, a P ∧ b v ∧ Spec.KnownIn r' P v := by
  obtain ⟨P, v, h1, h2, h3⟩ := k
  exact ⟨P, v, h1, h2, h3.mono h⟩

theorem rotation_ok (seed : Int) (hs : seed.natAbs < 2 ^ 31 * 127773) (n : Nat) (hn : n ≤ 44)
    (hr : Spec.Regular seed n) : ∃ M, rotation seed n = .ok M ∧ Transform.Spec.Orthonormal M ∧
      ∀ i j, ∑ k, M k i * M k j = if i = j then 1 else 0 := by
  obtain ⟨g, hg, -, h⟩ := Rotation.C83_rotation seed hs n hn
  obtain ⟨q, e, ho⟩ := h (hr g hg)
  refine ⟨fun i j => (List.ofFn q).getD j 0 i, by unfold rotation; rw [e, Res.ok_bind], ?_, ?_⟩
  · intro i j
    have := ho.rows i j
    simpa [List.getD_eq_getElem?_getD] using this
  · intro i j
    have := ho.columns i j
    simpa [List.getD_eq_getElem?_getD] using this

theorem seed_small {function inst : Nat} (hf : function ≤ 24) (hi : inst ≤ 10 ^ 10) (k : Int) (h0 : 0 ≤ k)
    (hk : k ≤ 10 ^ 7) : (Spec.seed function inst + k).natAbs < 2 ^ 31 * 127773 := by
  unfold Spec.seed
  split_ifs <;> omega

/-! ### Basic problems -/

/-- A basic problem whose function has the value 0 at the best parameter and no negative value, with transformations. -/
theorem solved {f : Vec n → ℝ} {best : Vec n} (two : Bool) (hn : 2 ≤ n) (h0 : f best = 0) (hpos : ∀ x, 0 ≤ f x)
    (ts : List (T n)) (hfit : Transform.Spec.FitsAll (fun _ => -5) (fun _ => 5) ts best 0) :
    ∃ P, allocate two f best = .ok P ∧ ∃ Q, chain ts P = .ok Q ∧ Q.lo = (fun _ => -5) ∧ Q.hi = (fun _ => 5) ∧
      Transform.Spec.Optimal Q (ts.foldl (fun p t => Transform.Spec.move t p) best)
        (ts.foldl (fun v t => Transform.Spec.value t v) 0) := by
  refine ⟨⟨fun x => check (some (f best)) (f x), fun _ => -5, fun _ => 5, some best, some (f best)⟩, ?_, ?_⟩
  · have h1 : decide (1 < n) = true := decide_eq_true (by omega)
    unfold allocate
    simp only [Res.assert, h1, Bool.or_true, if_true, Res.ok_bind]
  · have hopt : Transform.Spec.Optimal (⟨fun x => check (some (f best)) (f x), fun _ => -5, fun _ => 5, some best,
        some (f best)⟩ : Prob n) best 0 :=
      ⟨rfl, by rw [h0], by show Transform.check (some (f best)) (f best) = Res.ok 0; rw [check_ok le_rfl, h0],
        fun x => ⟨f x, by
          show Transform.check (some (f best)) (f x) = Res.ok (f x)
          rw [check_ok]; rw [h0]; exact hpos x, hpos x⟩⟩
    obtain ⟨Q, h1, h2, h3, h4⟩ := C54_transformations ts _ best 0 hopt hfit
    exact ⟨Q, h1, h2, h3, h4⟩

theorem cast_sub_one_pos (hn : 2 ≤ n) : (0 : ℝ) < (n : ℝ) - 1 := by
  have : (2 : ℝ) ≤ n := by exact_mod_cast hn
  linarith

theorem sphere_nonneg (x : Vec n) : 0 ≤ sphere x := Finset.sum_nonneg fun i _ => mul_self_nonneg _

theorem ellipsoid_nonneg {c : ℝ} (hc : 0 ≤ c) (x : Vec n) : 0 ≤ ellipsoid c x := by
  refine Finset.sum_nonneg fun i _ => ?_
  split_ifs
  · exact mul_self_nonneg _
  · rw [mul_assoc]
    exact mul_nonneg (Real.rpow_nonneg hc _) (mul_self_nonneg _)

theorem sum_cos_le (z : Vec n) : ∑ i, Real.cos (z i) ≤ n := by
  calc ∑ i, Real.cos (z i) ≤ ∑ _i : Fin n, (1 : ℝ) := Finset.sum_le_sum fun i _ => Real.cos_le_one _
    _ = n := by simp

theorem rastrigin_nonneg (x : Vec n) : 0 ≤ rastrigin x := by
  have h1 := sum_cos_le (fun i => 2 * Real.pi * x i)
  have h2 := sphere_nonneg x
  unfold sphere at h2
  unfold rastrigin
  linarith

theorem rastrigin_zero : rastrigin (0 : Vec n) = 0 := by simp [rastrigin]

theorem slope_power_pos (i : Fin n) : 0 < Real.sqrt 100 ^ ((i : ℝ) / ((n : ℝ) - 1)) :=
  Real.rpow_pos_of_pos (Real.sqrt_pos.mpr (by norm_num)) _

theorem linearSlope_nonneg (best : Vec n) (hb : ∀ i, best i = -5 ∨ best i = 5) (x : Vec n) :
    0 ≤ linearSlope best x := by
  refine Finset.sum_nonneg fun i _ => ?_
  have hs := slope_power_pos i
  rcases hb i with h | h
  · have e : slope best i = -Real.sqrt 100 ^ ((i : ℝ) / ((n : ℝ) - 1)) := if_neg (by rw [h]; norm_num)
    rw [e, abs_neg, abs_of_pos hs, h]
    generalize Real.sqrt 100 ^ ((i : ℝ) / ((n : ℝ) - 1)) = s at hs
    split_ifs with hc
    · nlinarith
    · linarith
  · have e : slope best i = Real.sqrt 100 ^ ((i : ℝ) / ((n : ℝ) - 1)) := if_pos (by rw [h]; norm_num)
    rw [e, abs_of_pos hs, h]
    generalize Real.sqrt 100 ^ ((i : ℝ) / ((n : ℝ) - 1)) = s at hs
    split_ifs with hc
    · nlinarith
    · linarith

theorem linearSlope_best (best : Vec n) (hb : ∀ i, best i = -5 ∨ best i = 5) : linearSlope best best = 0 := by
  refine Finset.sum_eq_zero fun i _ => ?_
  have hs := slope_power_pos i
  rcases hb i with h | h
  · have e : slope best i = -Real.sqrt 100 ^ ((i : ℝ) / ((n : ℝ) - 1)) := if_neg (by rw [h]; norm_num)
    rw [e, abs_neg, abs_of_pos hs, h, if_neg (by norm_num)]
    ring
  · have e : slope best i = Real.sqrt 100 ^ ((i : ℝ) / ((n : ℝ) - 1)) := if_pos (by rw [h]; norm_num)
    rw [e, abs_of_pos hs, h, if_neg (by norm_num)]
    ring

theorem attractiveSector_nonneg (xopt x : Vec n) : 0 ≤ attractiveSector xopt x := by
  refine Finset.sum_nonneg fun i _ => ?_
  split_ifs
  · nlinarith [mul_self_nonneg (x i)]
  · exact mul_self_nonneg _

theorem outside_nonneg (x : Vec n) : 0 ≤ outside x := by
  refine Finset.sum_nonneg fun i _ => ?_
  split_ifs
  · exact mul_self_nonneg _
  · exact le_rfl

theorem outside_zero (x : Vec n) (h : ∀ i, -5 ≤ x i ∧ x i ≤ 5) : outside x = 0 := by
  refine Finset.sum_eq_zero fun i _ => if_neg ?_
  have := abs_le.mpr (h i)
  linarith

theorem rosenbrock_nonneg (x : Vec n) : 0 ≤ rosenbrock x := by
  unfold rosenbrock
  refine add_nonneg (mul_nonneg (by norm_num) (Finset.sum_nonneg fun i _ => mul_self_nonneg _))
    (Finset.sum_nonneg fun i _ => mul_self_nonneg _)

theorem rosenbrock_one : rosenbrock (fun _ : Fin n => (1 : ℝ)) = 0 := by simp [rosenbrock]

theorem discus_nonneg (x : Vec n) : 0 ≤ discus x := by
  refine Finset.sum_nonneg fun i _ => ?_
  split_ifs
  · rw [mul_assoc]; exact mul_nonneg (by norm_num) (mul_self_nonneg _)
  · exact mul_self_nonneg _

theorem bentCigar_nonneg (x : Vec n) : 0 ≤ bentCigar x := by
  refine Finset.sum_nonneg fun i _ => ?_
  split_ifs
  · exact mul_self_nonneg _
  · rw [mul_assoc]; exact mul_nonneg (by norm_num) (mul_self_nonneg _)

theorem sharpRidge_nonneg (x : Vec n) : 0 ≤ sharpRidge x := by
  unfold sharpRidge
  refine add_nonneg (mul_nonneg (by norm_num) (Real.sqrt_nonneg _)) (Finset.sum_nonneg fun i _ => ?_)
  split_ifs
  · exact mul_self_nonneg _
  · exact le_rfl

theorem differentPowers_zero (hn : 2 ≤ n) : differentPowers (0 : Vec n) = 0 := by
  unfold differentPowers
  rw [Finset.sum_eq_zero, Real.sqrt_zero]
  intro i _
  have := cast_sub_one_pos hn
  simp only [Pi.zero_apply, abs_zero]
  exact Real.zero_rpow (by positivity)

theorem cos_odd (k : Nat) (y : ℝ) (hy : y = Real.pi * 3 ^ k) : Real.cos y = -1 := by
  have : y = ((3 ^ k : Nat) : ℝ) * Real.pi := by rw [hy]; push_cast; ring
  rw [this, Real.cos_nat_mul_pi, Odd.neg_one_pow]
  exact Odd.pow (by decide)

theorem weierstrassF0_eq : weierstrassF0 = -∑ k ∈ Finset.range 12, (0.5 : ℝ) ^ k := by
  unfold weierstrassF0
  rw [← Finset.sum_neg_distrib]
  refine Finset.sum_congr rfl fun k _ => ?_
  rw [cos_odd k _ (by ring)]
  ring

theorem weierstrass_nonneg (hn : 2 ≤ n) (x : Vec n) : 0 ≤ weierstrass x := by
  unfold weierstrass
  refine mul_nonneg (by norm_num) (pow_nonneg ?_ 3)
  rw [weierstrassF0_eq, sub_neg_eq_add, ← neg_le_iff_add_nonneg, le_div_iff₀ (by positivity)]
  calc -(∑ k ∈ Finset.range 12, (0.5 : ℝ) ^ k) * n
      = ∑ _i : Fin n, ∑ k ∈ Finset.range 12, -((0.5 : ℝ) ^ k) := by
        rw [Finset.sum_neg_distrib]; simp; ring
    _ ≤ _ := by
        refine Finset.sum_le_sum fun i _ => Finset.sum_le_sum fun k _ => ?_
        have := Real.neg_one_le_cos (2 * Real.pi * (x i + 0.5) * 3 ^ k)
        have hp : (0 : ℝ) < 0.5 ^ k := by positivity
        nlinarith

theorem weierstrass_zero (hn : 2 ≤ n) : weierstrass (0 : Vec n) = 0 := by
  unfold weierstrass
  have h : ∀ i : Fin n, ∑ k ∈ Finset.range 12, Real.cos (2 * Real.pi * ((0 : Vec n) i + 0.5) * 3 ^ k) * 0.5 ^ k =
      weierstrassF0 := by
    intro i
    unfold weierstrassF0
    refine Finset.sum_congr rfl fun k _ => ?_
    rw [Pi.zero_apply, zero_add, mul_comm, show 2 * Real.pi * 0.5 * 3 ^ k = 2 * Real.pi * 3 ^ k * 0.5 by ring]
  rw [Finset.sum_congr rfl fun i _ => h i]
  have : (n : ℝ) ≠ 0 := by positivity
  simp [this]

theorem schaffers_zero : schaffers (0 : Vec n) = 0 := by
  have h : (0 : ℝ) ^ (0.25 : ℝ) = 0 := Real.zero_rpow (by norm_num)
  simp [schaffers, h]

theorem griewankRosenbrock_nonneg {c : ℝ} (hc : 0 ≤ c) (hn : 2 ≤ n) (x : Vec n) : 0 ≤ griewankRosenbrock c x := by
  unfold griewankRosenbrock
  have hp := cast_sub_one_pos hn
  rw [mul_div_assoc, ← mul_one_add]
  refine mul_nonneg hc ?_
  rw [← neg_le_iff_add_nonneg', le_div_iff₀ hp]
  calc -1 * ((n : ℝ) - 1) = ∑ _i : Fin (n - 1), (-1 : ℝ) := by
        simp [Nat.cast_sub (show 1 ≤ n by omega)]
    _ ≤ _ := by
        refine Finset.sum_le_sum fun i _ => ?_
        dsimp only
        generalize ht : 100 * (x (here i) * x (here i) - x (next i)) * (x (here i) * x (here i) - x (next i)) +
          (1 - x (here i)) * (1 - x (here i)) = t
        have h0 : 0 ≤ t := by
          rw [← ht, mul_assoc]
          exact add_nonneg (mul_nonneg (by norm_num) (mul_self_nonneg _)) (mul_self_nonneg _)
        have := Real.cos_le_one t
        linarith

theorem griewankRosenbrock_one (c : ℝ) (hn : 2 ≤ n) : griewankRosenbrock c (fun _ : Fin n => (1 : ℝ)) = 0 := by
  unfold griewankRosenbrock
  have hp := cast_sub_one_pos hn
  have : ((n - 1 : Nat) : ℝ) = (n : ℝ) - 1 := by rw [Nat.cast_sub (by omega)]; simp
  simp [this]
  field_simp
  ring

theorem katsuura_nonneg (x : Vec n) : 0 ≤ katsuura x := by
  unfold katsuura
  refine mul_nonneg (by positivity) ?_
  have : (1 : ℝ) ≤ ∏ i : Fin n,
    (1 + ((i : ℝ) + 1) * ∑ j ∈ Finset.range 32,
      |(2 : ℝ) ^ (j + 1) * x i - roundDouble ((2 : ℝ) ^ (j + 1) * x i)| / (2 : ℝ) ^ (j + 1)) ^
        (10 / (n : ℝ) ^ (1.2 : ℝ)) := by
    refine Finset.one_le_prod fun i _ => Real.one_le_rpow ?_ (by positivity)
    have : (0 : ℝ) ≤ ((i : ℝ) + 1) * ∑ j ∈ Finset.range 32,
      |(2 : ℝ) ^ (j + 1) * x i - roundDouble ((2 : ℝ) ^ (j + 1) * x i)| / (2 : ℝ) ^ (j + 1) := by positivity
    linarith
  linarith

theorem roundDouble_zero : roundDouble 0 = 0 := by
  have : ⌊(0 : ℝ) + 0.5⌋ = 0 := by rw [Int.floor_eq_iff]; norm_num
  unfold roundDouble
  rw [this]
  simp

theorem katsuura_zero : katsuura (0 : Vec n) = 0 := by
  unfold katsuura
  simp [roundDouble_zero]

/-! ### Problems -/

/-- The conclusion for an allocator. -/
theorem stepEllipsoid_ge (first : Fin n) (xopt : Vec n) (v c : ℝ) (hc : 0 ≤ c) (M N : Fin n → Fin n → ℝ) (x : Vec n) :
    v ≤ stepEllipsoid first xopt v c M N x := by
  have h1 : 0 ≤ outside x * c := mul_nonneg (outside_nonneg x) hc
  have h2 : 0 ≤ |stepInner xopt N x first| * (1 / 10 ^ 4) := by positivity
  unfold stepEllipsoid
  dsimp only
  have h3 := le_max_of_le_left (c := ∑ i : Fin n, (100 : ℝ) ^ ((i : ℝ) / ((n : ℝ) - 1)) *
    (∑ j, M i j * step (stepInner xopt N x j)) * (∑ j, M i j * step (stepInner xopt N x j))) h2
  linarith

theorem stepEllipsoid_best (first : Fin n) (xopt : Vec n) (v c : ℝ) (M N : Fin n → Fin n → ℝ)
    (h : ∀ i, -5 ≤ xopt i ∧ xopt i ≤ 5) : stepEllipsoid first xopt v c M N xopt = v := by
  have h0 : stepInner xopt N xopt = 0 := by funext i; simp [stepInner]
  have h1 : step 0 = 0 := by
    unfold step
    rw [if_neg (by norm_num), mul_zero, roundDouble_zero, zero_div]
  unfold stepEllipsoid
  dsimp only
  rw [h0, outside_zero xopt h]
  simp [h1]

theorem lunacek_s_pos (hn : 2 ≤ n) : 0 < 1 - 0.5 / (Real.sqrt ((n : ℝ) + 20) - 4.1) := by
  have h : (4.65 : ℝ) ≤ Real.sqrt ((n : ℝ) + 20) := by
    apply Real.le_sqrt_of_sq_le
    have : (2 : ℝ) ≤ n := by exact_mod_cast hn
    norm_num
    linarith
  rw [sub_pos, div_lt_one (by linarith)]
  linarith

theorem lunacek_nonneg (hn : 2 ≤ n) (xopt : Vec n) (M N : Fin n → Fin n → ℝ) (x : Vec n) : 0 ≤ lunacek xopt M N x := by
  unfold lunacek
  dsimp only
  have hs := lunacek_s_pos hn
  have h1 := sum_cos_le (fun i => 2 * Real.pi * ∑ j, M i j * ∑ k,
    Real.sqrt 100 ^ ((j : ℝ) / ((n : ℝ) - 1)) * N j k * (xHat2 xopt x k - 2.5))
  have h2 := outside_nonneg x
  have hsq : ∀ m : ℝ, 0 ≤ ∑ i, (xHat2 xopt x i - m) * (xHat2 xopt x i - m) :=
    fun m => Finset.sum_nonneg fun i _ => mul_self_nonneg _
  have h3 := le_min (hsq 2.5) (add_nonneg (by positivity : (0 : ℝ) ≤ 1 * (n : ℝ))
    (mul_nonneg hs.le (hsq (-Real.sqrt ((2.5 * 2.5 - 1) / (1 - 0.5 / (Real.sqrt ((n : ℝ) + 20) - 4.1)))))))
  linarith

theorem lunacek_best (hn : 2 ≤ n) (xopt : Vec n) (h : ∀ i, xopt i = -1.25 ∨ xopt i = 1.25)
    (M N : Fin n → Fin n → ℝ) : lunacek xopt M N xopt = 0 := by
  have hs := lunacek_s_pos hn
  have hx : xHat2 xopt xopt = fun _ => 2.5 := by
    funext i
    unfold xHat2
    rcases h i with e | e <;> rw [e] <;> norm_num
  have ho : outside xopt = 0 := outside_zero xopt fun i => by rcases h i with e | e <;> rw [e] <;> norm_num
  unfold lunacek
  dsimp only
  rw [hx, ho]
  have h3 : (0 : ℝ) ≤ 1 * (n : ℝ) + (1 - 0.5 / (Real.sqrt ((n : ℝ) + 20) - 4.1)) * ∑ _i : Fin n,
      ((2.5 : ℝ) - -Real.sqrt ((2.5 * 2.5 - 1) / (1 - 0.5 / (Real.sqrt ((n : ℝ) + 20) - 4.1)))) *
      (2.5 - -Real.sqrt ((2.5 * 2.5 - 1) / (1 - 0.5 / (Real.sqrt ((n : ℝ) + 20) - 4.1)))) :=
    add_nonneg (by positivity) (mul_nonneg hs.le (Finset.sum_nonneg fun i _ => mul_self_nonneg _))
  simp only [sub_self, mul_zero, Finset.sum_const_zero, Real.cos_zero] at *
  rw [min_eq_left h3]
  simp

theorem foldl_max_le (l : List Nat) (f : Nat → ℝ) (a b : ℝ) (ha : a ≤ b) (h : ∀ i ∈ l, f i ≤ b) :
    l.foldl (fun m i => max m (f i)) a ≤ b := by
  induction l generalizing a with
  | nil => exact ha
  | cons i l ih =>
    exact ih _ (max_le ha (h i (by simp))) fun j hj => h j (by simp [hj])

theorem le_foldl_max (l : List Nat) (f : Nat → ℝ) (a : ℝ) :
    a ≤ l.foldl (fun m i => max m (f i)) a ∧ ∀ i ∈ l, f i ≤ l.foldl (fun m i => max m (f i)) a := by
  induction l generalizing a with
  | nil => exact ⟨le_rfl, by simp⟩
  | cons i l ih =>
    obtain ⟨h1, h2⟩ := ih (max a (f i))
    refine ⟨(le_max_left _ _).trans h1, fun j hj => ?_⟩
    rcases List.mem_cons.1 hj with rfl | hj
    · exact (le_max_right _ _).trans h1
    · exact h2 j hj

/-- The peaks are at most 10 high, and the first peak is 10 high. -/
theorem gallagher_spec (D : Peaks n) (best : Vec n) (hb : ∀ i, -5 ≤ best i ∧ best i ≤ 5) (hN : 0 < D.number)
    (hs : ∀ i j, 0 ≤ D.scales i j) (h0 : D.height 0 = 10) (hh : ∀ i < D.number, 0 ≤ D.height i ∧ D.height i ≤ 10)
    (hp : 0 ≤ D.penaltyScale) (hbest : ∀ i, D.place 0 i = ∑ j, D.rotation i j * best j) :
    gallagher D best = 0 ∧ ∀ x, 0 ≤ gallagher D x := by
  have hle : ∀ x, peak D x ≤ 10 := by
    intro x
    refine foldl_max_le _ _ _ _ (by norm_num) fun i hi => ?_
    have hi := hh i (List.mem_range.1 hi)
    have hexp : Real.exp (-0.5 / (n : ℝ) * ∑ j, D.scales i j *
        ((∑ k, D.rotation j k * x k) - D.place i j) * ((∑ k, D.rotation j k * x k) - D.place i j)) ≤ 1 := by
      rw [Real.exp_le_one_iff]
      refine mul_nonpos_of_nonpos_of_nonneg (div_nonpos_of_nonpos_of_nonneg (by norm_num) (by positivity)) ?_
      refine Finset.sum_nonneg fun j _ => ?_
      rw [mul_assoc]
      exact mul_nonneg (hs i j) (mul_self_nonneg _)
    calc _ ≤ D.height i * 1 := mul_le_mul_of_nonneg_left hexp hi.1
      _ ≤ 10 := by linarith [hi.2]
  have hge : 10 ≤ peak D best := by
    have := (le_foldl_max (List.range D.number) (fun i => D.height i * Real.exp (-0.5 / (n : ℝ) * ∑ j, D.scales i j *
        ((∑ k, D.rotation j k * best k) - D.place i j) * ((∑ k, D.rotation j k * best k) - D.place i j))) 0).2 0
        (List.mem_range.2 hN)
    simp only [hbest, sub_self, mul_zero, Finset.sum_const_zero, Real.exp_zero, mul_one, h0] at this
    exact this
  constructor
  · unfold gallagher
    dsimp only
    rw [le_antisymm (hle best) hge, outside_zero best hb, sub_self]
    simp [objOsc]
  · intro x
    unfold gallagher
    dsimp only
    exact add_nonneg (mul_self_nonneg _) (mul_nonneg (outside_nonneg x) hp)

theorem allScales_ok (seed : Int) (c : Nat → ℝ) (hc : ∀ i, 0 ≤ c i) (n m : Nat)
    (hs : ∀ i, i < m → (seed + 1000 * (i : Int)).natAbs < 2 ^ 31 * 127773) :
    ∀ k i, i + k ≤ m → ∃ ss, allScales seed c n k i = .ok ss ∧ ∀ s ∈ ss, ∀ j, 0 ≤ s j := by
  intro k
  induction k with
  | zero => intro i _; exact ⟨[], rfl, by simp⟩
  | succ k ih =>
    intro i hi
    obtain ⟨ss, e, h⟩ := ih (i + 1) (by omega)
    obtain ⟨us, eu, -, -⟩ := Legacy.C44_range n (seed + 1000 * (i : Int)) (hs i (by omega))
    refine ⟨(fun j => c i ^ (((order us).getD j 0 : ℝ) / ((n : ℝ) - 1) - 0.5)) :: ss, ?_, ?_⟩
    · unfold allScales peakScales
      rw [eu, Res.ok_bind, Res.ok_bind, e, Res.ok_bind]
    · intro s hs j
      rcases List.mem_cons.1 hs with rfl | hs
      · exact Real.rpow_nonneg (hc i) _
      · exact h s hs j

theorem factor_eq_one (hn' : n ≤ 44) : max 1 (Real.sqrt n / 8) = 1 := by
  apply max_eq_left
  rw [div_le_one (by norm_num)]
  apply Real.sqrt_le_iff.2
  have : (n : ℝ) ≤ 44 := by exact_mod_cast hn'
  constructor <;> linarith

/-- The sum of a column of an orthonormal matrix. -/
theorem column_sum_bound {M : Fin n → Fin n → ℝ} (hn' : n ≤ 44)
    (hM : ∀ i j, ∑ k, M k i * M k j = if i = j then 1 else 0) (j : Fin n) :
    -4 ≤ (∑ i, M i j) / 2 ∧ (∑ i, M i j) / 2 ≤ 4 := by
  have h1 := sq_sum_le_card_mul_sum_sq (s := (Finset.univ : Finset (Fin n))) (f := fun i => M i j)
  have h2 : ∑ i, M i j ^ 2 = 1 := by
    have := hM j j
    rw [if_pos rfl] at this
    rw [← this]
    exact Finset.sum_congr rfl fun i _ => by ring
  rw [h2, Finset.card_univ, Fintype.card_fin, mul_one] at h1
  have : (n : ℝ) ≤ 44 := by exact_mod_cast hn'
  constructor <;> nlinarith

theorem row_product {M : Fin n → Fin n → ℝ} (hM : Transform.Spec.Orthonormal M) (i : Fin n) :
    ∑ j, (∑ r, M r j) / 2 * M i j = 1 / 2 := by
  calc ∑ j, (∑ r, M r j) / 2 * M i j = ∑ j, ∑ r, M i j * M r j / 2 := by
        refine Finset.sum_congr rfl fun j _ => ?_
        rw [div_mul_eq_mul_div, Finset.sum_mul, Finset.sum_div]
        exact Finset.sum_congr rfl fun r _ => by ring
    _ = ∑ r, ∑ j, M i j * M r j / 2 := Finset.sum_comm
    _ = ∑ r, (if i = r then (1 / 2 : ℝ) else 0) := by
        refine Finset.sum_congr rfl fun r _ => ?_
        rw [← Finset.sum_div, hM i r]
        split_ifs <;> norm_num
    _ = 1 / 2 := by simp

theorem known_of {P : Prob n} {p : Vec n} {v w : ℝ} (h : Transform.Spec.Optimal P p v) (hv : v = w)
    (hl : P.lo = fun _ => -5) (hh : P.hi = fun _ => 5) {r : ℝ} (hp : ∀ i, -r ≤ p i ∧ p i ≤ r) : Spec.KnownIn r P w :=
  ⟨hl, hh, p, hv ▸ h, hp⟩

theorem fopt_ok (function inst : Nat) (hf : function < 10000) (hi : inst ≤ 10 ^ 10) :
    ∃ v, Legacy.computeFopt function inst = .ok v := by
  obtain ⟨v, e, -⟩ := Legacy.C45_fopt function inst (by omega) hi
  exact ⟨v, e⟩

theorem norm_cases (t : Template) : norm (n := n) t = [] ∨ norm (n := n) t = [.normByDim] := by
  unfold norm
  split_ifs
  · exact Or.inr rfl
  · exact Or.inl rfl

section
variable (t : Template) (function inst : Nat) (hf : function < 10000) (hi : inst ≤ 10 ^ 10) (seed : Int)
  (hs : ∀ k : Int, 0 ≤ k → k ≤ 10 ^ 7 → (seed + k).natAbs < 2 ^ 31 * 127773) (hn : 2 ≤ n)

include hf hi hs hn

theorem sphereProblem_known : ∃ P v, sphereProblem t function inst seed n = .ok P ∧
    Legacy.computeFopt function inst = .ok v ∧ Spec.KnownIn (Spec.reach t) P v := by
  obtain ⟨v, ev⟩ := fopt_ok function inst hf hi
  obtain ⟨x, ex, hx4, hx⟩ := getXopt_ok t seed (by simpa using hs 0 le_rfl (by norm_num)) n
  obtain ⟨P, eP, Q, eQ, hl, hh, ho⟩ := solved (f := sphere) (best := (0 : Vec n)) false hn (by simp [sphere])
    sphere_nonneg ([.varsShift x] ++ norm t ++ [.objShift v]) (by
      rcases norm_cases (n := n) t with e | e <;> rw [e] <;>
        simp [Transform.Spec.FitsAll, Transform.Spec.Fits, Transform.Spec.move, Transform.Spec.value] <;> omega)
  refine ⟨Q, v, ?_, ev, ?_⟩
  · unfold sphereProblem
    rw [ev, Res.ok_bind, ex, Res.ok_bind, eP, Res.ok_bind, eQ]
  · rcases norm_cases (n := n) t with e | e <;> rw [e] at ho <;>
      exact known_of ho (by simp [Transform.Spec.value]) hl hh
        (by intro i; simpa [Transform.Spec.move] using hx4 i)

theorem ellipsoidProblem_known : ∃ P v, ellipsoidProblem t function inst seed n = .ok P ∧
    Legacy.computeFopt function inst = .ok v ∧ Spec.KnownIn (Spec.reach t) P v := by
  obtain ⟨v, ev⟩ := fopt_ok function inst hf hi
  obtain ⟨x, ex, hx4, hx⟩ := getXopt_ok t seed (by simpa using hs 0 le_rfl (by norm_num)) n
  obtain ⟨P, eP, Q, eQ, hl, hh, ho⟩ := solved (f := ellipsoid (10 ^ 6)) (best := (0 : Vec n)) false hn
    (by simp [ellipsoid]) (ellipsoid_nonneg (by norm_num)) ([.oscillate, .varsShift x] ++ norm t ++ [.objShift v]) (by
      rcases norm_cases (n := n) t with e | e <;> rw [e] <;>
        simp [Transform.Spec.FitsAll, Transform.Spec.Fits, Transform.Spec.move, Transform.Spec.value] <;> omega)
  refine ⟨Q, v, ?_, ev, ?_⟩
  · unfold ellipsoidProblem
    rw [ev, Res.ok_bind, ex, Res.ok_bind, eP, Res.ok_bind, eQ]
  · rcases norm_cases (n := n) t with e | e <;> rw [e] at ho <;>
      exact known_of ho (by simp [Transform.Spec.value]) hl hh
        (by intro i; simpa [Transform.Spec.move] using hx4 i)

theorem rastriginProblem_known : ∃ P v, rastriginProblem t function inst seed n = .ok P ∧
    Legacy.computeFopt function inst = .ok v ∧ Spec.KnownIn (Spec.reach t) P v := by
  obtain ⟨v, ev⟩ := fopt_ok function inst hf hi
  obtain ⟨x, ex, hx4, hx⟩ := getXopt_ok t seed (by simpa using hs 0 le_rfl (by norm_num)) n
  have h1 : n ≠ 1 := by omega
  obtain ⟨P, eP, Q, eQ, hl, hh, ho⟩ := solved (f := rastrigin) (best := (0 : Vec n)) false hn rastrigin_zero
    rastrigin_nonneg ([.conditioning 10, .asymmetric 0.2, .oscillate, .varsShift x] ++ norm t ++ [.objShift v]) (by
      rcases norm_cases (n := n) t with e | e <;> rw [e] <;>
        simp [Transform.Spec.FitsAll, Transform.Spec.Fits, Transform.Spec.move, Transform.Spec.value, h1] <;> omega)
  refine ⟨Q, v, ?_, ev, ?_⟩
  · unfold rastriginProblem
    rw [ev, Res.ok_bind, ex, Res.ok_bind, eP, Res.ok_bind, eQ]
  · rcases norm_cases (n := n) t with e | e <;> rw [e] at ho <;>
      exact known_of ho (by simp [Transform.Spec.value]) hl hh
        (by intro i; simpa [Transform.Spec.move] using hx4 i)

theorem buecheProblem_known : ∃ P v, buecheProblem t function inst seed n = .ok P ∧
    Legacy.computeFopt function inst = .ok v ∧ Spec.KnownIn (Spec.reach t) P v := by
  obtain ⟨v, ev⟩ := fopt_ok function inst hf hi
  obtain ⟨x, ex, hx4, hx⟩ := getXopt_ok t seed (by simpa using hs 0 le_rfl (by norm_num)) n
  have h1 : n ≠ 1 := by omega
  have hy : ∀ i : Fin n, -5 ≤ (if i.1 % 2 = 0 then |x i| else x i) ∧ (if i.1 % 2 = 0 then |x i| else x i) ≤ 5 := by
    intro i
    split_ifs
    · exact ⟨by linarith [abs_nonneg (x i)], abs_le.mpr (hx i)⟩
    · exact hx i
  have hy4 : ∀ i : Fin n, -Spec.reach t ≤ (if i.1 % 2 = 0 then |x i| else x i) ∧
      (if i.1 % 2 = 0 then |x i| else x i) ≤ Spec.reach t := by
    intro i
    split_ifs
    · exact ⟨by linarith [abs_nonneg (x i), (reach_le t).1], abs_le.mpr (hx4 i)⟩
    · exact hx4 i
  obtain ⟨P, eP, Q, eQ, hl, hh, ho⟩ := solved (f := rastrigin) (best := (0 : Vec n)) false hn rastrigin_zero
    rastrigin_nonneg ([.brs, .oscillate, .varsShift fun i => if i.1 % 2 = 0 then |x i| else x i] ++ norm t ++
      [.objShift v, .penalize 100]) (by
      rcases norm_cases (n := n) t with e | e <;> rw [e] <;>
        simp [Transform.Spec.FitsAll, Transform.Spec.Fits, Transform.Spec.move, Transform.Spec.value, h1,
          show n ≠ 0 by omega] <;> first | exact hy | skip
      · exact ⟨by omega, hy⟩)
  refine ⟨Q, v, ?_, ev, ?_⟩
  · unfold buecheProblem
    rw [ev, Res.ok_bind, ex, Res.ok_bind]
    dsimp only
    rw [eP, Res.ok_bind, eQ]
  · rcases norm_cases (n := n) t with e | e <;> rw [e] at ho <;>
      exact known_of ho (by simp [Transform.Spec.value]) hl hh
        (by intro i; simpa [Transform.Spec.move] using hy4 i)

theorem linearSlopeProblem_known : ∃ P v, linearSlopeProblem t function inst seed n = .ok P ∧
    Legacy.computeFopt function inst = .ok v ∧ Spec.KnownIn 5 P v := by
  obtain ⟨v, ev⟩ := fopt_ok function inst hf hi
  obtain ⟨x, ex, hx4, hx⟩ := getXopt_ok t seed (by simpa using hs 0 le_rfl (by norm_num)) n
  have hb : ∀ i : Fin n, (if x i < 0 then (-5 : ℝ) else 5) = -5 ∨ (if x i < 0 then (-5 : ℝ) else 5) = 5 := by
    intro i
    split_ifs
    · exact Or.inl rfl
    · exact Or.inr rfl
  obtain ⟨P, eP, Q, eQ, hl, hh, ho⟩ := solved (f := linearSlope fun i => if x i < 0 then -5 else 5)
    (best := fun i : Fin n => if x i < 0 then -5 else 5) false hn (linearSlope_best _ hb)
    (linearSlope_nonneg _ hb) (norm t ++ [.objShift v]) (by
      rcases norm_cases (n := n) t with e | e <;> rw [e] <;>
        simp [Transform.Spec.FitsAll, Transform.Spec.Fits, Transform.Spec.move, Transform.Spec.value] <;> omega)
  refine ⟨Q, v, ?_, ev, ?_⟩
  · unfold linearSlopeProblem
    rw [ex, Res.ok_bind, ev, Res.ok_bind]
    dsimp only
    rw [eP, Res.ok_bind, eQ]
  · rcases norm_cases (n := n) t with e | e <;> rw [e] at ho <;>
      refine known_of ho (by simp [Transform.Spec.value]) hl hh fun i => ?_ <;>
      simp only [List.nil_append, List.cons_append, List.foldl_cons, List.foldl_nil, Transform.Spec.move] <;>
      rcases hb i with h | h <;> rw [h] <;> norm_num

theorem rosenbrockProblem_known : ∃ P v, rosenbrockProblem t function inst seed n = .ok P ∧
    Legacy.computeFopt function inst = .ok v ∧ Spec.KnownIn (Spec.reach t) P v := by
  obtain ⟨v, ev⟩ := fopt_ok function inst hf hi
  obtain ⟨x, ex, hx4, hx⟩ := getXopt_ok t seed (by simpa using hs 0 le_rfl (by norm_num)) n
  obtain ⟨P, eP, Q, eQ, hl, hh, ho⟩ := solved (f := rosenbrock) (best := fun _ : Fin n => 1) true hn rosenbrock_one
    rosenbrock_nonneg ([.varsShift fun _ => -1,
      .varsScale (max 1 (Real.sqrt (if t = .largescale then Rotation.blockSize n else n : Nat) / 8)),
      .varsShift fun i => x i * 0.75] ++ norm t ++ [.objShift v]) (by
      have hne : max 1 (Real.sqrt (if t = .largescale then Rotation.blockSize n else n : Nat) / 8) ≠ 0 :=
        (lt_of_lt_of_le one_pos (le_max_left _ _)).ne'
      rcases norm_cases (n := n) t with e | e <;> rw [e] <;>
        simp only [List.nil_append, List.cons_append, Transform.Spec.FitsAll, Transform.Spec.Fits,
          Transform.Spec.value]
      · exact ⟨trivial, hne, trivial, trivial, trivial⟩
      · exact ⟨trivial, hne, trivial, ⟨by omega, Or.inr trivial⟩, trivial, trivial⟩)
  refine ⟨Q, v, ?_, ev, ?_⟩
  · unfold rosenbrockProblem
    rw [ex, Res.ok_bind]
    dsimp only
    rw [ev, Res.ok_bind, eP, Res.ok_bind, eQ]
  · rcases norm_cases (n := n) t with e | e <;> rw [e] at ho <;>
      refine known_of ho (by simp [Transform.Spec.value]) hl hh fun i => ?_ <;>
      simp only [List.nil_append, List.cons_append, List.foldl_cons, List.foldl_nil, Transform.Spec.move] <;>
      have := hx4 i <;> have := reach_le t <;> constructor <;> norm_num <;> linarith

omit hf hi hs hn in
theorem fun_zero : (fun _ : Fin n => (0 : ℝ)) = 0 := rfl

variable (hn' : n ≤ 44) (hr : Spec.Regular seed n ∧ Spec.Regular (seed + 1000000) n)

include hn' hr

theorem attractiveSectorProblem_known : ∃ P v, attractiveSectorProblem t function inst seed n = .ok P ∧
    Legacy.computeFopt function inst = .ok v ∧ Spec.KnownIn (Spec.reach t) P v := by
  obtain ⟨v, ev⟩ := fopt_ok function inst hf hi
  obtain ⟨x, ex, hx4, hx⟩ := getXopt_ok t seed (by simpa using hs 0 le_rfl (by norm_num)) n
  obtain ⟨M, eM, -⟩ := rotation_ok (seed + 1000000) (hs 1000000 (by norm_num) (by norm_num)) n hn' hr.2
  obtain ⟨N, eN, -⟩ := rotation_ok seed (by simpa using hs 0 le_rfl (by norm_num)) n hn' hr.1
  have h1 : n ≠ 1 := by omega
  obtain ⟨P, eP, Q, eQ, hl, hh, ho⟩ := solved (f := attractiveSector x) (best := (0 : Vec n)) false hn (by simp [attractiveSector])
    (attractiveSector_nonneg x)
    [.objOscillate, .objPower 0.9, .objShift v, .affine (product M (Real.sqrt 10) N) 0,
      .varsShift x] (by
      simp only [Transform.Spec.FitsAll, Transform.Spec.Fits, Transform.Spec.move, Transform.Spec.value]
      simp [h1, fun_zero, tosz_zero]; try norm_num)
  refine ⟨Q, v, ?_, ev, ?_⟩
  · unfold attractiveSectorProblem
    rw [ev, Res.ok_bind, ex, Res.ok_bind, eM, Res.ok_bind, eN, Res.ok_bind, eP, Res.ok_bind, eQ]
  · refine known_of ho (by simp [Transform.Spec.value, tosz_zero]; try norm_num) hl hh ?_
    intro i; simpa [Transform.Spec.move] using hx4 i

theorem rotatedEllipsoidProblem_known (c : ℝ) (hc : 0 ≤ c) : ∃ P v, rotatedEllipsoidProblem t function inst seed c n = .ok P ∧
    Legacy.computeFopt function inst = .ok v ∧ Spec.KnownIn (Spec.reach t) P v := by
  obtain ⟨v, ev⟩ := fopt_ok function inst hf hi
  obtain ⟨x, ex, hx4, hx⟩ := getXopt_ok t seed (by simpa using hs 0 le_rfl (by norm_num)) n
  obtain ⟨M, eM, -⟩ := rotation_ok (seed + 1000000) (hs 1000000 (by norm_num) (by norm_num)) n hn' hr.2
  have h1 : n ≠ 1 := by omega
  obtain ⟨P, eP, Q, eQ, hl, hh, ho⟩ := solved (f := ellipsoid c) (best := (0 : Vec n)) false hn (by simp [ellipsoid])
    (ellipsoid_nonneg hc)
    [.oscillate, .affine M 0, .varsShift x, .objShift v] (by
      simp only [Transform.Spec.FitsAll, Transform.Spec.Fits, Transform.Spec.move, Transform.Spec.value]
      simp [h1, fun_zero, tosz_zero]; try norm_num)
  refine ⟨Q, v, ?_, ev, ?_⟩
  · unfold rotatedEllipsoidProblem
    rw [ev, Res.ok_bind, ex, Res.ok_bind, eM, Res.ok_bind, eP, Res.ok_bind, eQ]
  · refine known_of ho (by simp [Transform.Spec.value, tosz_zero]; try norm_num) hl hh ?_
    intro i; simpa [Transform.Spec.move] using hx4 i

theorem discusProblem_known : ∃ P v, discusProblem t function inst seed n = .ok P ∧
    Legacy.computeFopt function inst = .ok v ∧ Spec.KnownIn (Spec.reach t) P v := by
  obtain ⟨v, ev⟩ := fopt_ok function inst hf hi
  obtain ⟨x, ex, hx4, hx⟩ := getXopt_ok t seed (by simpa using hs 0 le_rfl (by norm_num)) n
  obtain ⟨M, eM, -⟩ := rotation_ok (seed + 1000000) (hs 1000000 (by norm_num) (by norm_num)) n hn' hr.2
  have h1 : n ≠ 1 := by omega
  obtain ⟨P, eP, Q, eQ, hl, hh, ho⟩ := solved (f := discus) (best := (0 : Vec n)) false hn (by simp [discus])
    discus_nonneg
    [.oscillate, .affine M 0, .varsShift x, .objShift v] (by
      simp only [Transform.Spec.FitsAll, Transform.Spec.Fits, Transform.Spec.move, Transform.Spec.value]
      simp [h1, fun_zero, tosz_zero]; try norm_num)
  refine ⟨Q, v, ?_, ev, ?_⟩
  · unfold discusProblem
    rw [ev, Res.ok_bind, ex, Res.ok_bind, eM, Res.ok_bind, eP, Res.ok_bind, eQ]
  · refine known_of ho (by simp [Transform.Spec.value, tosz_zero]; try norm_num) hl hh ?_
    intro i; simpa [Transform.Spec.move] using hx4 i

theorem bentCigarProblem_known : ∃ P v, bentCigarProblem t function inst seed n = .ok P ∧
    Legacy.computeFopt function inst = .ok v ∧ Spec.KnownIn (Spec.reach t) P v := by
  obtain ⟨v, ev⟩ := fopt_ok function inst hf hi
  obtain ⟨x, ex, hx4, hx⟩ := getXopt_ok t (seed + 1000000) (hs 1000000 (by norm_num) (by norm_num)) n
  obtain ⟨M, eM, -⟩ := rotation_ok (seed + 1000000) (hs 1000000 (by norm_num) (by norm_num)) n hn' hr.2
  have h1 : n ≠ 1 := by omega
  obtain ⟨P, eP, Q, eQ, hl, hh, ho⟩ := solved (f := bentCigar) (best := (0 : Vec n)) false hn (by simp [bentCigar])
    bentCigar_nonneg
    [.objShift v, .affine M 0, .asymmetric 0.5, .affine M 0, .varsShift x] (by
      simp only [Transform.Spec.FitsAll, Transform.Spec.Fits, Transform.Spec.move, Transform.Spec.value]
      simp [h1, fun_zero, tosz_zero]; try norm_num)
  refine ⟨Q, v, ?_, ev, ?_⟩
  · unfold bentCigarProblem
    rw [ev, Res.ok_bind, ex, Res.ok_bind, eM, Res.ok_bind, eP, Res.ok_bind, eQ]
  · refine known_of ho (by simp [Transform.Spec.value, tosz_zero]; try norm_num) hl hh ?_
    intro i; simpa [Transform.Spec.move] using hx4 i

theorem sharpRidgeProblem_known : ∃ P v, sharpRidgeProblem t function inst seed n = .ok P ∧
    Legacy.computeFopt function inst = .ok v ∧ Spec.KnownIn (Spec.reach t) P v := by
  obtain ⟨v, ev⟩ := fopt_ok function inst hf hi
  obtain ⟨x, ex, hx4, hx⟩ := getXopt_ok t seed (by simpa using hs 0 le_rfl (by norm_num)) n
  obtain ⟨M, eM, -⟩ := rotation_ok (seed + 1000000) (hs 1000000 (by norm_num) (by norm_num)) n hn' hr.2
  obtain ⟨N, eN, -⟩ := rotation_ok seed (by simpa using hs 0 le_rfl (by norm_num)) n hn' hr.1
  have h1 : n ≠ 1 := by omega
  obtain ⟨P, eP, Q, eQ, hl, hh, ho⟩ := solved (f := sharpRidge) (best := (0 : Vec n)) true hn (by simp [sharpRidge])
    sharpRidge_nonneg
    [.objShift v, .affine (product M (Real.sqrt 10) N) 0, .varsShift x] (by
      simp only [Transform.Spec.FitsAll, Transform.Spec.Fits, Transform.Spec.move, Transform.Spec.value]
      simp [h1, fun_zero, tosz_zero]; try norm_num)
  refine ⟨Q, v, ?_, ev, ?_⟩
  · unfold sharpRidgeProblem
    rw [ev, Res.ok_bind, ex, Res.ok_bind, eM, Res.ok_bind, eN, Res.ok_bind, eP, Res.ok_bind, eQ]
  · refine known_of ho (by simp [Transform.Spec.value, tosz_zero]; try norm_num) hl hh ?_
    intro i; simpa [Transform.Spec.move] using hx4 i

theorem differentPowersProblem_known : ∃ P v, differentPowersProblem t function inst seed n = .ok P ∧
    Legacy.computeFopt function inst = .ok v ∧ Spec.KnownIn (Spec.reach t) P v := by
  obtain ⟨v, ev⟩ := fopt_ok function inst hf hi
  obtain ⟨x, ex, hx4, hx⟩ := getXopt_ok t seed (by simpa using hs 0 le_rfl (by norm_num)) n
  obtain ⟨M, eM, -⟩ := rotation_ok (seed + 1000000) (hs 1000000 (by norm_num) (by norm_num)) n hn' hr.2
  have h1 : n ≠ 1 := by omega
  obtain ⟨P, eP, Q, eQ, hl, hh, ho⟩ := solved (f := differentPowers) (best := (0 : Vec n)) false hn (differentPowers_zero hn)
    (fun x => Real.sqrt_nonneg _)
    [.objShift v, .affine M 0, .varsShift x] (by
      simp only [Transform.Spec.FitsAll, Transform.Spec.Fits, Transform.Spec.move, Transform.Spec.value]
      simp [h1, fun_zero, tosz_zero]; try norm_num)
  refine ⟨Q, v, ?_, ev, ?_⟩
  · unfold differentPowersProblem
    rw [ev, Res.ok_bind, ex, Res.ok_bind, eM, Res.ok_bind, eP, Res.ok_bind, eQ]
  · refine known_of ho (by simp [Transform.Spec.value, tosz_zero]; try norm_num) hl hh ?_
    intro i; simpa [Transform.Spec.move] using hx4 i

theorem rotatedRastriginProblem_known : ∃ P v, rotatedRastriginProblem t function inst seed n = .ok P ∧
    Legacy.computeFopt function inst = .ok v ∧ Spec.KnownIn (Spec.reach t) P v := by
  obtain ⟨v, ev⟩ := fopt_ok function inst hf hi
  obtain ⟨x, ex, hx4, hx⟩ := getXopt_ok t seed (by simpa using hs 0 le_rfl (by norm_num)) n
  obtain ⟨M, eM, -⟩ := rotation_ok (seed + 1000000) (hs 1000000 (by norm_num) (by norm_num)) n hn' hr.2
  obtain ⟨N, eN, -⟩ := rotation_ok seed (by simpa using hs 0 le_rfl (by norm_num)) n hn' hr.1
  have h1 : n ≠ 1 := by omega
  obtain ⟨P, eP, Q, eQ, hl, hh, ho⟩ := solved (f := rastrigin) (best := (0 : Vec n)) false hn rastrigin_zero
    rastrigin_nonneg
    [.objShift v, .affine (product M (Real.sqrt 10) N) 0, .asymmetric 0.2, .oscillate, .affine M 0,
      .varsShift x] (by
      simp only [Transform.Spec.FitsAll, Transform.Spec.Fits, Transform.Spec.move, Transform.Spec.value]
      simp [h1, fun_zero, tosz_zero]; try norm_num)
  refine ⟨Q, v, ?_, ev, ?_⟩
  · unfold rotatedRastriginProblem
    rw [ev, Res.ok_bind, ex, Res.ok_bind, eM, Res.ok_bind, eN, Res.ok_bind, eP, Res.ok_bind, eQ]
  · refine known_of ho (by simp [Transform.Spec.value, tosz_zero]; try norm_num) hl hh ?_
    intro i; simpa [Transform.Spec.move] using hx4 i

theorem weierstrassProblem_known : ∃ P v, weierstrassProblem t function inst seed n = .ok P ∧
    Legacy.computeFopt function inst = .ok v ∧ Spec.KnownIn (Spec.reach t) P v := by
  obtain ⟨v, ev⟩ := fopt_ok function inst hf hi
  obtain ⟨x, ex, hx4, hx⟩ := getXopt_ok t seed (by simpa using hs 0 le_rfl (by norm_num)) n
  obtain ⟨M, eM, -⟩ := rotation_ok (seed + 1000000) (hs 1000000 (by norm_num) (by norm_num)) n hn' hr.2
  obtain ⟨N, eN, -⟩ := rotation_ok seed (by simpa using hs 0 le_rfl (by norm_num)) n hn' hr.1
  have h1 : n ≠ 1 := by omega
  obtain ⟨P, eP, Q, eQ, hl, hh, ho⟩ := solved (f := weierstrass) (best := (0 : Vec n)) false hn (weierstrass_zero hn)
    (weierstrass_nonneg hn)
    [.objShift v, .affine (product M (1 / Real.sqrt 100) N) 0, .oscillate, .affine M 0,
      .varsShift x, .penalize (10 / n)] (by
      simp only [Transform.Spec.FitsAll, Transform.Spec.Fits, Transform.Spec.move, Transform.Spec.value]
      simp [h1, fun_zero, tosz_zero, hx]; try positivity; try norm_num)
  refine ⟨Q, v, ?_, ev, ?_⟩
  · unfold weierstrassProblem
    rw [ev, Res.ok_bind, ex, Res.ok_bind, eM, Res.ok_bind, eN, Res.ok_bind, eP, Res.ok_bind, eQ]
  · refine known_of ho (by simp [Transform.Spec.value, tosz_zero]; try norm_num) hl hh ?_
    intro i; simpa [Transform.Spec.move] using hx4 i

theorem katsuuraProblem_known : ∃ P v, katsuuraProblem t function inst seed n = .ok P ∧
    Legacy.computeFopt function inst = .ok v ∧ Spec.KnownIn (Spec.reach t) P v := by
  obtain ⟨v, ev⟩ := fopt_ok function inst hf hi
  obtain ⟨x, ex, hx4, hx⟩ := getXopt_ok t seed (by simpa using hs 0 le_rfl (by norm_num)) n
  obtain ⟨M, eM, -⟩ := rotation_ok (seed + 1000000) (hs 1000000 (by norm_num) (by norm_num)) n hn' hr.2
  obtain ⟨N, eN, -⟩ := rotation_ok seed (by simpa using hs 0 le_rfl (by norm_num)) n hn' hr.1
  have h1 : n ≠ 1 := by omega
  obtain ⟨P, eP, Q, eQ, hl, hh, ho⟩ := solved (f := katsuura) (best := (0 : Vec n)) false hn katsuura_zero
    katsuura_nonneg
    [.objShift v, .affine (product M (Real.sqrt 100) N) 0, .varsShift x, .penalize 1] (by
      simp only [Transform.Spec.FitsAll, Transform.Spec.Fits, Transform.Spec.move, Transform.Spec.value]
      simp [h1, fun_zero, tosz_zero, hx]; try positivity; try norm_num)
  refine ⟨Q, v, ?_, ev, ?_⟩
  · unfold katsuuraProblem
    rw [ev, Res.ok_bind, ex, Res.ok_bind, eM, Res.ok_bind, eN, Res.ok_bind, eP, Res.ok_bind, eQ]
  · refine known_of ho (by simp [Transform.Spec.value, tosz_zero]; try norm_num) hl hh ?_
    intro i; simpa [Transform.Spec.move] using hx4 i

theorem schaffersProblem_known (c d : ℝ) (hd : 0 ≤ d) : ∃ P v, schaffersProblem t function inst seed c d n = .ok P ∧
    Legacy.computeFopt function inst = .ok v ∧ Spec.KnownIn (Spec.reach t) P v := by
  obtain ⟨v, ev⟩ := fopt_ok function inst hf hi
  obtain ⟨x, ex, hx4, hx⟩ := getXopt_ok t seed (by simpa using hs 0 le_rfl (by norm_num)) n
  obtain ⟨M, eM, -⟩ := rotation_ok (seed + 1000000) (hs 1000000 (by norm_num) (by norm_num)) n hn' hr.2
  obtain ⟨N, eN, -⟩ := rotation_ok seed (by simpa using hs 0 le_rfl (by norm_num)) n hn' hr.1
  have h1 : n ≠ 1 := by omega
  obtain ⟨P, eP, Q, eQ, hl, hh, ho⟩ := solved (f := schaffers) (best := (0 : Vec n)) true hn schaffers_zero
    (fun x => sq_nonneg _)
    [.objShift v, .affine (fun i j => N i j * Real.sqrt c ^ ((i : ℝ) / ((n : ℝ) - 1))) 0,
      .asymmetric 0.5, .affine M 0, .varsShift x, .penalize d] (by
      simp only [Transform.Spec.FitsAll, Transform.Spec.Fits, Transform.Spec.move, Transform.Spec.value]
      simp [h1, fun_zero, tosz_zero, hx, hd]; try positivity; try norm_num)
  refine ⟨Q, v, ?_, ev, ?_⟩
  · unfold schaffersProblem
    rw [ev, Res.ok_bind, ex, Res.ok_bind, eM, Res.ok_bind, eN, Res.ok_bind, eP, Res.ok_bind, eQ]
  · refine known_of ho (by simp [Transform.Spec.value, tosz_zero]; try norm_num) hl hh ?_
    intro i; simpa [Transform.Spec.move] using hx4 i

theorem stepEllipsoidProblem_known (c : ℝ) (hc : 0 ≤ c) : ∃ P v, stepEllipsoidProblem t function inst seed c n = .ok P ∧
    Legacy.computeFopt function inst = .ok v ∧ Spec.KnownIn (Spec.reach t) P v := by
  obtain ⟨v, ev⟩ := fopt_ok function inst hf hi
  obtain ⟨x, ex, hx4, hx⟩ := getXopt_ok t seed (by simpa using hs 0 le_rfl (by norm_num)) n
  obtain ⟨M, eM, -⟩ := rotation_ok (seed + 1000000) (hs 1000000 (by norm_num) (by norm_num)) n hn' hr.2
  obtain ⟨N, eN, -⟩ := rotation_ok seed (by simpa using hs 0 le_rfl (by norm_num)) n hn' hr.1
  refine ⟨_, v, by unfold stepEllipsoidProblem; rw [ev, Res.ok_bind, ex, Res.ok_bind, eM, Res.ok_bind, eN, Res.ok_bind],
    ev, rfl, rfl, x, ⟨rfl, rfl, ?_, fun y => ?_⟩, hx4⟩
  · dsimp only
    rw [dif_pos (by omega), stepEllipsoid_best _ x v c M N hx, check_ok le_rfl]
  · have h := stepEllipsoid_ge (⟨0, by omega⟩ : Fin n) x v c hc M N y
    refine ⟨_, ?_, h⟩
    dsimp only
    rw [dif_pos (by omega), check_ok h]

theorem lunacekProblem_known : ∃ P v, lunacekProblem t function inst seed n = .ok P ∧
    Legacy.computeFopt function inst = .ok v ∧ Spec.KnownIn (Spec.reach t) P v := by
  obtain ⟨v, ev⟩ := fopt_ok function inst hf hi
  obtain ⟨x, ex, hx4, hx⟩ := getXopt_ok t seed (by simpa using hs 0 le_rfl (by norm_num)) n
  obtain ⟨M, eM, -⟩ := rotation_ok (seed + 1000000) (hs 1000000 (by norm_num) (by norm_num)) n hn' hr.2
  obtain ⟨N, eN, -⟩ := rotation_ok seed (by simpa using hs 0 le_rfl (by norm_num)) n hn' hr.1
  obtain ⟨us, -, -, -, eg⟩ := Legacy.gauss_ok n (by omega) seed (by simpa using hs 0 le_rfl (by norm_num))
  generalize (List.range n).map (fun i => Legacy.gaussNumber ((us.getD i 0 : ℚ) : ℝ) ((us.getD (n + i) 0 : ℚ) : ℝ))
    = g at eg
  have hb : ∀ i : Fin n, (fun i : Fin n => if g.getD i 0 < 0 then (0.5 * 2.5 * -1 : ℝ) else 0.5 * 2.5) i = -1.25 ∨
      (fun i : Fin n => if g.getD i 0 < 0 then (0.5 * 2.5 * -1 : ℝ) else 0.5 * 2.5) i = 1.25 := by
    intro i
    dsimp only
    split_ifs
    · left; norm_num
    · right; norm_num
  generalize hbest : (fun i : Fin n => if g.getD i 0 < 0 then (0.5 * 2.5 * -1 : ℝ) else 0.5 * 2.5) = best at hb
  obtain ⟨P, eP, Q, eQ, hl, hh, ho⟩ := solved (f := lunacek best M N) (best := best) true hn (lunacek_best hn best hb M N)
    (lunacek_nonneg hn best M N) [.objShift v] ⟨trivial, trivial⟩
  refine ⟨Q, v, ?_, ev, ?_⟩
  · unfold lunacekProblem
    rw [ex, Res.ok_bind, eM, Res.ok_bind, eN, Res.ok_bind, eg, Res.ok_bind, hbest]
    dsimp only
    rw [eP, Res.ok_bind, ev, Res.ok_bind, eQ]
  · refine known_of ho (by simp [Transform.Spec.value]) hl hh ?_
    intro i
    show -Spec.reach t ≤ best i ∧ best i ≤ Spec.reach t
    have := reach_le t
    rcases hb i with e | e <;> rw [e] <;> constructor <;> norm_num <;> linarith

theorem gallagherProblem_known (peaks : Nat) (hp : peaks = 101 ∨ peaks = 21) (d : ℝ) (hd : 0 ≤ d) :
    ∃ P v, gallagherProblem t function inst seed peaks d n = .ok P ∧
    Legacy.computeFopt function inst = .ok v ∧ Spec.KnownIn (Spec.reach t) P v := by
  obtain ⟨v, ev⟩ := fopt_ok function inst hf hi
  have hs0 : seed.natAbs < 2 ^ 31 * 127773 := by simpa using hs 0 le_rfl (by norm_num)
  obtain ⟨N, eN, -⟩ := rotation_ok seed hs0 n hn' hr.1
  obtain ⟨us, eu, -, -⟩ := Legacy.C44_range (peaks - 1) seed hs0
  obtain ⟨rs, er, hlr, hrs⟩ := Legacy.C44_range (n * peaks) seed hs0
  have hsel : ∃ m b c : ℝ, 0 ≤ m ∧ 0 < b ∧ b = 2 * c ∧ c ≤ 5 ∧ (if peaks = 101 then Res.ok ((Real.sqrt 1000, 10, 5) : ℝ × ℝ × ℝ)
      else if peaks = 21 then Res.ok ((1000, 9.8, 4.9) : ℝ × ℝ × ℝ) else Res.error) = .ok (m, b, c) := by
    rcases hp with rfl | rfl
    · exact ⟨Real.sqrt 1000, 10, 5, Real.sqrt_nonneg _, by norm_num, by norm_num, by norm_num, if_pos rfl⟩
    · exact ⟨1000, 9.8, 4.9, by norm_num, by norm_num, by norm_num, by norm_num, by rw [if_neg (by omega), if_pos rfl]⟩
  obtain ⟨m, b, c, hm, hb, hbc, hc, esel⟩ := hsel
  obtain ⟨scales, es, hsc⟩ := allScales_ok seed
    (fun i => if i = 0 then m else (1000 : ℝ) ^ (((order us).getD (i - 1) 0 : ℝ) / ((peaks : ℝ) - 2)))
    (fun i => by split_ifs; exacts [hm, Real.rpow_nonneg (by norm_num) _]) n peaks
    (fun i h => hs _ (by omega) (by omega)) peaks 0 (by omega)
  have hpr : (21 : ℝ) ≤ peaks := by rcases hp with rfl | rfl <;> norm_num
  have hpos : 0 < peaks := by omega
  have hfac : (0 : ℝ) ≤ (if t = .boxed then (1 : ℝ) else 0.8) ∧ (if t = .boxed then (1 : ℝ) else 0.8) ≤ 1 := by
    split_ifs <;> norm_num
  generalize hfacdef : (if t = .boxed then (1 : ℝ) else 0.8) = factor at hfac
  have hnum : ∀ i : Fin n, 0 < ((rs.getD i 0 : ℚ) : ℝ) ∧ ((rs.getD i 0 : ℚ) : ℝ) < 1 := by
    intro i
    have hlt : i.1 < rs.length := by
      rw [hlr]
      exact lt_of_lt_of_le i.2 (Nat.le_mul_of_pos_right n hpos)
    rw [List.getD_eq_getElem _ _ hlt]
    obtain ⟨h1, h2⟩ := hrs _ (List.getElem_mem hlt)
    exact ⟨by exact_mod_cast h1, by exact_mod_cast h2⟩
  have hbest : ∀ i : Fin n, -5 ≤ factor * (b * ((rs.getD i 0 : ℚ) : ℝ) - c) ∧
      factor * (b * ((rs.getD i 0 : ℚ) : ℝ) - c) ≤ 5 := by
    intro i
    obtain ⟨h1, h2⟩ := hnum i
    have h3 : -5 ≤ b * ((rs.getD i 0 : ℚ) : ℝ) - c := by nlinarith
    have h4 : b * ((rs.getD i 0 : ℚ) : ℝ) - c ≤ 5 := by nlinarith
    constructor <;> nlinarith [hfac.1, hfac.2]
  have hbest4 : ∀ i : Fin n, -Spec.reach t ≤ factor * (b * ((rs.getD i 0 : ℚ) : ℝ) - c) ∧
      factor * (b * ((rs.getD i 0 : ℚ) : ℝ) - c) ≤ Spec.reach t := by
    intro i
    obtain ⟨h1, h2⟩ := hnum i
    have h3 : -5 ≤ b * ((rs.getD i 0 : ℚ) : ℝ) - c := by nlinarith
    have h4 : b * ((rs.getD i 0 : ℚ) : ℝ) - c ≤ 5 := by nlinarith
    have h5 : factor * 5 = Spec.reach t := by
      rw [← hfacdef]
      unfold Spec.reach
      split_ifs <;> norm_num
    constructor <;> nlinarith [hfac.1, hfac.2]
  have hscale : ∀ i j, 0 ≤ (scales.getD i 0 : Vec n) j := by
    intro i j
    by_cases h : i < scales.length
    · rw [List.getD_eq_getElem _ _ h]
      exact hsc _ (List.getElem_mem h) j
    · rw [List.getD_eq_default _ _ (by omega)]
      exact le_rfl
  obtain ⟨g0, g1⟩ := gallagher_spec
    (⟨peaks, N, fun j i => if j = 0 then (∑ k : Fin n, N i k * (b * ((rs.getD (j * n + k) 0 : ℚ) : ℝ) - c)) * factor
        else ∑ k : Fin n, N i k * (b * ((rs.getD (j * n + k) 0 : ℚ) : ℝ) - c), fun i => scales.getD i 0,
        fun i => if i = 0 then 10 else ((i : ℝ) - 1) / ((peaks : ℝ) - 2) * (9.1 - 1.1) + 1.1, d⟩ : Peaks n)
    (fun i => factor * (b * ((rs.getD i 0 : ℚ) : ℝ) - c)) hbest hpos hscale (by simp) (by
      intro i hip
      dsimp only at hip ⊢
      split_ifs with h0
      · norm_num
      · have h1 : (1 : ℝ) ≤ i := by exact_mod_cast Nat.one_le_iff_ne_zero.2 h0
        have h2 : (i : ℝ) + 1 ≤ peaks := by exact_mod_cast hip
        have h3 : 0 ≤ ((i : ℝ) - 1) / ((peaks : ℝ) - 2) := div_nonneg (by linarith) (by linarith)
        have h4 : ((i : ℝ) - 1) / ((peaks : ℝ) - 2) ≤ 1 := (div_le_one (by linarith)).2 (by linarith)
        constructor <;> nlinarith) hd (by
      intro i
      simp only [if_true, Nat.zero_mul, Nat.zero_add]
      rw [Finset.sum_mul]
      exact Finset.sum_congr rfl fun k _ => by ring)
  obtain ⟨P, eP, Q, eQ, hl, hh, ho⟩ := solved false hn g0 g1 [.objShift v] ⟨trivial, trivial⟩
  refine ⟨Q, v, ?_, ev, ?_⟩
  · unfold gallagherProblem
    rw [esel, Res.ok_bind]
    dsimp only
    rw [eN, Res.ok_bind, eu, Res.ok_bind, es, Res.ok_bind, er, Res.ok_bind, hfacdef, eP, Res.ok_bind, ev, Res.ok_bind, eQ]
  · exact known_of ho (by simp [Transform.Spec.value]) hl hh hbest4

omit hi hf in
theorem rotatedRosenbrockProblem_known (hf : function < 10000) (hi : inst ≤ 10 ^ 10) :
    ∃ P v, rotatedRosenbrockProblem function inst seed n = .ok P ∧
    Legacy.computeFopt function inst = .ok v ∧ Spec.KnownIn 4 P v := by
  obtain ⟨v, ev⟩ := fopt_ok function inst hf hi
  obtain ⟨M, eM, hM, hM'⟩ := rotation_ok seed (by simpa using hs 0 le_rfl (by norm_num)) n hn' hr.1
  obtain ⟨P, eP, R, eR, hl, hh, ho⟩ := solved (f := rosenbrock) (best := fun _ : Fin n => (1 : ℝ)) true hn rosenbrock_one
    rosenbrock_nonneg [] trivial
  have hPR : P = R := Res.ok.inj eR
  subst hPR
  have h1 : Transform.Spec.Optimal { affine M (fun _ => 0.5) { P with bestParam := some 0 } with
      bestParam := some fun j => (∑ i, M i j) / 2 } (fun j => (∑ i, M i j) / 2) 0 := by
    refine optimal_vars ho (affineMap M fun _ => 0.5) rfl rfl (fun x => rfl) ?_
    funext i
    show (0.5 : ℝ) + _ = 1
    rw [row_product hM i]
    norm_num
  obtain ⟨Q, eQ, hQl, hQh, hQ⟩ := create_optimal (.objShift v) _ _ _ h1 trivial
  have hQ' := Res.ok.inj eQ
  refine ⟨_, v, ?_, ev, known_of hQ ?_ (hQl.trans hl) (hQh.trans hh) (column_sum_bound hn' hM')⟩
  · unfold rotatedRosenbrockProblem
    rw [ev, Res.ok_bind, eM, Res.ok_bind, factor_eq_one hn', eP, Res.ok_bind]
    simp only [one_mul, mul_one]
    rw [← eQ]
    rfl
  · simp [Transform.Spec.value]

omit hi hf in
theorem griewankRosenbrockProblem_known (hf : function < 10000) (hi : inst ≤ 10 ^ 10) (c : ℝ) (hc : 0 ≤ c) :
    ∃ P v, griewankRosenbrockProblem function inst seed c n = .ok P ∧
    Legacy.computeFopt function inst = .ok v ∧ Spec.KnownIn 4 P v := by
  obtain ⟨v, ev⟩ := fopt_ok function inst hf hi
  obtain ⟨M, eM, hM, hM'⟩ := rotation_ok seed (by simpa using hs 0 le_rfl (by norm_num)) n hn' hr.1
  obtain ⟨P, eP, R, eR, hl, hh, ho⟩ := solved (f := griewankRosenbrock c) (best := fun _ : Fin n => (1 : ℝ)) false hn
    (griewankRosenbrock_one c hn) (griewankRosenbrock_nonneg hc hn) [.objShift v, .varsShift fun _ => -0.5]
    ⟨trivial, trivial, trivial⟩
  have h1 : Transform.Spec.Optimal { affine M 0 { R with bestParam := some 0 } with
      bestParam := some fun j => (∑ i, M i j) / 2 } (fun j => (∑ i, M i j) / 2) (0 + v) := by
    refine optimal_vars ho (affineMap M 0) rfl rfl (fun x => rfl) ?_
    funext i
    show (0 : ℝ) + _ = 1 + -0.5
    rw [row_product hM i]
    norm_num
  refine ⟨_, v, ?_, ev, known_of h1 (zero_add v) hl hh (column_sum_bound hn' hM')⟩
  · unfold griewankRosenbrockProblem
    rw [ev, Res.ok_bind, eM, Res.ok_bind, factor_eq_one hn', eP, Res.ok_bind]
    dsimp only
    simp only [mul_one]
    rw [eR, Res.ok_bind]
    rfl

end

/-! ### The theorem -/

/-- C85: for every function but Schwefel's (number 20), every instance and every dimension from 2 on, the problem of
the suite (with the name template of any of the suites) can be created, its recorded best parameter lies in
`[-4, 4]` (in the sbox-cost suite and for the linear slope, number 5, in `[-5, 5]`) in every coordinate and has the recorded best value, which is the value computed from function and instance,
and every point can be evaluated and has no smaller value. The functions with rotation matrices need at most 44
variables (otherwise see `C85_too_large`) and regular random matrices. -/
theorem C85_optimum (t : Template) (function inst n : Nat) (h1 : 1 ≤ function) (hf : function ≤ 24)
    (h20 : function ≠ 20) (hi : inst ≤ 10 ^ 10) (hn : 2 ≤ n)
    (hr : Spec.Rotated function → n ≤ 44 ∧ Spec.Regular (Spec.seed function inst) n ∧
      Spec.Regular (Spec.seed function inst + 1000000) n) :
    ∃ P v, get t function inst n = .ok P ∧ Legacy.computeFopt function inst = .ok v ∧
      Spec.KnownIn (if function = 5 then 5 else Spec.reach t) P v := by
  have hs := fun k h0 hk => seed_small (function := function) hf hi k h0 hk
  unfold Spec.Rotated at hr
  interval_cases function
  · exact sphereProblem_known t 1 inst (by norm_num) hi _ hs hn
  · exact ellipsoidProblem_known t 2 inst (by norm_num) hi _ hs hn
  · exact rastriginProblem_known t 3 inst (by norm_num) hi _ hs hn
  · exact buecheProblem_known t 4 inst (by norm_num) hi _ hs hn
  · exact linearSlopeProblem_known t 5 inst (by norm_num) hi _ hs hn
  · obtain ⟨a, b⟩ := hr (by omega)
    exact attractiveSectorProblem_known t 6 inst (by norm_num) hi _ hs hn a b
  · obtain ⟨a, b⟩ := hr (by omega)
    exact stepEllipsoidProblem_known t 7 inst (by norm_num) hi _ hs hn a b 1 zero_le_one
  · exact rosenbrockProblem_known t 8 inst (by norm_num) hi _ hs hn
  · obtain ⟨a, b⟩ := hr (by omega)
    exact wider (reach_le t).1 (rotatedRosenbrockProblem_known 9 inst _ hs hn a b (by norm_num) hi)
  · obtain ⟨a, b⟩ := hr (by omega)
    exact rotatedEllipsoidProblem_known t 10 inst (by norm_num) hi _ hs hn a b (10 ^ 6) (by norm_num)
  · obtain ⟨a, b⟩ := hr (by omega)
    exact discusProblem_known t 11 inst (by norm_num) hi _ hs hn a b
  · obtain ⟨a, b⟩ := hr (by omega)
    exact bentCigarProblem_known t 12 inst (by norm_num) hi _ hs hn a b
  · obtain ⟨a, b⟩ := hr (by omega)
    exact sharpRidgeProblem_known t 13 inst (by norm_num) hi _ hs hn a b
  · obtain ⟨a, b⟩ := hr (by omega)
    exact differentPowersProblem_known t 14 inst (by norm_num) hi _ hs hn a b
  · obtain ⟨a, b⟩ := hr (by omega)
    exact rotatedRastriginProblem_known t 15 inst (by norm_num) hi _ hs hn a b
  · obtain ⟨a, b⟩ := hr (by omega)
    exact weierstrassProblem_known t 16 inst (by norm_num) hi _ hs hn a b
  · obtain ⟨a, b⟩ := hr (by omega)
    exact schaffersProblem_known t 17 inst (by norm_num) hi _ hs hn a b 10 10 (by norm_num)
  · obtain ⟨a, b⟩ := hr (by omega)
    exact schaffersProblem_known t 18 inst (by norm_num) hi _ hs hn a b 1000 10 (by norm_num)
  · obtain ⟨a, b⟩ := hr (by omega)
    exact wider (reach_le t).1 (griewankRosenbrockProblem_known 19 inst _ hs hn a b (by norm_num) hi 10 (by norm_num))
  · exact absurd rfl h20
  · obtain ⟨a, b⟩ := hr (by omega)
    exact gallagherProblem_known t 21 inst (by norm_num) hi _ hs hn a b 101 (Or.inl rfl) 1 zero_le_one
  · obtain ⟨a, b⟩ := hr (by omega)
    exact gallagherProblem_known t 22 inst (by norm_num) hi _ hs hn a b 21 (Or.inr rfl) 1 zero_le_one
  · obtain ⟨a, b⟩ := hr (by omega)
    exact katsuuraProblem_known t 23 inst (by norm_num) hi _ hs hn a b
  · obtain ⟨a, b⟩ := hr (by omega)
    exact lunacekProblem_known t 24 inst (by norm_num) hi _ hs hn a b

theorem optimum_known (t : Template) (function inst n : Nat) (h1 : 1 ≤ function) (hf : function ≤ 24)
    (h20 : function ≠ 20) (hi : inst ≤ 10 ^ 10) (hn : 2 ≤ n)
    (hr : Spec.Rotated function → n ≤ 44 ∧ Spec.Regular (Spec.seed function inst) n ∧
      Spec.Regular (Spec.seed function inst + 1000000) n) :
    ∃ P v, get t function inst n = .ok P ∧ Legacy.computeFopt function inst = .ok v ∧ Spec.Known P v := by
  refine wider ?_ (C85_optimum t function inst n h1 hf h20 hi hn hr)
  split_ifs
  · exact le_rfl
  · exact (reach_le t).2

/-- C85: there are no other functions. -/
theorem C85_unknown (t : Template) (function inst n : Nat) (h : function = 0 ∨ 24 < function) :
    get t function inst n = .error := by
  unfold get
  dsimp only
  iterate 24 rw [if_neg (by omega)]

theorem rotation_large (seed : Int) (hn : 44 < n) : rotation seed n = .assertFail := by
  unfold rotation
  rw [Rotation.C83_too_large seed n hn]
  rfl

/-- C85: the functions with rotation matrices stop with a failed assertion for more than 44 variables. -/
theorem C85_too_large (t : Template) (function inst n : Nat) (hf : function ≤ 24) (hi : inst ≤ 10 ^ 10)
    (hr : Spec.Rotated function) (hn : 44 < n) : get t function inst n = .assertFail := by
  have hs := fun k h0 hk => seed_small (function := function) hf hi k h0 hk
  obtain ⟨v, ev⟩ := fopt_ok function inst (by omega) hi
  obtain ⟨x, ex, -⟩ := getXopt_ok t (Spec.seed function inst) (by simpa using hs 0 le_rfl (by norm_num)) n
  obtain ⟨y, ey, -⟩ := getXopt_ok t (Spec.seed function inst + 1000000) (hs 1000000 (by norm_num) (by norm_num)) n
  have hrot := fun seed => rotation_large (n := n) seed hn
  obtain ⟨h6, h8, h20⟩ := hr
  unfold Spec.seed at ex ey
  interval_cases function
  all_goals first
    | exact absurd rfl h8
    | exact absurd rfl h20
    | (simp only [Nat.cast_ofNat, Nat.reduceEqDiff, if_false, if_true] at ex ey
       simp only [get, Nat.reduceEqDiff, if_false, if_true, Nat.cast_ofNat,
        attractiveSectorProblem, stepEllipsoidProblem, rotatedRosenbrockProblem, rotatedEllipsoidProblem,
        discusProblem, bentCigarProblem, sharpRidgeProblem, differentPowersProblem, rotatedRastriginProblem,
        weierstrassProblem, schaffersProblem, griewankRosenbrockProblem, gallagherProblem, katsuuraProblem,
        lunacekProblem, ev, ex, ey, hrot, Res.ok_bind, Res.assertFail_bind])

/-! ### The hypotheses hold for function 15, instance 1 and two variables -/

theorem regular_two (seed : Int) (hs : seed.natAbs < 2 ^ 31 * 127773) {a b c d a' b' c' d' : ℚ}
    (hu : Legacy.unif 8 seed = .ok [a, b, c, d, a', b', c', d'])
    (h : Legacy.gaussNumber a a' * Legacy.gaussNumber d d' ≠ Legacy.gaussNumber b b' * Legacy.gaussNumber c c') :
    Spec.Regular seed 2 := by
  intro g hg
  obtain ⟨us, h1, -, -, hg'⟩ := Legacy.gauss_ok 4 (by omega) seed hs
  have hus := Res.ok.inj (h1.symm.trans hu)
  subst hus
  have := Res.ok.inj (hg.symm.trans hg')
  subst this
  simp only [List.range, List.range.loop, List.map_cons, List.map_nil, List.getD_cons_zero, List.getD_cons_succ,
    Nat.add_zero, Nat.reduceAdd]
  generalize Legacy.gaussNumber (a : ℝ) a' = p at *
  generalize Legacy.gaussNumber (b : ℝ) b' = q at *
  generalize Legacy.gaussNumber (c : ℝ) c' = r at *
  generalize Legacy.gaussNumber (d : ℝ) d' = s at *
  have hdet : p * s - q * r ≠ 0 := sub_ne_zero.2 h
  rw [Fintype.linearIndependent_iff]
  intro w hw
  have e0 := congrFun hw 0
  have e1 := congrFun hw 1
  simp [Fin.sum_univ_two, Rotation.reshape] at e0 e1
  have k0 : w 0 * (p * s - q * r) = 0 := by linear_combination s * e0 - r * e1
  have k1 : w 1 * (p * s - q * r) = 0 := by linear_combination p * e1 - q * e0
  have z0 := (mul_eq_zero.mp k0).resolve_right hdet
  have z1 := (mul_eq_zero.mp k1).resolve_right hdet
  intro i
  fin_cases i
  · exact z0
  · exact z1

theorem cos_pos_low {v : ℝ} (h1 : 0 ≤ v) (h2 : v < 1 / 4) : 0 < Real.cos (2 * Real.pi * v) :=
  Real.cos_pos_of_mem_Ioo ⟨by nlinarith [Real.pi_pos], by nlinarith [Real.pi_pos]⟩

theorem regular_example : Spec.Rotated 15 ∧ Spec.Regular (Spec.seed 15 1) 2 ∧
    Spec.Regular (Spec.seed 15 1 + 1000000) 2 := by
  refine ⟨by unfold Spec.Rotated; omega, ?_, ?_⟩
  · refine regular_two _ (by decide) (a := 253277046 / 2147483647) (b := 1879600940 / 2147483647) (c := 2050774428 / 2147483647)
      (d := 2038719715 / 2147483647) (a' := 1844017072 / 2147483647) (b' := 202806827 / 2147483647) (c' := 517793600 / 2147483647)
      (d' := 1002298364 / 2147483647) (by decide +kernel) ?_
    have ga : 0 < Legacy.gaussNumber (((253277046 / 2147483647 : ℚ)) : ℝ) (((1844017072 / 2147483647 : ℚ)) : ℝ) :=
      Rotation.gaussNumber_pos (by norm_num) (by norm_num) (Rotation.cos_pos_of (by norm_num) (by norm_num))
    have gb : 0 < Legacy.gaussNumber (((1879600940 / 2147483647 : ℚ)) : ℝ) (((202806827 / 2147483647 : ℚ)) : ℝ) :=
      Rotation.gaussNumber_pos (by norm_num) (by norm_num) (cos_pos_low (by norm_num) (by norm_num))
    have gc : 0 < Legacy.gaussNumber (((2050774428 / 2147483647 : ℚ)) : ℝ) (((517793600 / 2147483647 : ℚ)) : ℝ) :=
      Rotation.gaussNumber_pos (by norm_num) (by norm_num) (cos_pos_low (by norm_num) (by norm_num))
    have gd : Legacy.gaussNumber (((2038719715 / 2147483647 : ℚ)) : ℝ) (((1002298364 / 2147483647 : ℚ)) : ℝ) < 0 :=
      Rotation.gaussNumber_neg (by norm_num) (by norm_num) (Rotation.cos_neg_of (by norm_num) (by norm_num))
    exact ((mul_neg_of_pos_of_neg ga gd).trans (mul_pos gb gc)).ne
  · refine regular_two _ (by decide) (a := 523846510 / 2147483647) (b := 988692273 / 2147483647) (c := 2081542360 / 2147483647)
      (d := 1201175792 / 2147483647) (a' := 2104619241 / 2147483647) (b' := 1489647740 / 2147483647) (c' := 608910510 / 2147483647)
      (d' := 1489509716 / 2147483647) (by decide +kernel) ?_
    have ga : 0 < Legacy.gaussNumber (((523846510 / 2147483647 : ℚ)) : ℝ) (((2104619241 / 2147483647 : ℚ)) : ℝ) :=
      Rotation.gaussNumber_pos (by norm_num) (by norm_num) (Rotation.cos_pos_of (by norm_num) (by norm_num))
    have gb : Legacy.gaussNumber (((988692273 / 2147483647 : ℚ)) : ℝ) (((1489647740 / 2147483647 : ℚ)) : ℝ) < 0 :=
      Rotation.gaussNumber_neg (by norm_num) (by norm_num) (Rotation.cos_neg_of (by norm_num) (by norm_num))
    have gc : Legacy.gaussNumber (((2081542360 / 2147483647 : ℚ)) : ℝ) (((608910510 / 2147483647 : ℚ)) : ℝ) < 0 :=
      Rotation.gaussNumber_neg (by norm_num) (by norm_num) (Rotation.cos_neg_of (by norm_num) (by norm_num))
    have gd : Legacy.gaussNumber (((1201175792 / 2147483647 : ℚ)) : ℝ) (((1489509716 / 2147483647 : ℚ)) : ℝ) < 0 :=
      Rotation.gaussNumber_neg (by norm_num) (by norm_num) (Rotation.cos_neg_of (by norm_num) (by norm_num))
    exact ((mul_neg_of_pos_of_neg ga gd).trans (mul_pos_of_neg_of_neg gb gc)).ne

/-- C85 for a function with rotation matrices. -/
example : ∃ P v, get .bbob 15 1 2 = .ok P ∧ Legacy.computeFopt 15 1 = .ok v ∧ Spec.KnownIn 4 P v :=
  wider (by simp [Spec.reach]) <| C85_optimum .bbob 15 1 2 (by omega) (by omega) (by omega) (by norm_num) le_rfl
    fun _ => ⟨by omega, regular_example.2.1, regular_example.2.2⟩

/-- C85 for a function without rotation matrices, with more than 44 variables. -/
example : ∃ P v, get .boxed 3 7 100 = .ok P ∧ Legacy.computeFopt 3 7 = .ok v ∧ Spec.Known P v :=
  optimum_known .boxed 3 7 100 (by omega) (by omega) (by omega) (by norm_num) (by omega)
    fun h => absurd h.1 (by omega)

example : get .bbob 25 1 2 = .error := C85_unknown .bbob 25 1 2 (by omega)

example : get .bbob 6 1 45 = .assertFail :=
  C85_too_large .bbob 6 1 45 (by omega) (by norm_num) ⟨by omega, by omega, by omega⟩ (by omega)

end Bbob
