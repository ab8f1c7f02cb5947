import Verif.Lemmas.Gradient
import Verif.Props.ConsSuite

/-!
# Gradients of the objective functions of the constrained suites: C108
-/

noncomputable section

namespace ConsSuite
open Classical Transform Bbob

variable {n : Nat}

namespace Spec

/-- The transformations that come with a gradient. -/
def WithGradient : T n → Prop
  | .varsShift _ | .affine _ _ | .objShift _ | .objScale _ | .conditioning _ => True
  | _ => False

end Spec

open Spec

/-- What the problem computes is `f`, where it computes something, and the gradient function is that of `f`. -/
def Right (P : Prob n) (g : Vec n → Vec n) (f : Vec n → ℝ) : Prop :=
  (∀ x y, P.eval x = .ok y → y = f x) ∧ ∀ x, IsGradient f (g x) x

theorem check_eq {b : Option ℝ} {y z : ℝ} (h : check b y = .ok z) : z = y := by
  unfold check at h
  split at h
  · split_ifs at h
    exact (Res.ok.inj h).symm
  · cases h

theorem bind_ok_inv {α β : Type} {r : Res α} {k : α → Res β} {b : β} (h : r.bind k = .ok b) :
    ∃ a, r = .ok a ∧ k a = .ok b := by
  cases r with
  | ok a => exact ⟨a, rfl, h⟩
  | error => cases h
  | assertFail => cases h
  | ub => cases h

theorem via_eq {P : Prob n} {f : Vec n → ℝ} (h : ∀ x y, P.eval x = .ok y → y = f x) {m : Vec n → Vec n} {x : Vec n}
    {y : ℝ} (e : via P m x = .ok y) : y = f (m x) := by
  unfold via at e
  obtain ⟨z, e1, e2⟩ := bind_ok_inv e
  rw [check_eq e2]
  exact h _ _ e1

theorem create_right {t : T n} (ht : WithGradient t) {P Q : Prob n} {g : Vec n → Vec n} {f : Vec n → ℝ}
    (h : Right P g f) (e : create t P = .ok Q) : ∃ f', Right Q (gradientOf t g) f' := by
  obtain ⟨hv, hg⟩ := h
  cases t with
  | objShift o =>
    obtain rfl := Res.ok.inj e
    refine ⟨fun x => f x + o, fun x y ey => ?_, fun x => isGradient_add_const (hg x) o⟩
    obtain ⟨z, e1, e2⟩ := bind_ok_inv ey
    rw [check_eq e2, hv _ _ e1]
  | objScale c =>
    obtain rfl := Res.ok.inj e
    refine ⟨fun x => f x * c, fun x y ey => ?_, fun x => isGradient_mul_const (hg x) c⟩
    obtain ⟨z, e1, e2⟩ := bind_ok_inv ey
    rw [check_eq e2, hv _ _ e1]
  | varsShift o =>
    obtain rfl := Res.ok.inj e
    exact ⟨fun x => f fun i => x i - o i, fun x y ey => via_eq (m := fun x i => x i - o i) hv ey, fun x => isGradient_shift (hg _)⟩
  | affine M b =>
    obtain rfl := Res.ok.inj e
    exact ⟨fun x => f (affineMap M b x), fun x y ey => via_eq hv ey, fun x => isGradient_affine (hg _)⟩
  | conditioning a =>
    obtain rfl := Res.ok.inj e
    refine ⟨fun x => f fun i => a ^ (0.5 * (i : ℝ) / ((n : ℝ) - 1)) * x i, fun x y ey => ?_,
      fun x => isGradient_scale (hg _)⟩
    simp only [conditioning] at ey
    split_ifs at ey
    exact via_eq hv ey
  | _ => exact absurd ht (by simp [WithGradient])

theorem chain_right : ∀ (ts : List (T n)) (_ : ∀ t ∈ ts, WithGradient t) {P Q : Prob n} {g : Vec n → Vec n}
    {f : Vec n → ℝ} (_ : Right P g f) (_ : chain ts P = .ok Q),
    ∃ f', Right Q (ts.foldl (fun g t => gradientOf t g) g) f'
  | [], _, P, Q, g, f, h, e => by
    obtain rfl := Res.ok.inj e
    exact ⟨f, h⟩
  | t :: ts, ht, P, Q, g, f, h, e => by
    obtain ⟨R, e1, e2⟩ := bind_ok_inv e
    obtain ⟨f', h'⟩ := create_right (ht t (by simp)) h e1
    exact chain_right ts (fun t h => ht t (by simp [h])) h' e2

theorem right_unique {P : Prob n} {g : Vec n → Vec n} {f F : Vec n → ℝ} (h : Right P g f)
    (hF : ∀ x, P.eval x = .ok (F x)) (x : Vec n) : IsGradient F (g x) x := by
  have : F = f := funext fun x => h.1 x _ (hF x)
  rw [this]
  exact h.2 x

/-- **C108** (transformations).
The gradient of a problem that went through any number of shifts of the variables and of the value,
affine maps, scalings of the value and conditionings is the derivative of what it computes, if this is so for the problem
it was made from. -/
theorem C108_transformations (ts : List (T n)) (hts : ∀ t ∈ ts, WithGradient t) {P : Prob n} {g : Vec n → Vec n}
    {f : Vec n → ℝ} (hP : ∀ x, P.eval x = .ok (f x)) (hg : ∀ x, IsGradient f (g x) x) {O : Objective n}
    (hO : transformed ts P g = .ok O) {F : Vec n → ℝ} (hF : ∀ x, O.problem.eval x = .ok (F x)) (x : Vec n) :
    IsGradient F (O.gradient x) x := by
  obtain ⟨Q, eQ, e⟩ := bind_ok_inv hO
  obtain rfl := Res.ok.inj e
  obtain ⟨f', h⟩ := chain_right ts hts (P := P) (g := g) (f := f)
    ⟨fun x y e => by rw [hP] at e; exact (Res.ok.inj e).symm, hg⟩ eQ
  exact right_unique h hF x

theorem allocate_right {two : Bool} {f : Vec n → ℝ} {best : Vec n} {g : Vec n → Vec n} {P : Prob n}
    (hg : ∀ x, IsGradient f (g x) x) (e : allocate two f best = .ok P) : Right P g f := by
  obtain ⟨_, _, e⟩ := bind_ok_inv e
  obtain rfl := Res.ok.inj e
  exact ⟨fun x y ey => check_eq (show check (some (f best)) (f x) = .ok y from ey), hg⟩

theorem transformed_right {ts : List (T n)} (hts : ∀ t ∈ ts, WithGradient t) {two : Bool} {f : Vec n → ℝ}
    {best : Vec n} {g : Vec n → Vec n} (hg : ∀ x, IsGradient f (g x) x) {O : Objective n}
    (e : ((allocate two f best).bind fun P => transformed ts P g) = .ok O) {F : Vec n → ℝ}
    (hF : ∀ x, O.problem.eval x = .ok (F x)) (x : Vec n) : IsGradient F (O.gradient x) x := by
  obtain ⟨P, eP, e⟩ := bind_ok_inv e
  obtain ⟨Q, eQ, e⟩ := bind_ok_inv e
  obtain rfl := Res.ok.inj e
  obtain ⟨f', h⟩ := chain_right ts hts (allocate_right hg eP) eQ
  exact right_unique h hF x

/-- All types but the linear slope and the sum of different powers. -/
theorem objective_gradient {type function inst : Nat} {seed : Int} (h1 : 1 ≤ type) (h9 : type ≤ 9) (h3 : type ≠ 3)
    (h7 : type ≠ 7) {O : Objective n} (e : objective type function inst seed n = .ok O) {F : Vec n → ℝ}
    (hF : ∀ x, O.problem.eval x = .ok (F x)) (x : Vec n) : IsGradient F (O.gradient x) x := by
  unfold objective at e
  obtain ⟨v, -, e⟩ := bind_ok_inv e
  interval_cases type <;> simp only [OfNat.one_ne_ofNat, OfNat.ofNat_ne_one, Nat.reduceEqDiff, if_true,
    if_false, reduceIte] at e
  · obtain ⟨o, -, e⟩ := bind_ok_inv e
    exact transformed_right (by simp [WithGradient]) sphere_gradient e hF x
  · obtain ⟨o, -, e⟩ := bind_ok_inv e
    exact transformed_right (by simp [WithGradient]) (ellipsoid_gradient _) e hF x
  · exact absurd rfl h3
  · obtain ⟨o, -, e⟩ := bind_ok_inv e
    obtain ⟨M, -, e⟩ := bind_ok_inv e
    exact transformed_right (by simp [WithGradient]) (ellipsoid_gradient _) e hF x
  · obtain ⟨o, -, e⟩ := bind_ok_inv e
    obtain ⟨M, -, e⟩ := bind_ok_inv e
    exact transformed_right (by simp [WithGradient]) discus_gradient e hF x
  · obtain ⟨o, -, e⟩ := bind_ok_inv e
    obtain ⟨M, -, e⟩ := bind_ok_inv e
    exact transformed_right (by simp [WithGradient]) bentCigar_gradient e hF x
  · exact absurd rfl h7
  · obtain ⟨o, -, e⟩ := bind_ok_inv e
    exact transformed_right (by simp [WithGradient]) rastrigin_gradient e hF x
  · obtain ⟨M, -, e⟩ := bind_ok_inv e
    obtain ⟨o, -, e⟩ := bind_ok_inv e
    exact transformed_right (by simp [WithGradient]) rastrigin_gradient e hF x

/-- The linear slope inside the region of interest. -/
theorem slope_gradient {function inst : Nat} {seed : Int} {O : Objective n}
    (e : objective 3 function inst seed n = .ok O) {F : Vec n → ℝ} (hF : ∀ x, O.problem.eval x = .ok (F x)) (x : Vec n)
    (hx : ∀ i, -5 < x i ∧ x i < 5) : IsGradient F (O.gradient x) x := by
  unfold objective at e
  obtain ⟨v, -, e⟩ := bind_ok_inv e
  simp only [OfNat.ofNat_ne_one, Nat.reduceEqDiff, if_true, if_false] at e
  obtain ⟨o, -, e⟩ := bind_ok_inv e
  obtain ⟨P, eP, e⟩ := bind_ok_inv e
  obtain ⟨Q, eQ, e⟩ := bind_ok_inv e
  obtain rfl := Res.ok.inj e
  obtain ⟨_, _, eP⟩ := bind_ok_inv eP
  obtain rfl := Res.ok.inj eP
  obtain rfl := Res.ok.inj eQ
  have h := isGradient_add_const (linearSlope_gradient (fun i => if o i < 0 then -5 else 5) x fun i => by
    obtain ⟨a, b⟩ := hx i
    split_ifs <;> nlinarith) v
  refine isGradient_congr h (funext fun y => ?_) rfl
  obtain ⟨z, e1, e2⟩ := bind_ok_inv (hF y)
  have e1 : check (some (linearSlope _ _)) (linearSlope _ y) = .ok z := e1
  rw [check_eq e2, check_eq e1]

/-- The sum of different powers: what is computed is divided by the value once too often. -/
theorem powers_gradient (hn : 2 ≤ n) {function inst : Nat} {seed : Int} {O : Objective n} {v : ℝ}
    (ev : Legacy.computeFopt function inst = .ok v)
    (e : objective 7 function inst seed n = .ok O) {F : Vec n → ℝ} (hF : ∀ x, O.problem.eval x = .ok (F x)) (x : Vec n)
    (hx : F x ≠ v) : IsGradient F (fun i => (F x - v) * O.gradient x i) x := by
  unfold objective at e
  rw [ev, Res.ok_bind] at e
  simp only [OfNat.ofNat_ne_one, Nat.reduceEqDiff, if_true, if_false] at e
  obtain ⟨o, -, e⟩ := bind_ok_inv e
  obtain ⟨M, -, e⟩ := bind_ok_inv e
  obtain ⟨P, eP, e⟩ := bind_ok_inv e
  obtain ⟨Q, eQ, e⟩ := bind_ok_inv e
  obtain rfl := Res.ok.inj e
  obtain ⟨_, _, eP⟩ := bind_ok_inv eP
  obtain rfl := Res.ok.inj eP
  obtain rfl := Res.ok.inj eQ
  generalize (fun i => o i * (1 / 10 ^ 2 / Real.sqrt (∑ j, o j * o j))) = q at *
  have eF : F = fun y => differentPowers (affineMap M 0 fun i => y i - q i) + v := by
    funext y
    have := via_eq (m := fun y i => y i - q i) (f := fun y => differentPowers (affineMap M 0 y) + v) (fun y z ez =>
      via_eq (m := affineMap M 0) (f := fun y => differentPowers y + v) (fun y z ez => by
        obtain ⟨w, e1, e2⟩ := bind_ok_inv ez
        have e1 : check (some (differentPowers 0)) (differentPowers y) = .ok w := e1
        rw [check_eq e2, check_eq e1]) ez) (hF y)
    exact this
  have hne : differentPowers (affineMap M 0 fun i => x i - q i) ≠ 0 := fun h0 => hx (by rw [eF]; simp [h0])
  have h := isGradient_shift (isGradient_affine (isGradient_add_const (differentPowers_gradient hn _ hne) v))
  refine isGradient_congr h eF.symm ?_
  funext j
  rw [eF]
  simp only [add_sub_cancel_right]
  show _ = differentPowers _ * ∑ i, differentPowersGradient (affineMap M 0 fun i => x i - q i) i * M i j
  rw [Finset.mul_sum]
  exact Finset.sum_congr rfl fun i _ => by ring

/-- **C108** (objective functions of the suites).
The objective function exists and computes `f`. What its gradient function computes
at a point `x` is the derivative of `f` at `x`: for the types other than 3 and 7 at every point, for the linear slope (3)
at every point inside the region of interest; for the sum of different powers (7) it is, at every point but the optimum,
the derivative divided by the difference of `f x` and the optimal value. -/
theorem C108_objective_partial (type function inst : Nat) (h1 : 1 ≤ type) (h9 : type ≤ 9) (hf : function < 10000)
    (hi : inst ≤ 10 ^ 10) (seed : Int) (hs : ∀ k : Int, 0 ≤ k → k ≤ 10 ^ 7 → (seed + k).natAbs < 2 ^ 31 * 127773)
    (hn : 2 ≤ n) (hr : Spec.Rotated type → n ≤ 44 ∧ Bbob.Spec.Regular (seed + 1000000) n) :
    ∃ O f v, objective type function inst seed n = .ok O ∧ Legacy.computeFopt function inst = .ok v ∧
      Spec.Objective type seed v f ∧ (∀ x, O.problem.eval x = .ok (f x)) ∧
      (type ≠ 3 → type ≠ 7 → ∀ x, IsGradient f (O.gradient x) x) ∧
      (type = 3 → ∀ x, (∀ i, -5 < x i ∧ x i < 5) → IsGradient f (O.gradient x) x) ∧
      (type = 7 → ∀ x, f x ≠ v → IsGradient f (fun i => (f x - v) * O.gradient x i) x) := by
  obtain ⟨O, f, v, eO, ev, hS, hF, -⟩ := objective_fine type function inst h1 h9 hf hi seed hs hn hr
  obtain ⟨b, -, hp⟩ := hF.plain
  have hev : ∀ x, O.problem.eval x = .ok (f x) := fun x => (hp x).1
  refine ⟨O, f, v, eO, ev, hS, hev, fun h3 h7 x => objective_gradient h1 h9 h3 h7 eO hev x, fun h3 x hx => ?_,
    fun h7 x hx => ?_⟩
  · subst h3
    exact slope_gradient eO hev x hx
  · subst h7
    exact powers_gradient hn ev eO hev x hx

/-! ### Where the gradients are wrong -/

theorem isGradient_unique {f : Vec n → ℝ} {g g' x : Vec n} (h : IsGradient f g x) (h' : IsGradient f g' x) : g = g' := by
  have := HasFDerivAt.unique h h'
  funext i
  have e := congrArg (fun L : (Fin n → ℝ) →L[ℝ] ℝ => L (Pi.single i 1)) this
  simpa [gradient_apply, Pi.single_apply] using e

/-- **C108** (the sum of different powers).
The function that computes the gradient of the sum of different powers does not compute the
derivative: at `(2, 0)` the derivative is `(1, 0)`, what is computed `(1/2, 0)`. -/
theorem C108_different_powers : ∃ x : Vec 2, IsGradient differentPowers (fun i => if i = 0 then 1 else 0) x ∧
    differentPowersGradient x = (fun i => if i = 0 then 1 / 2 else 0) ∧
    ¬ IsGradient differentPowers (differentPowersGradient x) x := by
  have hv : differentPowers (fun i : Fin 2 => if i = 0 then (2 : ℝ) else 0) = 2 := by
    unfold differentPowers
    rw [Fin.sum_univ_two]
    norm_num
  have hg : differentPowersGradient (fun i : Fin 2 => if i = 0 then (2 : ℝ) else 0) =
      (fun i => if i = 0 then 1 / 2 else 0) := by
    funext i
    unfold differentPowersGradient
    dsimp only
    rw [Fin.sum_univ_two]
    fin_cases i <;> norm_num [sign]
  have h := differentPowers_gradient (n := 2) le_rfl (fun i : Fin 2 => if i = 0 then (2 : ℝ) else 0)
    (by rw [hv]; norm_num)
  have h' := isGradient_congr (g' := fun i => if i = 0 then 1 else 0) h rfl (by
    rw [hv, hg]
    funext i
    split_ifs with hi <;> norm_num <;> exact hi)
  refine ⟨_, h', hg, fun hw => ?_⟩
  have := congrFun (isGradient_unique hw h') 0
  rw [hg] at this
  norm_num at this

/-- **C108** (the linear slope outside).
Beyond the best parameter the linear slope is constant, and its gradient function still gives the
slope. -/
theorem C108_linear_slope_outside (best x : Vec n) (hb : ∀ i, x i * best i > 25) (i : Fin n) :
    IsGradient (linearSlope best) 0 x ∧ linearSlopeGradient best x i ≠ 0 ∧
    ¬ IsGradient (linearSlope best) (linearSlopeGradient best x) x := by
  have h0 : IsGradient (linearSlope best) 0 x := by
    refine separable (φ := fun i t => if t * best i < 25 then 5 * |slope best i| - slope best i * t
      else 5 * |slope best i| - slope best i * best i) fun i => ?_
    refine (hasDerivAt_const (x i) (5 * |slope best i| - slope best i * best i)).congr_of_eventuallyEq ?_
    have : ∀ᶠ t in nhds (x i), 25 < t * best i :=
      continuousAt_const.eventually_lt (continuous_id.mul continuous_const).continuousAt (hb i)
    filter_upwards [this] with t ht
    rw [if_neg (by linarith)]
  have hs : linearSlopeGradient best x i ≠ 0 := by
    unfold linearSlopeGradient Bbob.slope
    have : 0 < Real.sqrt 100 ^ ((i : ℝ) / ((n : ℝ) - 1)) := by positivity
    split_ifs <;> simp [this.ne']
  refine ⟨h0, hs, fun h => hs ?_⟩
  rw [isGradient_unique h h0]
  rfl

/-- **C108** (a transformation without gradient).
A problem whose variables are scaled hands on the gradient of the inner problem as it
is: for the sphere scaled by 2 it is not the derivative. -/
theorem C108_scaled : ∃ O : Objective 1,
    ((allocate false sphere 0).bind fun P => transformed [.varsScale 2] P sphereGradient) = .ok O ∧
    (∀ x, O.problem.eval x = .ok (sphere fun i => 2 * x i)) ∧
    (∀ x : Vec 1, IsGradient sphere (sphereGradient x) x) ∧
    ¬ IsGradient (fun x => sphere fun i => 2 * x i) (O.gradient 1) 1 := by
  have h0 : ∀ x : Vec 1, sphere (0 : Vec 1) ≤ sphere x := fun x => by
    simp [sphere, mul_self_nonneg]
  refine ⟨_, rfl, fun x => ?_, sphere_gradient, fun h => ?_⟩
  · show via _ (fun x i => 2 * x i) x = _
    unfold via
    rw [show Prob.eval _ _ = .ok _ from check_ok (h0 fun i => 2 * x i), Res.ok_bind]
    exact check_ok (h0 _)
  · have h' := isGradient_scale (f := sphere) (s := fun _ => 2) (x := (1 : Vec 1)) (sphere_gradient _)
    have := congrFun (isGradient_unique h h') 0
    norm_num [gradientOf, sphereGradient] at this

/-! ### Cases -/

/-- A sphere, shifted and scaled by 3. -/
example : ∃ O : Objective 2, ((allocate false sphere 0).bind fun P =>
    transformed [.varsShift fun _ => 1, .objScale 3] P sphereGradient) = .ok O ∧
    IsGradient (fun x : Vec 2 => sphere (fun i => x i - 1) * 3) (O.gradient fun _ => 2) (fun _ => 2) ∧
    O.gradient (fun _ => 2) = fun _ => 6 := by
  have h0 : ∀ x : Vec 2, sphere (0 : Vec 2) ≤ sphere x := fun x => by
    simp only [sphere, Pi.zero_apply, mul_zero, Finset.sum_const_zero]
    exact Finset.sum_nonneg fun i _ => mul_self_nonneg _
  refine ⟨_, rfl, ?_, ?_⟩
  · refine C108_transformations (f := sphere) [.varsShift fun _ => 1, .objScale 3] (by simp [WithGradient])
      (P := ⟨fun x => check (some (sphere 0)) (sphere x), fun _ => -5, fun _ => 5, some 0, some (sphere 0)⟩)
      (fun x => check_ok (h0 x)) sphere_gradient rfl (fun x => ?_) _
    show ((via _ (fun x i => x i - 1) x).bind fun y => check (some (sphere 0 * 3)) (y * 3)) = _
    unfold via
    rw [show Prob.eval _ _ = .ok _ from check_ok (h0 fun i => x i - 1), Res.ok_bind, check_ok (h0 _), Res.ok_bind]
    exact check_ok (by linarith [h0 fun i => x i - 1])
  · funext i
    norm_num [gradientOf, sphereGradient]

/-- The shifted Rastrigin function in dimension 5. -/
example : ∃ O f v, objective 8 8 1 10008 5 = .ok O ∧ Legacy.computeFopt 8 1 = .ok v ∧
    Spec.Objective 8 10008 v f ∧ (∀ x, O.problem.eval x = .ok (f x)) ∧ ∀ x, IsGradient f (O.gradient x) x := by
  obtain ⟨O, f, v, h1, h2, h3, h4, h5, -⟩ := C108_objective_partial (n := 5) 8 8 1 (by norm_num) (by norm_num)
    (by norm_num) (by norm_num) 10008 (fun k _ _ => by omega) (by norm_num)
    (fun h => absurd h (by unfold Spec.Rotated; omega))
  exact ⟨O, f, v, h1, h2, h3, h4, h5 (by norm_num) (by norm_num)⟩

/-- A point beyond the best parameter of a linear slope. -/
example : ∀ i : Fin 3, (fun _ => 6 : Vec 3) i * (fun _ => 5 : Vec 3) i > 25 := fun _ => by norm_num

end ConsSuite
