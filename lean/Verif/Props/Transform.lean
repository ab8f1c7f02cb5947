import Mathlib.Algebra.BigOperators.Ring.Finset
import Mathlib.Algebra.Order.BigOperators.Ring.Finset
import Mathlib.Tactic.Positivity
import Mathlib.Tactic.FinCases
import Verif.Props.Coordinates
import Verif.Props.Noise

/-!
# Transformations of single-objective problems: C52, C54
-/

namespace Transform
open Classical

variable {n : Nat}

namespace Spec

/-- The recorded best parameter is `p`, the recorded best value is `v`, the function has the value `v` at `p`, it can
be evaluated everywhere (no assertion fails), and no value is below `v`. -/
structure Optimal (P : Prob n) (p : Vec n) (v : ℝ) : Prop where
  param : P.bestParam = some p
  value : P.bestValue = some v
  attained : P.eval p = .ok v
  minimal : ∀ x, ∃ y, P.eval x = .ok y ∧ v ≤ y

/-- The rows of the matrix are orthonormal. -/
def Orthonormal (M : Fin n → Fin n → ℝ) : Prop := ∀ i j, ∑ z, M i z * M j z = if i = j then 1 else 0

/-- Some coordinate is at least 1e-9 in absolute value. -/
def Visible (x : Vec n) : Prop := ∃ i, 1 / 10 ^ 9 ≤ |x i|

/-- Where a transformation takes the best parameter. -/
noncomputable def move : T n → Vec n → Vec n
  | .varsShift o, p => fun i => p i + o i
  | .varsScale f, p => fun i => p i / f
  | .affine M b, p => fun i => ∑ j, M j i * (p j - b j)
  | .xHat u, p => fun i => if u i < 0.5 then -p i else p i
  | _, p => p

/-- What a transformation makes of the best value. -/
noncomputable def value : T n → ℝ → ℝ
  | .objShift o, v => v + o
  | .objScale f, v => v * f
  | .objPower e, v => v ^ e
  | .objOscillate, v => tosz (1 / 10) v
  | _, v => v

/-- Conditions under which a transformation is correct for a problem with the region of interest `lo`, `hi`, the best
parameter `p` and the best value `v`. -/
def Fits (lo hi : Vec n) (p : Vec n) (v : ℝ) : T n → Prop
  | .objShift _ => True
  | .objScale f => 0 ≤ f
  | .objPower e => 0 < e ∧ 0 ≤ v
  | .objOscillate => True
  | .normByDim => 0 < n ∧ (n ≤ 40 ∨ v = 0)
  | .penalize f => 0 ≤ f ∧ ∀ i, lo i < hi i ∧ lo i ≤ p i ∧ p i ≤ hi i
  | .varsShift _ => True
  | .varsScale f => f ≠ 0
  | .affine M b => (p = 0 ∧ b = 0) ∨ (Orthonormal M ∧ (Visible p ∨ Visible b))
  | .permutation q => ∀ i, p (q i) = p i
  | .blockRotation _ => p = 0
  | .oscillate => p = 0
  | .asymmetric _ => p = 0 ∧ n ≠ 1
  | .conditioning _ => p = 0 ∧ n ≠ 1
  | .brs => p = 0 ∧ n ≠ 1
  | .xHat _ => p = 0 ∨ Visible p
  | .zHat xopt s => s = true ∧ ∀ (i : Nat) (h : i + 1 < n), p ⟨i, by omega⟩ = 2 * |xopt ⟨i, by omega⟩|

/-- The conditions for a sequence of transformations. -/
def FitsAll (lo hi : Vec n) : List (T n) → Vec n → ℝ → Prop
  | [], _, _ => True
  | t :: ts, p, v => Fits lo hi p v t ∧ FitsAll lo hi ts (move t p) (value t v)

end Spec

theorem check_ok {v y : ℝ} (h : v ≤ y) : check (some v) y = .ok y := by
  show (if v ≤ y + 1 / 10 ^ 13 then Res.ok y else Res.assertFail) = _
  rw [if_pos (by linarith [show (0 : ℝ) < 1 / 10 ^ 13 by norm_num])]

/-- A transformation of the values by a function that does not go below the new best value. -/
theorem optimal_obj {P Q : Prob n} {p : Vec n} {v : ℝ} (h : Spec.Optimal P p v) (g : Vec n → ℝ → ℝ) {w : ℝ}
    (hp : Q.bestParam = P.bestParam) (hv : Q.bestValue = some w)
    (he : ∀ x y, P.eval x = .ok y → v ≤ y → w ≤ g x y → Q.eval x = .ok (g x y))
    (hg : ∀ x y, v ≤ y → w ≤ g x y) (hb : g p v = w) : Spec.Optimal Q p w := by
  refine ⟨hp.trans h.param, hv, ?_, fun x => ?_⟩
  · rw [he p v h.attained le_rfl (hg _ _ le_rfl), hb]
  · obtain ⟨y, hy, hle⟩ := h.minimal x
    exact ⟨_, he x y hy hle (hg x y hle), hg x y hle⟩

/-- A transformation of the variables that takes the new best parameter to the old one. -/
theorem optimal_vars {P Q : Prob n} {p q : Vec n} {v : ℝ} (h : Spec.Optimal P p v) (g : Vec n → Vec n)
    (hp : Q.bestParam = some q) (hv : Q.bestValue = P.bestValue) (he : ∀ x, Q.eval x = via P g x)
    (hg : g q = p) : Spec.Optimal Q q v := by
  have hvia : ∀ x y, P.eval (g x) = .ok y → v ≤ y → via P g x = .ok y := by
    intro x y hy hle
    unfold via
    rw [hy, Res.ok_bind, h.value, check_ok hle]
  refine ⟨hp, hv.trans h.value, ?_, fun x => ?_⟩
  · rw [he, hvia q v (by rw [hg]; exact h.attained) le_rfl]
  · obtain ⟨y, hy, hle⟩ := h.minimal (g x)
    exact ⟨y, by rw [he, hvia x y hy hle], hle⟩

theorem excess_eq {x lo hi : ℝ} (h : lo ≤ hi) : excess x lo hi = (max 0 (max (x - hi) (lo - x))) ^ 2 := by
  unfold excess
  dsimp only
  split_ifs with h1 h2
  · rw [max_eq_left (by linarith : lo - x ≤ x - hi), max_eq_right h1.le]; ring
  · rw [max_eq_right (by linarith : x - hi ≤ lo - x), max_eq_right h2.le]; ring
  · rw [max_eq_left (max_le (by linarith) (by linarith))]; ring

theorem excess_nonneg (x lo hi : ℝ) : 0 ≤ excess x lo hi := by
  unfold excess
  dsimp only
  split_ifs
  · positivity
  · positivity
  · exact le_rfl

theorem excess_zero {x lo hi : ℝ} : excess x lo hi = 0 ↔ lo ≤ x ∧ x ≤ hi := by
  unfold excess
  dsimp only
  split_ifs with h1 h2
  · exact ⟨fun h => absurd h (mul_pos h1 h1).ne', fun h => absurd h1 (by linarith)⟩
  · exact ⟨fun h => absurd h (mul_pos h2 h2).ne', fun h => absurd h2 (by linarith)⟩
  · exact ⟨fun _ => ⟨by linarith, by linarith⟩, fun _ => rfl⟩

theorem objOsc_eq (y : ℝ) : objOsc y = tosz (1 / 10) y := by
  unfold objOsc tosz
  rcases lt_trichotomy y 0 with h | h | h
  · simp only [ne_eq, h.ne, not_false_eq_true, if_true, gt_iff_lt, not_lt.mpr h.le, if_false, h, abs_of_neg h]
  · simp [h]
  · simp only [ne_eq, h.ne', not_false_eq_true, if_true, gt_iff_lt, h, abs_of_pos h]

theorem bestNotZero_some {p : Vec n} : bestNotZero (some p) ↔ Spec.Visible p := by
  unfold bestNotZero Spec.Visible
  push Not
  rfl

theorem not_isZero {b : Vec n} : ¬ isZero b ↔ Spec.Visible b := by
  unfold isZero Spec.Visible
  push Not
  rfl

theorem isOrthogonal_of {M : Fin n → Fin n → ℝ} (h : Spec.Orthonormal M) : isOrthogonal M := by
  intro i j
  rw [h i j, sub_self, abs_zero]
  norm_num

theorem affine_back {M : Fin n → Fin n → ℝ} (hM : Spec.Orthonormal M) (b p : Vec n) :
    affineMap M b (fun i => ∑ j, M j i * (p j - b j)) = p := by
  funext i
  unfold affineMap
  have : ∑ j, (∑ k, M k j * (p k - b k)) * M i j = p i - b i := by
    calc ∑ j, (∑ k, M k j * (p k - b k)) * M i j
        = ∑ j, ∑ k, (p k - b k) * (M i j * M k j) := by
          refine Finset.sum_congr rfl fun j _ => ?_
          rw [Finset.sum_mul]
          exact Finset.sum_congr rfl fun k _ => by ring
      _ = ∑ k, ∑ j, (p k - b k) * (M i j * M k j) := Finset.sum_comm
      _ = ∑ k, (p k - b k) * (if i = k then 1 else 0) := by
          refine Finset.sum_congr rfl fun k _ => ?_
          rw [← Finset.mul_sum, hM i k]
      _ = p i - b i := by simp
  rw [this]; ring

theorem zero_not_visible : ¬ Spec.Visible (0 : Vec n) := by
  rintro ⟨i, h⟩
  rw [Pi.zero_apply, abs_zero] at h
  exact absurd h (by norm_num)

theorem tasy_zero (β : ℝ) (i n : Nat) : tasy β i n 0 = 0 := by simp [tasy]

/-- One transformation, under its conditions, can be created, keeps the region of interest, and has the recorded
optimum where it says. -/
theorem create_optimal (t : T n) (P : Prob n) (p : Vec n) (v : ℝ) (h : Spec.Optimal P p v)
    (hf : Spec.Fits P.lo P.hi p v t) :
    ∃ Q, create t P = .ok Q ∧ Q.lo = P.lo ∧ Q.hi = P.hi ∧ Spec.Optimal Q (Spec.move t p) (Spec.value t v) := by
  cases t with
  | objShift o =>
    refine ⟨_, rfl, rfl, rfl, optimal_obj h (fun _ y => y + o) rfl ?_ ?_ ?_ ?_⟩
    · simp only [objShift, h.value]; rfl
    · intro x y hy hle hw
      simp only [objShift, hy, Res.ok_bind, h.value, Option.map_some]
      exact check_ok (by linarith)
    · intro x y hy; show v + o ≤ y + o; linarith
    · rfl
  | objScale f =>
    refine ⟨_, rfl, rfl, rfl, optimal_obj h (fun _ y => y * f) rfl ?_ ?_ ?_ ?_⟩
    · simp only [objScale, h.value]; rfl
    · intro x y hy hle hw
      simp only [objScale, hy, Res.ok_bind, h.value, Option.map_some]
      exact check_ok hw
    · intro x y hy; exact mul_le_mul_of_nonneg_right hy hf
    · rfl
  | objPower e =>
    obtain ⟨he, hv⟩ := hf
    have hb : evaluateBest P (pow · e) = .ok (some (v ^ e)) := by
      unfold evaluateBest
      simp only [h.param, h.attained, Res.ok_bind, pow, hv, true_or, if_true]
    have hc : create (.objPower e) P = .ok { P with
        eval := fun x => (P.eval x).bind fun y => (pow y e).bind fun y => check (some (v ^ e)) y
        bestValue := some (v ^ e) } := by
      show objPower e P = _; unfold objPower; rw [hb, Res.ok_bind]
    refine ⟨_, hc, rfl, rfl, optimal_obj h (fun _ y => y ^ e) rfl rfl ?_ ?_ rfl⟩
    · intro x y hy hle hw
      simp only [hy, Res.ok_bind, pow, hv.trans hle, true_or, if_true]
      exact check_ok hw
    · intro x y hy; exact Real.rpow_le_rpow hv hy he.le
  | objOscillate =>
    have hb : evaluateBest P (fun y => .ok (objOsc y)) = .ok (some (tosz (1 / 10) v)) := by
      unfold evaluateBest
      simp only [h.param, h.attained, Res.ok_bind, objOsc_eq]
    have hc : create .objOscillate P = .ok { P with
        eval := fun x => (P.eval x).bind fun y => check (some (tosz (1 / 10) v)) (objOsc y)
        bestValue := some (tosz (1 / 10) v) } := by
      show objOscillate P = _; unfold objOscillate; rw [hb, Res.ok_bind]
    refine ⟨_, hc, rfl, rfl, optimal_obj h (fun _ y => tosz (1 / 10) y) rfl rfl ?_ ?_ rfl⟩
    · intro x y hy hle hw
      simp only [hy, Res.ok_bind, objOsc_eq]
      exact check_ok hw
    · intro x y hy; exact (tosz_strictMono (by norm_num)).monotone hy
  | normByDim =>
    obtain ⟨hn, hf⟩ := hf
    have hn' : (0 : ℝ) < n := by exact_mod_cast hn
    have hm0 : (0 : ℝ) ≤ min 1 (40 / (n : ℝ)) := le_min zero_le_one (by positivity)
    have hm : min 1 (40 / (n : ℝ)) = 1 ∨ v = 0 := by
      rcases hf with hf | hf
      · left
        refine min_eq_left ?_
        rw [le_div_iff₀ hn']
        have : (n : ℝ) ≤ 40 := by exact_mod_cast hf
        linarith
      · exact Or.inr hf
    refine ⟨_, rfl, rfl, rfl, optimal_obj h (fun _ y => y * min 1 (40 / (n : ℝ))) rfl h.value ?_ ?_ ?_⟩
    · intro x y hy hle hw
      simp only [normByDim, hy, Res.ok_bind, h.value]
      exact check_ok hw
    · intro x y hy
      show v ≤ _
      rcases hm with hm | hm
      · rw [hm]; linarith
      · subst hm; exact mul_nonneg hy hm0
    · show v * _ = v
      rcases hm with hm | hm
      · rw [hm, mul_one]
      · rw [hm, zero_mul]
  | penalize f =>
    obtain ⟨hf, hbox⟩ := hf
    have hs : ∀ x : Vec n, 0 ≤ f * ∑ i, excess (x i) (P.lo i) (P.hi i) := fun x =>
      mul_nonneg hf (Finset.sum_nonneg fun i _ => excess_nonneg _ _ _)
    refine ⟨_, rfl, rfl, rfl,
      optimal_obj h (fun x y => y + f * ∑ i, excess (x i) (P.lo i) (P.hi i)) rfl h.value ?_ ?_ ?_⟩
    · intro x y hy hle hw
      simp only [penalize, if_pos fun i => (hbox i).1, hy, Res.ok_bind, h.value]
      exact check_ok hw
    · intro x y hy
      show v ≤ _
      linarith [hs x]
    · show v + f * _ = v
      rw [Finset.sum_eq_zero fun i _ => excess_zero.mpr (hbox i).2]
      ring
  | varsShift o =>
    refine ⟨_, rfl, rfl, rfl, optimal_vars h (fun x i => x i - o i) ?_ rfl (fun _ => rfl) ?_⟩
    · simp only [varsShift, h.param]; rfl
    · funext i; simp [Spec.move]
  | varsScale f =>
    have hf : f ≠ 0 := hf
    refine ⟨_, rfl, rfl, rfl, optimal_vars h (fun x i => f * x i) ?_ rfl (fun _ => rfl) ?_⟩
    · simp only [varsScale, h.param]; rw [if_pos hf]; rfl
    · funext i; simp only [Spec.move]; field_simp
  | affine M b =>
    refine ⟨_, rfl, rfl, rfl, optimal_vars h (affineMap M b) ?_ rfl (fun _ => rfl) ?_⟩
    · show (if bestNotZero P.bestParam ∨ ¬ isZero b then _ else _) = _
      rw [h.param]
      have hc : (bestNotZero (some p) ∨ ¬ isZero b) ↔ (Spec.Visible p ∨ Spec.Visible b) := by
        rw [bestNotZero_some, not_isZero]
      rcases hf with ⟨rfl, rfl⟩ | ⟨hM, hv⟩
      · rw [if_neg (by rw [hc]; simp [zero_not_visible])]
        congr 1; funext i; simp [Spec.move]
      · rw [if_pos (hc.mpr hv), if_neg (not_not.mpr (isOrthogonal_of hM))]; rfl
    · rcases hf with ⟨rfl, rfl⟩ | ⟨hM, hv⟩
      · funext i; simp [affineMap, Spec.move]
      · exact affine_back hM b p
  | permutation q =>
    exact ⟨_, rfl, rfl, rfl, optimal_vars h (fun x i => x (q i)) h.param rfl (fun _ => rfl) (funext hf)⟩
  | blockRotation B =>
    have hf : p = 0 := hf
    subst hf
    refine ⟨_, rfl, rfl, rfl, optimal_vars h (fun x i => ∑ j, B i j * x j) ?_ rfl (fun _ => rfl) ?_⟩
    · show (if bestNotZero P.bestParam then none else P.bestParam) = _
      rw [h.param, bestNotZero_some, if_neg zero_not_visible]; rfl
    · funext i; simp [Spec.move]
  | oscillate =>
    have hf : p = 0 := hf
    subst hf
    exact ⟨_, rfl, rfl, rfl, optimal_vars h (fun x i => tosz (1 / 10) (x i)) h.param rfl (fun _ => rfl)
      (funext fun i => tosz_zero _)⟩
  | asymmetric β =>
    obtain ⟨hf, hn⟩ := hf
    subst hf
    exact ⟨_, rfl, rfl, rfl, optimal_vars h (fun x i => tasy β i n (x i)) h.param rfl
      (fun x => if_neg fun hc => hn hc.1) (funext fun i => tasy_zero _ _ _)⟩
  | conditioning α =>
    obtain ⟨hf, hn⟩ := hf
    subst hf
    exact ⟨_, rfl, rfl, rfl, optimal_vars h _ h.param rfl (fun x => if_neg hn) (funext fun i => mul_zero _)⟩
  | brs =>
    obtain ⟨hf, hn⟩ := hf
    subst hf
    exact ⟨_, rfl, rfl, rfl, optimal_vars h (fun x i => brsFactor n i (x i) * x i) h.param rfl
      (fun x => if_neg hn) (funext fun i => mul_zero _)⟩
  | xHat u =>
    refine ⟨_, rfl, rfl, rfl, optimal_vars h (signs u) ?_ rfl (fun _ => rfl) ?_⟩
    · show (if bestNotZero P.bestParam then _ else _) = _
      rw [h.param, bestNotZero_some]
      rcases hf with rfl | hv
      · rw [if_neg zero_not_visible]
        congr 1; funext i; simp [Spec.move]
      · rw [if_pos hv]; rfl
    · funext i
      simp only [signs, Spec.move]
      split_ifs <;> simp
  | zHat xopt s =>
    obtain ⟨rfl, hf⟩ := hf
    refine ⟨_, rfl, rfl, rfl, optimal_vars h (zMap xopt) h.param rfl (fun _ => rfl) ?_⟩
    funext i
    obtain ⟨i, hi⟩ := i
    cases i with
    | zero => simp [zMap, Spec.move]
    | succ i =>
      have := hf i hi
      simp only [zMap, Spec.move, Nat.zero_lt_succ, dif_pos, Nat.add_sub_cancel, this]
      ring

/-- **C54** Every sequence of transformations, from a problem whose recorded best parameter and best value are right
(the value is attained there and is a global minimum), under the conditions listed in `Spec.Fits`: all transformations
can be created, no assertion fails in any evaluation, and the recorded best parameter and best value of the result are
right again, and are those computed by `Spec.move` and `Spec.value`. -/
theorem C54_transformations (ts : List (T n)) (P : Prob n) (p : Vec n) (v : ℝ) (h : Spec.Optimal P p v)
    (hf : Spec.FitsAll P.lo P.hi ts p v) :
    ∃ Q, chain ts P = .ok Q ∧ Q.lo = P.lo ∧ Q.hi = P.hi ∧
      Spec.Optimal Q (ts.foldl (fun p t => Spec.move t p) p) (ts.foldl (fun v t => Spec.value t v) v) := by
  induction ts generalizing P p v with
  | nil => exact ⟨P, rfl, rfl, rfl, h⟩
  | cons t ts ih =>
    obtain ⟨Q, hQ, hl, hh, hopt⟩ := create_optimal t P p v h hf.1
    obtain ⟨R, hR, hl', hh', hopt'⟩ := ih Q _ _ hopt (by rw [hl, hh]; exact hf.2)
    refine ⟨R, ?_, hl'.trans hl, hh'.trans hh, hopt'⟩
    show (create t P).bind (chain ts) = _
    rw [hQ, Res.ok_bind, hR]

/-! ### Penalties -/

/-- **C52** (penalty of the bbob functions). For a positive factor and a box that is not empty, at every point where
the inner function has a value (not below the recorded best value): the penalised function has the inner value plus the
factor times the squared distance to the box. It is at least the inner value, and equal to it exactly inside the
box. -/
theorem C52_penalize (f : ℝ) (hf : 0 < f) (P : Prob n) (hb : ∀ i, P.lo i < P.hi i) (v : ℝ)
    (hv : P.bestValue = some v) (x : Vec n) (y : ℝ) (hy : P.eval x = .ok y) (hle : v ≤ y) :
    ∃ z, (penalize f P).eval x = .ok z ∧
      z = y + f * ∑ i, (max 0 (max (x i - P.hi i) (P.lo i - x i))) ^ 2 ∧
      y ≤ z ∧ (z = y ↔ ∀ i, P.lo i ≤ x i ∧ x i ≤ P.hi i) := by
  have hs : 0 ≤ ∑ i, excess (x i) (P.lo i) (P.hi i) := Finset.sum_nonneg fun i _ => excess_nonneg _ _ _
  refine ⟨y + f * ∑ i, excess (x i) (P.lo i) (P.hi i), ?_, ?_, ?_, ?_⟩
  · simp only [penalize, if_pos hb, hy, Res.ok_bind, hv]
    exact check_ok (by nlinarith)
  · congr 2
    exact Finset.sum_congr rfl fun i _ => excess_eq (hb i).le
  · nlinarith
  · rw [add_eq_left, mul_eq_zero, or_iff_right hf.ne', Finset.sum_eq_zero_iff_of_nonneg fun i _ => excess_nonneg _ _ _]
    exact ⟨fun h i => excess_zero.mp (h i (Finset.mem_univ i)), fun h i _ => excess_zero.mpr (h i)⟩

/-- The hypotheses of `C52_penalize` hold for the squared distance to 0 at the point (6, 1), with the value
37 + 100. -/
example : (penalize 100 (⟨fun x => .ok (x 0 ^ 2 + x 1 ^ 2), fun _ => -5, fun _ => 5, some 0, some 0⟩ : Prob 2)).eval
    ![6, 1] = .ok 137 := by
  obtain ⟨z, hz, e, -, -⟩ := C52_penalize 100 (by norm_num)
    (⟨fun x => .ok (x 0 ^ 2 + x 1 ^ 2), fun _ => -5, fun _ => 5, some 0, some 0⟩ : Prob 2) (fun _ => by norm_num) 0 rfl
    ![6, 1] 37 (by norm_num) (by norm_num)
  rw [hz, e]
  norm_num [Fin.sum_univ_two]

/-- The sum in the boundary handling of the noisy suite. -/
theorem boundary_sum (xs : List (ℝ × ℝ × ℝ)) (hb : ∀ a ∈ xs, a.2.1 ≤ a.2.2) (p : ℝ) :
    xs.foldl (fun p (x, lo, hi) =>
      if x > hi then p + (x - hi) * (x - hi) else if x < lo then p + (x - lo) * (x - lo) else p) p =
    p + (xs.map fun a => (max 0 (max (a.1 - a.2.2) (a.2.1 - a.1))) ^ 2).sum := by
  induction xs generalizing p with
  | nil => simp
  | cons a xs ih =>
    obtain ⟨x, lo, hi⟩ := a
    have hlh : lo ≤ hi := hb (x, lo, hi) (by simp)
    rw [List.foldl_cons, ih fun b hb' => hb b (by simp [hb']), List.map_cons, List.sum_cons, ← excess_eq hlh,
      ← add_assoc]
    congr 1
    unfold excess
    dsimp only
    split_ifs <;> first | ring1 | (exfalso; linarith)

/-- **C52** (penalty of the noisy functions). For every point and bounds: 100 times the squared distance to the box; not
negative, and 0 exactly inside. -/
theorem C52_boundary (xs : List (ℝ × ℝ × ℝ)) (hb : ∀ a ∈ xs, a.2.1 ≤ a.2.2) :
    Noise.boundary xs = 100 * (xs.map fun a => (max 0 (max (a.1 - a.2.2) (a.2.1 - a.1))) ^ 2).sum ∧
    0 ≤ Noise.boundary xs ∧ (Noise.boundary xs = 0 ↔ ∀ a ∈ xs, a.2.1 ≤ a.1 ∧ a.1 ≤ a.2.2) := by
  have e : Noise.boundary xs = 100 * (xs.map fun a => (max 0 (max (a.1 - a.2.2) (a.2.1 - a.1))) ^ 2).sum := by
    unfold Noise.boundary
    rw [boundary_sum xs hb 0, zero_add]
  have h0 : ∀ b ∈ (xs.map fun a => (max 0 (max (a.1 - a.2.2) (a.2.1 - a.1))) ^ 2), (0 : ℝ) ≤ b := by
    intro b hb
    obtain ⟨a, -, rfl⟩ := List.mem_map.mp hb
    positivity
  refine ⟨e, ?_, ?_⟩
  · rw [e]
    exact mul_nonneg (by norm_num) (List.sum_nonneg h0)
  · exact Noise.C47_penalty xs hb

/-- A point outside in its first coordinate and inside in its second. -/
example : Noise.boundary [(7, -5, 5), (5, -5, 5)] = 400 := by
  rw [(C52_boundary _ (by intro a ha; fin_cases ha <;> norm_num)).1]; norm_num

/-! ### A case that meets the hypotheses -/

/-- The squared distance to 0 in two dimensions. -/
noncomputable def squares : Prob 2 :=
  ⟨fun x => .ok (x 0 ^ 2 + x 1 ^ 2), fun _ => -5, fun _ => 5, some 0, some 0⟩

theorem squares_optimal : Spec.Optimal squares 0 0 :=
  ⟨rfl, rfl, by simp [squares], fun x => ⟨_, rfl, by positivity⟩⟩

/-- A quarter turn. -/
def turn : Fin 2 → Fin 2 → ℝ := fun i j => if i = 0 then (if j = 0 then 0 else -1) else (if j = 0 then 1 else 0)

/-- Oscillation, shift by (1, 2), scaling by 2, a turn with the offset (3, 3), objective shift and penalty. -/
noncomputable def sampleChain : List (T 2) :=
  [.oscillate, .varsShift (fun i => if i = 0 then 1 else 2), .varsScale 2, .affine turn (fun _ => 3), .objShift 7,
    .penalize 100]

theorem sampleChain_fits : Spec.FitsAll squares.lo squares.hi sampleChain 0 0 := by
  refine ⟨rfl, trivial, two_ne_zero, Or.inr ⟨?_, Or.inr ⟨0, ?_⟩⟩, trivial, ⟨by norm_num, ?_⟩, trivial⟩
  · intro i j
    fin_cases i <;> fin_cases j <;> simp [turn, Fin.sum_univ_two]
  · rw [abs_of_pos (by norm_num)]; norm_num
  · intro i
    fin_cases i <;> simp [turn, Fin.sum_univ_two, Spec.move, squares] <;> norm_num

/-- The optimum ends up in (-2, 5/2) with the value 7. -/
example : ∃ Q, chain sampleChain squares = .ok Q ∧
    Spec.Optimal Q (fun i => if i = 0 then -2 else 5 / 2) 7 := by
  obtain ⟨Q, hQ, -, -, h⟩ := C54_transformations sampleChain squares 0 0 squares_optimal sampleChain_fits
  refine ⟨Q, hQ, ?_⟩
  convert h using 1
  · funext i
    fin_cases i <;> simp [sampleChain, Spec.move, turn, Fin.sum_univ_two] <;> norm_num
  · simp [sampleChain, Spec.value]

/-! ### The conditions are needed -/

/-- The squared distance to `c` in one dimension. -/
noncomputable def parabola (c v : ℝ) : Prob 1 :=
  ⟨fun x => .ok ((x 0 - c) ^ 2 + v), fun _ => -5, fun _ => 5, some fun _ => c, some v⟩

theorem parabola_optimal (c v : ℝ) : Spec.Optimal (parabola c v) (fun _ => c) v :=
  ⟨rfl, rfl, by simp [parabola], fun x => ⟨_, rfl, by nlinarith [sq_nonneg (x 0 - c)]⟩⟩

/-- **C54** (negative factor). Scaling by a negative factor makes evaluations fail. -/
theorem C54_negative_factor : (objScale (-1) (parabola 0 0)).eval (fun _ => 1) = .assertFail := by
  simp only [objScale, parabola, Res.ok_bind, check, Option.map_some]
  rw [if_neg (by norm_num)]

/-- **C54** (factor 0). Scaling the variables by 0 keeps the old best parameter, which need not be one. -/
theorem C54_factor_zero : (varsScale 0 (parabola 1 0)).bestParam = some (fun _ => 1) ∧
    (varsScale 0 (parabola 1 0)).bestValue = some 0 ∧ (varsScale 0 (parabola 1 0)).eval (fun _ => 1) = .ok 1 := by
  refine ⟨by simp [varsScale, parabola], rfl, ?_⟩
  simp only [varsScale, parabola, via, Res.ok_bind]
  rw [check_ok (by norm_num)]
  norm_num

/-- **C54** (matrix not orthogonal). The affine transformation keeps the old best parameter for a matrix that is not
orthogonal, here a doubling. -/
theorem C54_not_orthogonal : (affine (fun _ _ => 2) (fun _ => 0) (parabola 1 0)).bestParam = some (fun _ => 1) ∧
    (affine (fun _ _ => 2) (fun _ => 0) (parabola 1 0)).bestValue = some 0 ∧
    (affine (fun _ _ => 2) (fun _ => 0) (parabola 1 0)).eval (fun _ => 1) = .ok 1 := by
  refine ⟨?_, rfl, ?_⟩
  · have : ¬ isOrthogonal (n := 1) (fun _ _ => 2) := by
      intro h
      have := h 0 0
      simp at this
      rw [abs_of_pos (by norm_num)] at this
      exact absurd this (by norm_num)
    simp only [affine, parabola]
    rw [if_pos this, ite_self]
  · simp only [affine, parabola, via, affineMap, Res.ok_bind]
    simp only [Finset.univ_unique, Finset.sum_singleton]
    rw [check_ok (by norm_num)]
    norm_num

/-- **C54** (small best parameter). The affine transformation by the orthogonal matrix -1 keeps a best parameter that
is not 0 but below 1e-9, and the recorded best parameter is wrong afterwards. -/
theorem C54_tolerance : Spec.Orthonormal (n := 1) (fun _ _ => -1) ∧
    (affine (fun _ _ => -1) (fun _ => 0) (parabola (1 / 10 ^ 10) 0)).bestParam = some (fun _ => 1 / 10 ^ 10) ∧
    (affine (fun _ _ => -1) (fun _ => 0) (parabola (1 / 10 ^ 10) 0)).bestValue = some 0 ∧
    (affine (fun _ _ => -1) (fun _ => 0) (parabola (1 / 10 ^ 10) 0)).eval (fun _ => 1 / 10 ^ 10) ≠ .ok 0 := by
  refine ⟨?_, ?_, rfl, ?_⟩
  · intro i j; simp [Subsingleton.elim i j]
  · simp only [affine, parabola]
    refine if_neg ?_
    rintro (h | h)
    · rw [bestNotZero_some] at h
      obtain ⟨i, h⟩ := h
      rw [abs_of_pos (by norm_num)] at h
      exact absurd h (by norm_num)
    · exact h fun i => by rw [abs_zero]; norm_num
  · simp only [affine, parabola, via, affineMap, Res.ok_bind]
    simp only [Finset.univ_unique, Finset.sum_singleton]
    rw [check_ok (by positivity)]
    intro h
    injection h with h
    norm_num at h

/-- A problem of 41 variables with the constant value 1. -/
noncomputable def ones : Prob 41 := ⟨fun _ => .ok 1, fun _ => -5, fun _ => 5, some 0, some 1⟩

/-- **C54** (normalisation by the dimension). In more than 40 dimensions the values are scaled but the best value is
not: with a positive best value the evaluation of the best parameter fails. -/
theorem C54_norm_by_dim : Spec.Optimal ones 0 1 ∧ (normByDim ones).eval 0 = .assertFail := by
  refine ⟨⟨rfl, rfl, rfl, fun x => ⟨1, rfl, le_rfl⟩⟩, ?_⟩
  simp only [normByDim, ones, Res.ok_bind, check]
  rw [if_neg]
  rw [min_eq_right (by norm_num)]
  norm_num

/-- The squared distance to (0, 1) in two dimensions. -/
noncomputable def off : Prob 2 :=
  ⟨fun x => .ok (x 0 ^ 2 + (x 1 - 1) ^ 2), fun _ => -5, fun _ => 5, some ![0, 1], some 0⟩

/-- **C54** (best parameter other than 0). The conditioning with 100 leaves the recorded best parameter (0, 1), although
it is one no longer. -/
theorem C54_conditioning : Spec.Optimal off ![0, 1] 0 ∧ (conditioning 100 off).bestParam = some ![0, 1] ∧
    (conditioning 100 off).bestValue = some 0 ∧ (conditioning 100 off).eval ![0, 1] = .ok 81 := by
  refine ⟨⟨rfl, rfl, by simp [off], fun x => ⟨_, rfl, by positivity⟩⟩, rfl, rfl, ?_⟩
  simp only [conditioning, off, via]
  rw [if_neg (by norm_num)]
  have e : (100 : ℝ) ^ (0.5 * ((1 : Fin 2) : ℝ) / (((2 : Nat) : ℝ) - 1)) = 10 := by
    rw [show (100 : ℝ) = 10 ^ (2 : ℝ) by norm_num, ← Real.rpow_mul (by norm_num)]
    norm_num
  simp only [Res.ok_bind, Matrix.cons_val_zero, Matrix.cons_val_one, mul_zero, mul_one]
  rw [e, check_ok (by norm_num)]
  norm_num

end Transform
