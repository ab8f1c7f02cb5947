import Mathlib.Topology.Order.MonotoneContinuity
import Mathlib.Topology.Order.IntermediateValue
import Verif.Model.Brent
import Verif.Props.ConsSuite

/-!
# C98: the numerical inverse of the non-linear transformations

The statements use the function, its argument and the result; `Brent.Spec.Reached` is what a result with the flag `true` means.
-/

namespace Brent

/-- `x` solves `f x = y`, or the sign of `f - y` changes between `x` and a point of the interval that is closer than the
tolerance. -/
def Spec.Reached (f : ℝ → ℝ) (y lo hi xtol rtol x : ℝ) : Prop :=
  f x = y ∨ ∃ z, lo ≤ z ∧ z ≤ hi ∧ |z - x| < xtol + rtol * |x| ∧ (f x - y) * (f z - y) < 0

/-! ### One pass through the loop -/

/-- Before every pass: the estimates lie in the interval, and a change of the sign is known. -/
structure Top (f : ℝ → ℝ) (y lo hi : ℝ) (v : Vars) : Prop where
  pre : lo ≤ v.xpre ∧ v.xpre ≤ hi
  cur : lo ≤ v.xcur ∧ v.xcur ≤ hi
  fpre : v.fpre = f v.xpre - y
  fcur : v.fcur = f v.xcur - y
  pre0 : v.fpre ≠ 0
  blk : v.fcur = 0 ∨ v.fcur * v.fpre < 0 ∨
    (0 < v.fcur * v.fpre ∧ (lo ≤ v.xblk ∧ v.xblk ≤ hi) ∧ v.fblk = f v.xblk - y ∧ v.fblk * v.fcur < 0 ∧
      (v.xpre - v.xcur) * (v.xblk - v.xcur) < 0)

/-- After the exchange, when the current estimate is not a root. -/
structure Mid (f : ℝ → ℝ) (y lo hi : ℝ) (v : Vars) : Prop where
  cur : lo ≤ v.xcur ∧ v.xcur ≤ hi
  fcur : v.fcur = f v.xcur - y
  blk : lo ≤ v.xblk ∧ v.xblk ≤ hi
  fblk : v.fblk = f v.xblk - y
  sign : v.fblk * v.fcur < 0
  pre : (v.xpre = v.xblk ∧ v.fpre = v.fblk) ∨ (0 < v.fcur * v.fpre ∧ (v.xpre - v.xcur) * (v.xblk - v.xcur) < 0)

theorem signs_ne {a b : ℝ} (ha : a ≠ 0) (hb : b ≠ 0) : (decide (a < 0) ≠ decide (b < 0)) ↔ a * b < 0 := by
  rcases lt_or_gt_of_ne ha with h | h <;> rcases lt_or_gt_of_ne hb with h' | h'
  · simp [h, h', (mul_pos_of_neg_of_neg h h').le]
  · simp [h, h'.le, mul_neg_of_neg_of_pos h h']
  · simp [h', h.le, mul_neg_of_pos_of_neg h h']
  · simp [not_lt.mpr h.le, not_lt.mpr h'.le, (mul_pos h h').le]

theorem mid_of_top {f : ℝ → ℝ} {y lo hi : ℝ} {v : Vars} (h : Top f y lo hi v) :
    (exchange (bracket v) = v ∧ v.fcur = 0) ∨ Mid f y lo hi (exchange (bracket v)) := by
  obtain ⟨p1, p2, p3, p4, p5, p6⟩ := h
  rcases p6 with h0 | hn | ⟨hp, b1, b2, b3, b4⟩
  · left
    have : bracket v = v := if_neg fun h => h.2.1 h0
    rw [this]
    refine ⟨if_neg ?_, h0⟩
    rw [h0, abs_zero]
    exact not_lt.mpr (abs_nonneg _)
  · right
    have c0 : v.fcur ≠ 0 := fun h => by rw [h, zero_mul] at hn; exact lt_irrefl _ hn
    have hb : bracket v = { v with xblk := v.xpre, fblk := v.fpre, spre := v.xcur - v.xpre, scur := v.xcur - v.xpre } :=
      if_pos ⟨p5, c0, (signs_ne p5 c0).mpr (by rwa [mul_comm])⟩
    rw [hb]
    unfold exchange
    split_ifs with hx
    · exact ⟨p1, p3, p2, p4, hn, .inl ⟨rfl, rfl⟩⟩
    · exact ⟨p2, p4, p1, p3, by rwa [mul_comm], .inl ⟨rfl, rfl⟩⟩
  · right
    have c0 : v.fcur ≠ 0 := fun h => by rw [h, zero_mul] at hp; exact lt_irrefl _ hp
    have hb : bracket v = v :=
      if_neg fun h => absurd ((signs_ne p5 c0).mp h.2.2) (not_lt.mpr (by rw [mul_comm]; exact hp.le))
    rw [hb]
    unfold exchange
    split_ifs with hx
    · exact ⟨b1, b2, p2, p4, by rwa [mul_comm], .inl ⟨rfl, rfl⟩⟩
    · exact ⟨p2, p4, b1, b2, b3, .inr ⟨hp, b4⟩⟩

/-- No division by zero, and the step goes towards the other end of the bracket. -/
theorem tryStep_ok {f : ℝ → ℝ} {y lo hi : ℝ} {v : Vars} (h : Mid f y lo hi v) (hd : v.xblk ≠ v.xcur)
    (ha : |v.fcur| < |v.fpre|) : ∃ s, tryStep v = .ok s ∧ 0 < s * (v.xblk - v.xcur) := by
  obtain ⟨-, -, -, -, hs, hp⟩ := h
  unfold tryStep
  have hd' : v.xblk - v.xcur ≠ 0 := sub_ne_zero.mpr hd
  have hsq : 0 < (v.xblk - v.xcur) ^ 2 := by positivity
  have c0 : v.fcur ≠ 0 := fun h => by rw [h, mul_zero] at hs; exact lt_irrefl _ hs
  have b0 : v.fblk ≠ 0 := fun h => by rw [h, zero_mul] at hs; exact lt_irrefl _ hs
  have cb : v.fblk - v.fcur ≠ 0 := fun h => by
    rw [sub_eq_zero.mp h] at hs
    nlinarith [mul_self_nonneg v.fcur]
  split_ifs with he
  · rcases hp with ⟨-, e⟩ | ⟨-, hn⟩
    · have hz : v.fcur - v.fpre ≠ 0 := by rw [e]; exact fun h => cb (by linarith)
      refine ⟨_, if_neg hz, ?_⟩
      rw [he, e]
      have e2 : -v.fcur * (v.xcur - v.xblk) / (v.fcur - v.fblk) * (v.xblk - v.xcur) =
          (v.fcur * (v.fcur - v.fblk)) / (v.fcur - v.fblk) ^ 2 * (v.xblk - v.xcur) ^ 2 := by
        have : v.fcur - v.fblk ≠ 0 := fun h => cb (by linarith)
        field_simp
        ring
      rw [e2]
      have h1 : 0 < v.fcur * (v.fcur - v.fblk) := by nlinarith [mul_self_nonneg v.fcur]
      have h2 : 0 < (v.fcur - v.fblk) ^ 2 := by
        have : v.fcur - v.fblk ≠ 0 := fun h => cb (by linarith)
        positivity
      positivity
    · rw [he] at hn
      nlinarith [mul_self_nonneg (v.xblk - v.xcur)]
  · rcases hp with ⟨e, -⟩ | ⟨hpos, hn⟩
    · exact absurd e he
    · have px : v.xpre - v.xcur ≠ 0 := fun h => by rw [h, zero_mul] at hn; exact lt_irrefl _ hn
      have pf : v.fpre - v.fcur ≠ 0 := fun h => by rw [sub_eq_zero.mp h] at ha; exact lt_irrefl _ ha
      have p0 : v.fpre ≠ 0 := fun h => by rw [h, mul_zero] at hpos; exact lt_irrefl _ hpos
      have bp : v.fblk - v.fpre ≠ 0 := fun h => by
        rw [sub_eq_zero.mp h, mul_comm] at hs
        exact lt_asymm hs hpos
      have d0 : (v.fblk - v.fcur) / (v.xblk - v.xcur) * ((v.fpre - v.fcur) / (v.xpre - v.xcur)) * (v.fblk - v.fpre) ≠ 0 :=
        mul_ne_zero (mul_ne_zero (div_ne_zero cb hd') (div_ne_zero pf px)) bp
      refine ⟨-v.fcur * (v.fblk * ((v.fblk - v.fcur) / (v.xblk - v.xcur)) - v.fpre * ((v.fpre - v.fcur) / (v.xpre - v.xcur))) /
        ((v.fblk - v.fcur) / (v.xblk - v.xcur) * ((v.fpre - v.fcur) / (v.xpre - v.xcur)) * (v.fblk - v.fpre)), ?_, ?_⟩
      · unfold quotient
        rw [if_neg px, Res.ok_bind, if_neg hd', Res.ok_bind, if_neg d0]
      · -- the step is a mean of the two linear steps
        generalize v.fcur = c at *
        generalize v.fpre = p at *
        generalize v.fblk = b at *
        generalize hX : v.xblk - v.xcur = X at *
        generalize hY : v.xpre - v.xcur = Y at *
        have e2 : -c * (b * ((b - c) / X) - p * ((p - c) / Y)) / ((b - c) / X * ((p - c) / Y) * (b - p)) * X =
            (-c * b * X * Y / ((p - c) * (b - p))) + (c * p * X ^ 2 / ((b - c) * (b - p))) := by
          field_simp
          ring
        rw [e2]
        have habs : c ^ 2 < p ^ 2 := sq_lt_sq.mpr ha
        have h1 : 0 < -c * b * X * Y / ((p - c) * (b - p)) := by
          have hXY : X * Y < 0 := by rw [mul_comm]; exact hn
          have hnum : -c * b * X * Y < 0 := by
            have : 0 < -c * b := by nlinarith
            nlinarith
          have hden : (p - c) * (b - p) < 0 := by
            rcases lt_or_gt_of_ne c0 with hc | hc
            · have : p < 0 := by by_contra h; nlinarith
              have : 0 < b := by by_contra h; nlinarith
              have : p < c := by nlinarith
              nlinarith
            · have : 0 < p := by by_contra h; nlinarith
              have : b < 0 := by by_contra h; nlinarith
              have : c < p := by nlinarith
              nlinarith
          exact div_pos_of_neg_of_neg hnum hden
        have h2 : 0 < c * p * X ^ 2 / ((b - c) * (b - p)) := by
          have hden : 0 < (b - c) * (b - p) := by
            rcases lt_or_gt_of_ne c0 with hc | hc
            · have : p < 0 := by by_contra h; nlinarith
              have : 0 < b := by by_contra h; nlinarith
              nlinarith
            · have : 0 < p := by by_contra h; nlinarith
              have : b < 0 := by by_contra h; nlinarith
              nlinarith
          positivity
        linarith

theorem step_inside {x z s : ℝ} (h1 : 0 < s * (z - x)) (h2 : |s| < |z - x|) :
    (x - (x + s)) * (z - (x + s)) < 0 := by
  rcases lt_or_gt_of_ne (show s ≠ 0 from fun h => by rw [h, zero_mul] at h1; exact lt_irrefl _ h1) with h | h
  · have : z - x < 0 := by by_contra h'; nlinarith
    rw [abs_of_neg h, abs_of_neg this] at h2
    nlinarith
  · have : 0 < z - x := by by_contra h'; nlinarith
    rw [abs_of_pos h, abs_of_pos this] at h2
    nlinarith

/-- The step that is taken: towards the other end of the bracket, and not beyond it. -/
theorem chooseStep_ok {f : ℝ → ℝ} {y lo hi : ℝ} {v : Vars} (h : Mid f y lo hi v) {delta : ℝ} (h0 : 0 < delta)
    (hd : delta ≤ |(v.xblk - v.xcur) / 2|) :
    ∃ a s, chooseStep v delta ((v.xblk - v.xcur) / 2) = .ok (a, s) ∧ 0 < s * (v.xblk - v.xcur) ∧ |s| < |v.xblk - v.xcur| := by
  have hX : 0 < |v.xblk - v.xcur| := by
    rw [abs_div, abs_two] at hd
    linarith
  have hne : v.xblk - v.xcur ≠ 0 := abs_pos.mp hX
  have hbis : 0 < (v.xblk - v.xcur) / 2 * (v.xblk - v.xcur) ∧ |(v.xblk - v.xcur) / 2| < |v.xblk - v.xcur| := by
    constructor
    · have : 0 < (v.xblk - v.xcur) ^ 2 := by positivity
      nlinarith
    · rw [abs_div, abs_two]
      linarith
  unfold chooseStep
  by_cases hc : |v.spre| > delta ∧ |v.fcur| < |v.fpre|
  · rw [if_pos hc]
    obtain ⟨s, es, hs⟩ := tryStep_ok h (sub_ne_zero.mp hne) hc.2
    rw [es, Res.ok_bind]
    by_cases ht : 2 * |s| < (if |v.spre| < 3 * |(v.xblk - v.xcur) / 2| - delta then |v.spre|
        else 3 * |(v.xblk - v.xcur) / 2| - delta)
    · rw [if_pos ht]
      refine ⟨_, _, rfl, hs, ?_⟩
      have ht : 2 * |s| < 3 * |(v.xblk - v.xcur) / 2| - delta := by
        split_ifs at ht with h1
        · exact ht.trans h1
        · exact ht
      rw [abs_div, abs_two] at ht
      linarith
    · rw [if_neg ht]
      exact ⟨_, _, rfl, hbis⟩
  · rw [if_neg hc]
    exact ⟨_, _, rfl, hbis⟩

theorem top_of_mid {f : ℝ → ℝ} {y lo hi : ℝ} {v : Vars} (h : Mid f y lo hi v) {delta a s : ℝ} (h0 : 0 < delta)
    (hd : delta ≤ |(v.xblk - v.xcur) / 2|) (hs : 0 < s * (v.xblk - v.xcur)) (hl : |s| < |v.xblk - v.xcur|) :
    Top f y lo hi (advance f y v delta ((v.xblk - v.xcur) / 2) a s) := by
  obtain ⟨m1, m2, m3, m4, m5, -⟩ := h
  have hX : 0 < |v.xblk - v.xcur| := (abs_nonneg s).trans_lt hl
  have hne : v.xblk - v.xcur ≠ 0 := abs_pos.mp hX
  have key : ∃ s', (if |s| > delta then s else if (v.xblk - v.xcur) / 2 > 0 then delta else -delta) = s' ∧
      0 < s' * (v.xblk - v.xcur) ∧ |s'| < |v.xblk - v.xcur| := by
    refine ⟨_, rfl, ?_⟩
    rw [abs_div, abs_two] at hd
    split_ifs with h1 h2
    · exact ⟨hs, hl⟩
    · refine ⟨by nlinarith, ?_⟩
      rw [abs_of_pos h0]
      linarith
    · have : v.xblk - v.xcur < 0 := lt_of_le_of_ne (by linarith) hne
      refine ⟨by nlinarith, ?_⟩
      rw [abs_neg, abs_of_pos h0]
      linarith
  obtain ⟨s', es, k1, k2⟩ := key
  have hin := step_inside k1 k2
  have c0 : v.fcur ≠ 0 := fun h => by rw [h, mul_zero] at m5; exact lt_irrefl _ m5
  have hb : lo ≤ v.xcur + s' ∧ v.xcur + s' ≤ hi := by
    rcases lt_or_gt_of_ne hne with h | h
    · have : s' < 0 := by by_contra h'; nlinarith
      rw [abs_of_neg this, abs_of_neg h] at k2
      constructor <;> linarith
    · have : 0 < s' := by by_contra h'; nlinarith
      rw [abs_of_pos this, abs_of_pos h] at k2
      constructor <;> linarith
  unfold advance
  rw [es]
  refine ⟨m1, hb, m2, rfl, c0, ?_⟩
  dsimp only
  rcases lt_trichotomy ((f (v.xcur + s') - y) * v.fcur) 0 with h | h | h
  · exact .inr (.inl h)
  · exact .inl ((mul_eq_zero.mp h).resolve_right c0)
  · refine .inr (.inr ⟨h, m3, m4, ?_, hin⟩)
    rcases lt_or_gt_of_ne c0 with hc | hc
    · have : f (v.xcur + s') - y < 0 := by by_contra h'; nlinarith
      have : 0 < v.fblk := by by_contra h'; nlinarith
      nlinarith
    · have : 0 < f (v.xcur + s') - y := by by_contra h'; nlinarith
      have : v.fblk < 0 := by by_contra h'; nlinarith
      nlinarith

theorem loop_ok {f : ℝ → ℝ} {y lo hi xtol rtol : ℝ} (hx : 0 < xtol) (hr : 0 ≤ rtol) (iter : Nat) {v : Vars}
    (h : Top f y lo hi v) :
    ∃ x b, loop f y xtol rtol iter v = .ok (x, b) ∧ (lo ≤ x ∧ x ≤ hi) ∧
      (b = true → Spec.Reached f y lo hi xtol rtol x) := by
  induction iter generalizing v with
  | zero => exact ⟨_, _, rfl, h.cur, by simp⟩
  | succ iter ih =>
    unfold loop
    dsimp only
    rcases mid_of_top h with ⟨e, h0⟩ | hm
    · rw [e, if_pos (.inl h0)]
      exact ⟨_, _, rfl, h.cur, fun _ => .inl (by have := h.fcur; linarith)⟩
    · generalize exchange (bracket v) = w at *
      have hdel : 0 < (xtol + rtol * |w.xcur|) / 2 := by positivity
      split_ifs with hc
      · refine ⟨_, _, rfl, hm.cur, fun _ => ?_⟩
        rcases hc with hc | hc
        · exact .inl (by have := hm.fcur; linarith)
        · refine .inr ⟨w.xblk, hm.blk.1, hm.blk.2, ?_, ?_⟩
          · rw [abs_div, abs_two] at hc
            linarith
          · rw [← hm.fcur, ← hm.fblk, mul_comm]
            exact hm.sign
      · push Not at hc
        obtain ⟨a, s, es, h1, h2⟩ := chooseStep_ok hm hdel hc.2
        rw [es, Res.ok_bind]
        exact ih (top_of_mid hm hdel hc.2 h1 h2)

/-! ### The root finder -/

/-- **C98** (root finder). For every function, value, pair of end points, positive tolerance and number of iterations: if the
values at the end points lie on the same side of `y`, the result is NaN. Otherwise no division by zero occurs, the result
lies between the end points and, unless the iterations are used up, solves the equation or is closer to a change of the sign
than the tolerance. -/
theorem C98_root_finder (f : ℝ → ℝ) (y xa xb xtol rtol : ℝ) (iter : Nat) (hx : 0 < xtol) (hr : 0 ≤ rtol) :
    (0 < (f xa - y) * (f xb - y) → brentq f y xa xb xtol rtol iter = .ok (none, false)) ∧
    ((f xa - y) * (f xb - y) ≤ 0 → ∃ x b, brentq f y xa xb xtol rtol iter = .ok (some x, b) ∧
      (min xa xb ≤ x ∧ x ≤ max xa xb) ∧ (b = true → Spec.Reached f y (min xa xb) (max xa xb) xtol rtol x)) := by
  unfold brentq
  dsimp only
  refine ⟨fun h => if_pos h, fun h => ?_⟩
  rw [if_neg (not_lt.mpr h)]
  split_ifs with h1 h2
  · exact ⟨_, _, rfl, ⟨min_le_left _ _, le_max_left _ _⟩, fun _ => .inl (by linarith)⟩
  · exact ⟨_, _, rfl, ⟨min_le_right _ _, le_max_right _ _⟩, fun _ => .inl (by linarith)⟩
  · obtain ⟨x, b, e, h3, h4⟩ := loop_ok (f := f) (y := y) (lo := min xa xb) (hi := max xa xb) hx hr iter
      (v := ⟨xa, xb, 0, f xa - y, f xb - y, 0, 0, 0⟩)
      ⟨⟨min_le_left _ _, le_max_left _ _⟩, ⟨min_le_right _ _, le_max_right _ _⟩, rfl, rfl, h1,
        .inr (.inl (by rw [mul_comm]; exact lt_of_le_of_ne h (mul_ne_zero h1 h2)))⟩
    rw [e, Res.ok_bind]
    exact ⟨x, b, rfl, h3, h4⟩

/-- For a continuous function there is a root within the tolerance. -/
theorem root_near {f : ℝ → ℝ} (hf : Continuous f) {y lo hi xtol rtol x : ℝ} (hx : 0 < xtol) (hr : 0 ≤ rtol)
    (h : Spec.Reached f y lo hi xtol rtol x) : ∃ z, f z = y ∧ |z - x| < xtol + rtol * |x| := by
  rcases h with h | ⟨z, -, -, hz, hs⟩
  · exact ⟨x, h, by rw [sub_self, abs_zero]; positivity⟩
  · have : y ∈ Set.uIcc (f x) (f z) := by
      rw [Set.mem_uIcc]
      rcases lt_or_ge (f x) y with h | h
      · left
        refine ⟨h.le, ?_⟩
        by_contra h'
        nlinarith
      · right
        refine ⟨?_, h⟩
        by_contra h'
        nlinarith
    obtain ⟨w, hw, e⟩ := intermediate_value_uIcc hf.continuousOn this
    refine ⟨w, e, lt_of_le_of_lt ?_ hz⟩
    rw [abs_sub_comm w, abs_sub_comm z]
    rw [Set.mem_uIcc] at hw
    rcases hw with ⟨a, b⟩ | ⟨a, b⟩
    · rw [abs_of_nonpos (by linarith), abs_of_nonpos (by linarith)]; linarith
    · rw [abs_of_nonneg (by linarith), abs_of_nonneg (by linarith)]; linarith

/-! ### The inverse -/

/-- What the inversion expects of a transformation: it is monotone, takes every value, and keeps the sign. -/
structure Spec.Invertible (T : ℝ → ℝ) : Prop where
  mono : Monotone T
  onto : Function.Surjective T
  pos : ∀ x, 0 < x → 0 < T x
  neg : ∀ x, x < 0 → T x < 0

theorem scaleWhile_ok {cond : ℝ → Prop} {c x : ℝ} (h : ∃ k : Nat, ¬ cond (x * c ^ k)) :
    ∃ k : Nat, scaleWhile cond c x = .ok (x * c ^ k) ∧ ¬ cond (x * c ^ k) ∧
      (k = 0 ∨ ∃ j, k = j + 1 ∧ cond (x * c ^ j)) := by
  classical
  unfold scaleWhile
  rw [dif_pos h]
  refine ⟨_, rfl, Nat.find_spec h, ?_⟩
  rcases Nat.eq_zero_or_pos (Nat.find h) with h0 | h0
  · exact .inl h0
  · refine .inr ⟨Nat.find h - 1, by omega, ?_⟩
    by_contra hn
    have := Nat.find_min' h hn
    omega

theorem eventually_large {z y : ℝ} (hy : 0 < y) : ∃ k : Nat, z ≤ y * 2 ^ k := by
  obtain ⟨k, hk⟩ := pow_unbounded_of_one_lt (z / y) (one_lt_two (α := ℝ))
  refine ⟨k, ?_⟩
  have := (div_lt_iff₀ hy).mp hk
  linarith [mul_comm y ((2 : ℝ) ^ k)]

theorem eventually_small {z y : ℝ} (hz : 0 < z) (hy : 0 < y) : ∃ k : Nat, y * (1 / 2) ^ k ≤ z := by
  obtain ⟨k, hk⟩ := exists_pow_lt_of_lt_one (div_pos hz hy) (show (1 / 2 : ℝ) < 1 by norm_num)
  refine ⟨k, ?_⟩
  have := (lt_div_iff₀ hy).mp hk
  linarith [mul_comm y ((1 / 2 : ℝ) ^ k)]

theorem Spec.Invertible.zero {T : ℝ → ℝ} (h : Spec.Invertible T) : T 0 = 0 := by
  obtain ⟨w, hw⟩ := h.onto 0
  rcases lt_trichotomy w 0 with h' | h' | h'
  · exact absurd hw (h.neg w h').ne
  · rw [← h', hw, h']
  · exact absurd hw (h.pos w h').ne'

/-- The end points found by `brentinv`: they enclose the value, keep the sign, and exceed neither the argument nor twice
the inverse. -/
theorem ends_ok {T : ℝ → ℝ} (h : Spec.Invertible T) (y : ℝ) :
    ∃ lo hi, brentinv T y = brentq T y lo hi (1 / 10 ^ 14) (1 / 10 ^ 10) 200 ∧ lo ≤ hi ∧ T lo ≤ y ∧ y ≤ T hi ∧
      (0 < y → 0 < lo ∧ ∀ z, T z = y → hi ≤ max y (2 * z) ∧ min y (z / 2) ≤ lo) ∧
      (y < 0 → hi < 0 ∧ ∀ z, T z = y → min y (2 * z) ≤ lo ∧ hi ≤ max y (z / 2)) ∧ (y = 0 → lo = 0 ∧ hi = 0) := by
  obtain ⟨w, hw⟩ := h.onto y
  unfold brentinv
  rcases lt_trichotomy y 0 with hy | hy | hy
  · have hw0 : w < 0 := by
      by_contra h'
      have := h.mono (not_lt.mp h')
      rw [h.zero] at this
      linarith
    simp only [if_neg (not_lt.mpr hy.le)]
    by_cases hc : T y > y
    · rw [if_pos hc, if_pos hc]
      obtain ⟨k, hk⟩ := eventually_large (z := -w) (neg_pos.mpr hy)
      obtain ⟨k, e, h1, h2⟩ := scaleWhile_ok (cond := fun x => T x > y) (c := 2) (x := y)
        ⟨k, not_lt.mpr ((h.mono (by linarith)).trans hw.le)⟩
      have hp : (1 : ℝ) ≤ 2 ^ k := one_le_pow₀ (by norm_num)
      rw [e, Res.ok_bind, Res.ok_bind]
      refine ⟨_, _, rfl, by nlinarith, not_lt.mp h1, hc.le, fun h' => absurd h' (not_lt.mpr hy.le),
        fun _ => ⟨hy, fun z hz => ⟨?_, le_max_left _ _⟩⟩, fun h' => absurd h' hy.ne⟩
      rcases h2 with rfl | ⟨j, rfl, h2⟩
      · rw [pow_zero, mul_one]
        exact min_le_left _ _
      · have : z < y * 2 ^ j := by
          by_contra h'
          have := h.mono (not_lt.mp h')
          linarith
        refine (min_le_right _ _).trans ?_
        rw [pow_succ]
        linarith
    · rw [if_neg hc, if_neg hc]
      obtain ⟨k, hk⟩ := eventually_small (z := -w) (neg_pos.mpr hw0) (neg_pos.mpr hy)
      obtain ⟨k, e, h1, h2⟩ := scaleWhile_ok (cond := fun x => T x < y) (c := 1 / 2) (x := y)
        ⟨k, not_lt.mpr (by conv_lhs => rw [← hw]
                           exact h.mono (by linarith))⟩
      have hp : (0 : ℝ) < (1 / 2) ^ k := by positivity
      have hp1 : ((1 : ℝ) / 2) ^ k ≤ 1 := pow_le_one₀ (by norm_num) (by norm_num)
      rw [e, Res.ok_bind, Res.ok_bind]
      refine ⟨_, _, rfl, by nlinarith, not_lt.mp hc, not_lt.mp h1, fun h' => absurd h' (not_lt.mpr hy.le),
        fun _ => ⟨by nlinarith, fun z hz => ⟨min_le_left _ _, ?_⟩⟩, fun h' => absurd h' hy.ne⟩
      rcases h2 with rfl | ⟨j, rfl, h2⟩
      · rw [pow_zero, mul_one]
        exact le_max_left _ _
      · have : y * (1 / 2) ^ j < z := by
          by_contra h'
          have := h.mono (not_lt.mp h')
          linarith
        refine le_trans ?_ (le_max_right _ _)
        rw [pow_succ]
        linarith
  · subst hy
    have h0 : ¬ T 0 > 0 := by rw [h.zero]; exact lt_irrefl _
    rw [if_neg h0, if_neg h0, if_neg (lt_irrefl _)]
    obtain ⟨k, e, h1, h2⟩ := scaleWhile_ok (cond := fun x => T x < 0) (c := 1 / 2) (x := 0)
        ⟨0, by rw [zero_mul, h.zero]; exact lt_irrefl _⟩
    rw [zero_mul] at e
    rw [e, Res.ok_bind, Res.ok_bind]
    exact ⟨_, _, rfl, le_rfl, h.zero.le, h.zero.ge, fun h' => absurd h' (lt_irrefl _), fun h' => absurd h' (lt_irrefl _),
      fun _ => ⟨rfl, rfl⟩⟩
  · have hw0 : 0 < w := by
      by_contra h'
      have := h.mono (not_lt.mp h')
      rw [h.zero] at this
      linarith
    simp only [if_pos hy]
    by_cases hc : T y > y
    · rw [if_pos hc, if_pos hc]
      obtain ⟨k, hk⟩ := eventually_small hw0 hy
      obtain ⟨k, e, h1, h2⟩ := scaleWhile_ok (cond := fun x => T x > y) (c := 1 / 2) (x := y)
        ⟨k, not_lt.mpr (by conv_rhs => rw [← hw]
                           exact h.mono hk)⟩
      have hp : (0 : ℝ) < (1 / 2) ^ k := by positivity
      have hp1 : ((1 : ℝ) / 2) ^ k ≤ 1 := pow_le_one₀ (by norm_num) (by norm_num)
      rw [e, Res.ok_bind, Res.ok_bind]
      refine ⟨_, _, rfl, by nlinarith, not_lt.mp h1, hc.le, fun _ => ⟨by positivity, fun z hz => ⟨le_max_left _ _, ?_⟩⟩,
        fun h' => absurd h' (not_lt.mpr hy.le), fun h' => absurd h' hy.ne'⟩
      rcases h2 with rfl | ⟨j, rfl, h2⟩
      · rw [pow_zero, mul_one]
        exact min_le_left _ _
      · have : z < y * (1 / 2) ^ j := by
          by_contra h'
          have := h.mono (not_lt.mp h')
          linarith
        refine (min_le_right _ _).trans ?_
        rw [pow_succ]
        linarith
    · rw [if_neg hc, if_neg hc]
      obtain ⟨k, hk⟩ := eventually_large (z := w) hy
      obtain ⟨k, e, h1, h2⟩ := scaleWhile_ok (cond := fun x => T x < y) (c := 2) (x := y)
        ⟨k, not_lt.mpr (by conv_lhs => rw [← hw]
                           exact h.mono hk)⟩
      have hp : (1 : ℝ) ≤ 2 ^ k := one_le_pow₀ (by norm_num)
      rw [e, Res.ok_bind, Res.ok_bind]
      refine ⟨_, _, rfl, by nlinarith, not_lt.mp hc, not_lt.mp h1, fun _ => ⟨hy, fun z hz => ⟨?_, min_le_left _ _⟩⟩,
        fun h' => absurd h' (not_lt.mpr hy.le), fun h' => absurd h' hy.ne'⟩
      rcases h2 with rfl | ⟨j, rfl, h2⟩
      · rw [pow_zero, mul_one]
        exact le_max_left _ _
      · have : y * 2 ^ j < z := by
          by_contra h'
          have := h.mono (not_lt.mp h')
          linarith
        refine le_trans ?_ (le_max_right _ _)
        rw [pow_succ]
        linarith

/-- **C98** (inverse). For every monotone function that takes every value and keeps the sign, and every value: the search
for the end points ends, the result is a number with the sign of the value, its size lies between the smaller and the
larger of the size of the value and half, respectively twice, the size of the exact inverse and, unless the 200 iterations
are used up, its distance from an exact inverse is below 1e-14 plus 1e-10 times its size. -/
theorem C98_inverse (T : ℝ → ℝ) (h : Spec.Invertible T) (y : ℝ) :
    ∃ x b, brentinv T y = .ok (some x, b) ∧ ((0 < y ↔ 0 < x) ∧ (y < 0 ↔ x < 0)) ∧
      (∀ z, T z = y → min |y| (|z| / 2) ≤ |x| ∧ |x| ≤ max |y| (2 * |z|)) ∧
      (b = true → ∃ z, T z = y ∧ |z - x| < 1 / 10 ^ 14 + 1 / 10 ^ 10 * |x|) := by
  obtain ⟨lo, hi, e, hle, h1, h2, h3, h4, h5⟩ := ends_ok h y
  obtain ⟨x, b, e2, ⟨hl, hh⟩, hr⟩ := (C98_root_finder T y lo hi (1 / 10 ^ 14) (1 / 10 ^ 10) 200 (by norm_num)
    (by norm_num)).2 (mul_nonpos_of_nonpos_of_nonneg (by linarith) (by linarith))
  rw [min_eq_left hle] at hl
  rw [max_eq_right hle] at hh
  refine ⟨x, b, by rw [e, e2], ?_, ?_, fun hb =>
    root_near (h.mono.continuous_of_surjective h.onto) (by norm_num) (by norm_num) (hr hb)⟩
  · rcases lt_trichotomy y 0 with hy | hy | hy
    · have := (h4 hy).1
      refine ⟨⟨fun h' => ?_, fun h' => ?_⟩, fun _ => ?_, fun _ => hy⟩ <;> linarith
    · obtain ⟨ha, hb⟩ := h5 hy
      refine ⟨⟨fun h' => ?_, fun h' => ?_⟩, fun h' => ?_, fun h' => ?_⟩ <;> linarith
    · have := (h3 hy).1
      refine ⟨⟨fun _ => ?_, fun _ => hy⟩, fun h' => ?_, fun h' => ?_⟩ <;> linarith
  · intro z hz
    rcases lt_trichotomy y 0 with hy | hy | hy
    · obtain ⟨ha, hb⟩ := h4 hy
      obtain ⟨hb, hc⟩ := hb z hz
      have hz0 : z < 0 := by
        by_contra h'
        have := h.mono (not_lt.mp h')
        rw [h.zero] at this
        linarith
      rw [abs_of_neg hy, abs_of_neg hz0, abs_of_neg (by linarith : x < 0)]
      constructor
      · rcases le_max_iff.mp hc with hc | hc
        · exact (min_le_left _ _).trans (by linarith)
        · exact (min_le_right _ _).trans (by linarith)
      · rcases min_le_iff.mp hb with hc | hc
        · exact le_trans (by linarith) (le_max_left _ _)
        · exact le_trans (by linarith) (le_max_right _ _)
    · obtain ⟨ha, hb⟩ := h5 hy
      have : x = 0 := by linarith
      rw [this, hy, abs_zero]
      exact ⟨min_le_left _ _, le_max_left _ _⟩
    · obtain ⟨ha, hb⟩ := h3 hy
      obtain ⟨hb, hc⟩ := hb z hz
      have hz0 : 0 < z := by
        by_contra h'
        have := h.mono (not_lt.mp h')
        rw [h.zero] at this
        linarith
      rw [abs_of_pos hy, abs_of_pos hz0, abs_of_pos (by linarith : 0 < x)]
      constructor
      · rcases min_le_iff.mp hc with hc | hc
        · exact (min_le_left _ _).trans (by linarith)
        · exact (min_le_right _ _).trans (by linarith)
      · rcases le_max_iff.mp hb with hc | hc
        · exact le_trans (by linarith) (le_max_left _ _)
        · exact le_trans (by linarith) (le_max_right _ _)

/-- Small values have small inverses. -/
theorem inverse_small {T : ℝ → ℝ} (h : Spec.Invertible T) {d : ℝ} (hd : 0 < d) :
    ∃ e > 0, ∀ y x b, |y| < e → brentinv T y = .ok (some x, b) → |x| < d := by
  refine ⟨min d (min (T (d / 2)) (-T (-(d / 2)))), ?_, fun y x b hy hx => ?_⟩
  · have h1 := h.pos (d / 2) (by linarith)
    have h2 := h.neg (-(d / 2)) (by linarith)
    exact lt_min hd (lt_min h1 (by linarith))
  · obtain ⟨x', b', e, -, hb, -⟩ := C98_inverse T h y
    rw [hx] at e
    injection e with e
    injection e with e1 e2
    injection e1 with e1
    subst e1
    obtain ⟨z, hz⟩ := h.onto y
    obtain ⟨-, hb⟩ := hb z hz
    have g1 := lt_min_iff.mp hy
    have g2 := lt_min_iff.mp g1.2
    have hy' := abs_lt.mp g2.1
    have hy'' := abs_lt.mp g2.2
    have hzl : |z| < d / 2 := by
      rw [abs_lt]
      constructor
      · by_contra h'
        have := h.mono (not_lt.mp h')
        linarith
      · by_contra h'
        have := h.mono (not_lt.mp h')
        linarith
    exact hb.trans_lt (max_lt g1.1 (by linarith))

/-! ### The two transformations -/

/-- The oscillating transformation can be inverted. -/
theorem osz_invertible : Spec.Invertible (Transform.tosz (1 / 10)) where
  mono := Warp.tosz_mono
  onto := Warp.tosz_onto
  pos := fun x hx => by rw [Warp.tosz_pos hx]; exact Real.exp_pos _
  neg := fun x hx => by rw [Warp.tosz_neg hx]; exact neg_lt_zero.mpr (Real.exp_pos _)

/-- The asymmetric transformation can be inverted in every coordinate if there are at least two. -/
theorem asy_invertible {n : Nat} (hn : 2 ≤ n) (i : Fin n) : Spec.Invertible (Transform.tasy 0.2 i n) where
  mono := Warp.tasy_mono hn i
  onto := Warp.tasy_onto hn i
  pos := fun x hx => by rw [Warp.tasy_pos i n hx]; exact Real.exp_pos _
  neg := fun x hx => by rw [Warp.tasy_nonpos i n hx.le]; exact hx

/-- **C98** (the two transformations). The numerical inverses of the oscillating transformation and, in dimensions from 2 on,
of the asymmetric transformation are numbers for every value and, unless the iterations are used up, within the tolerance
of exact inverses. -/
theorem C98_transformations (n : Nat) (hn : 2 ≤ n) (i : Fin n) (y : ℝ) :
    (∃ x b, oszInv y = .ok (some x, b) ∧
      (b = true → ∃ z, Transform.tosz (1 / 10) z = y ∧ |z - x| < 1 / 10 ^ 14 + 1 / 10 ^ 10 * |x|)) ∧
    (∃ x b, asyInv i n y = .ok (some x, b) ∧
      (b = true → ∃ z, Transform.tasy 0.2 i n z = y ∧ |z - x| < 1 / 10 ^ 14 + 1 / 10 ^ 10 * |x|)) := by
  obtain ⟨x, b, e, -, -, h⟩ := C98_inverse _ osz_invertible y
  obtain ⟨x', b', e', -, -, h'⟩ := C98_inverse _ (asy_invertible hn i) y
  exact ⟨⟨x, b, e, h⟩, x', b', e', h'⟩

/-! ### The problems with constraints -/

open ConsSuite in
/-- The numbers given by the code's own inverses. -/
structure Spec.Computed {n : Nat} (D : Draws n) : Prop where
  osz : ∀ y, ∃ b, oszInv y = .ok (some (D.oszInv y), b)
  asy : ∀ (i : Fin n) y, ∃ b, asyInv i n y = .ok (some (D.asyInv i y), b)

open ConsSuite in
theorem Spec.Computed.osz_small {n : Nat} {D : Draws n} (h : Spec.Computed D) {d : ℝ} (hd : 0 < d) :
    ∃ e > 0, ∀ y, |y| < e → |D.oszInv y| < d := by
  obtain ⟨e, he, hs⟩ := inverse_small osz_invertible hd
  refine ⟨e, he, fun y hy => ?_⟩
  obtain ⟨b, hb⟩ := h.osz y
  exact hs y _ b hy hb

open ConsSuite in
theorem Spec.Computed.asy_small {n : Nat} (hn : 2 ≤ n) {D : Draws n} (h : Spec.Computed D) (i : Fin n) {d : ℝ}
    (hd : 0 < d) : ∃ e > 0, ∀ y, |y| < e → |D.asyInv i y| < d := by
  obtain ⟨e, he, hs⟩ := inverse_small (asy_invertible hn i) hd
  refine ⟨e, he, fun y hy => ?_⟩
  obtain ⟨b, hb⟩ := h.asy i y
  exact hs y _ b hy hb

/-- Halving makes all coordinates small. -/
theorem halved_small {n : Nat} (v : Fin n → ℝ) {inv : Fin n → ℝ → ℝ}
    (h : ∀ i, ∃ e > 0, ∀ y, |y| < e → |inv i y| < 1) : ∃ j : Nat, ∀ i, |inv i (v i * 0.5 ^ j)| < 1 := by
  have key : ∀ i, ∀ᶠ j : Nat in Filter.atTop, |inv i (v i * 0.5 ^ j)| < 1 := by
    intro i
    obtain ⟨e, he, hs⟩ := h i
    have ht : Filter.Tendsto (fun j : Nat => v i * (0.5 : ℝ) ^ j) Filter.atTop (nhds (v i * 0)) :=
      (tendsto_pow_atTop_nhds_zero_of_lt_one (by norm_num) (by norm_num)).const_mul _
    rw [mul_zero] at ht
    filter_upwards [Metric.tendsto_nhds.mp ht e he] with j hj
    rw [Real.dist_eq, sub_zero] at hj
    exact hs _ hj
  exact (Filter.eventually_all.mpr key).exists

open ConsSuite in
theorem invInitial_region {n : Nat} {inv : Fin n → ℝ → ℝ} {xopt : Transform.Vec n}
    (hx : ∀ i, -4 ≤ xopt i ∧ xopt i < 4) (P : ConsSuite.Problem n) (h : ∀ i, ∃ e > 0, ∀ y, |y| < e → |inv i y| < 1) :
    ∃ Q, invInitial inv xopt P = .ok Q ∧ ∀ i, -5 < Q.initial i + xopt i ∧ Q.initial i + xopt i < 5 := by
  obtain ⟨j, hj⟩ := halved_small P.initial h
  have hex : ∃ j, ∀ i, -5 < inv i (P.initial i * 0.5 ^ j) + xopt i ∧ inv i (P.initial i * 0.5 ^ j) + xopt i < 5 := by
    refine ⟨j, fun i => ?_⟩
    have := abs_lt.mp (hj i)
    have := hx i
    constructor <;> linarith
  unfold invInitial
  dsimp only
  rw [dif_pos hex]
  exact ⟨_, rfl, Nat.find_spec hex⟩

open ConsSuite in
theorem assemble_region {n : Nat} {type : Nat} (hn : 2 ≤ n) {O : Transform.Prob n} {f : Transform.Vec n → ℝ}
    (hO : Plain O f) (h3 : type = 3 → ∀ x, -1000 ≤ f x) (cs : List (Constrained.Constraint n))
    {fd xopt : Transform.Vec n} (hx : ∀ i, -4 ≤ xopt i ∧ xopt i < 4)
    (hb : ∀ i, -5 ≤ xopt i + fd i ∧ xopt i + fd i ≤ 5) {D : Draws n} (hD : Spec.Computed D) :
    ∃ P, assemble type O cs fd xopt D = .ok P ∧ ∀ i, -5 ≤ P.initial i ∧ P.initial i ≤ 5 := by
  by_cases ht : type = 3
  · subst ht
    refine ⟨_, (slope_eq hO (h3 rfl) cs fd xopt D).1, fun i => ?_⟩
    change -5 ≤ fd i + xopt i ∧ fd i + xopt i ≤ 5
    rw [add_comm]
    exact hb i
  · unfold assemble
    rw [if_neg ht, stackedBest_eq hO, Res.ok_bind]
    have key : ∀ (inv : Fin n → ℝ → ℝ) (R : ConsSuite.Problem n), (∀ i, ∃ e > 0, ∀ y, |y| < e → |inv i y| < 1) →
        ∃ P, ((invInitial inv xopt R).bind fun P => .ok (shifted xopt P)) = .ok P ∧
          ∀ i, -5 ≤ P.initial i ∧ P.initial i ≤ 5 := by
      intro inv R h
      obtain ⟨Q, e, hQ⟩ := invInitial_region hx R h
      exact ⟨_, by rw [e, Res.ok_bind], fun i => ⟨(hQ i).1.le, (hQ i).2.le⟩⟩
    split_ifs with t1 t2 t6
    · rw [Res.ok_bind]
      refine ⟨_, rfl, fun i => ?_⟩
      change -5 ≤ fd i + xopt i ∧ fd i + xopt i ≤ 5
      rw [add_comm]
      exact hb i
    · exact key _ _ fun _ => hD.osz_small one_pos
    · exact key _ _ fun i => hD.asy_small hn i one_pos
    · refine key _ _ fun i => ?_
      obtain ⟨e, he, h⟩ := hD.osz_small one_pos
      obtain ⟨e', he', h'⟩ := hD.asy_small hn i he
      exact ⟨e', he', fun y hy => h _ (h' y hy)⟩

open ConsSuite in
/-- **C98** (problems with constraints). With the numbers that the code's own inverses give instead of the exact ones of
`C91_created`: every problem of the three suites is created (the halving of the initial solution ends), with an initial
solution in the region of interest, also when the root finder does not converge. -/
theorem C98_created (kind : Kind) (function inst n : Nat) (hu : Spec.Usable function inst n) (D : Draws n)
    (hD : Spec.Numbers D) (hC : Brent.Spec.Computed D) (hd : kind = .noDisguise ∨ Spec.Away kind function inst D) :
    ∃ Q, ConsSuite.get kind function inst n D = .ok Q ∧ ∀ i, -5 ≤ Q.initial i ∧ Q.initial i ≤ 5 := by
  obtain ⟨xopt, O, f, v, t, fd, ex, eo, ev, hv, hs, ed, hx, hfine, h3, ht, hfd, hfd0, hb⟩ := parts hu
  obtain ⟨hf1, hf2, -, hn, -⟩ := hu
  obtain ⟨ht1, ht9⟩ := objType_range hf1 hf2
  have hval : Constrained.Spec.Valid (params kind function inst D fd) := params_valid hf1 hD hfd0
  obtain ⟨cs, hcs, -⟩ := Constrained.C62_counts _ hval (by
    rcases hd with hd | hd
    · left
      simp [params, hd]
    · exact Or.inr (hd xopt fd O ex eo ed))
  have h31 : objType function = 3 → ∀ x, -1000 ≤ f x := fun h x => hv.trans ((h3 h).1 x)
  obtain ⟨P, hP, hin⟩ := assemble_region hn hfine.plain h31 cs hx hb hC
  refine ⟨scaled (factor (objType function)) P, ?_, hin⟩
  unfold ConsSuite.get
  rw [ex, Res.ok_bind, if_pos ⟨ht1, ht9⟩, eo, Res.ok_bind, ed, Res.ok_bind, hcs, Res.ok_bind, hP, Res.ok_bind]

/-! ### Examples -/

/-- The hypotheses of `C98_root_finder` with a change of the sign: the square root of 2 between 0 and 2. -/
example : ∃ x b, brentq (fun x => x ^ 2) 2 0 2 (1 / 10 ^ 14) (1 / 10 ^ 10) 200 = .ok (some x, b) ∧ 0 ≤ x ∧ x ≤ 2 := by
  obtain ⟨x, b, e, h, -⟩ := (C98_root_finder (fun x => x ^ 2) 2 0 2 (1 / 10 ^ 14) (1 / 10 ^ 10) 200 (by norm_num)
    (by norm_num)).2 (by norm_num)
  rw [min_eq_left (by norm_num), max_eq_right (by norm_num)] at h
  exact ⟨x, b, e, h⟩

/-- A run of two passes: the root of `x = 1/2` between 0 and 2 is found by interpolation. -/
example : brentq (fun x => x) (1 / 2) 0 2 (1 / 10) 0 2 = .ok (some (1 / 2), true) := by
  norm_num [brentq, loop, bracket, exchange, chooseStep, tryStep, quotient, advance, abs_of_pos, abs_of_neg, Res.bind]

/-- With one pass only the iterations are used up. -/
example : ∃ x, brentq (fun x => x ^ 2) 2 0 2 (1 / 10) 0 1 = .ok (some x, false) := by
  norm_num [brentq, loop, bracket, exchange, chooseStep, tryStep, quotient, advance, abs_of_pos, abs_of_neg, Res.bind]

/-- Values on the same side: NaN. -/
example : brentq (fun x => x) 3 0 2 (1 / 10) 0 2 = .ok (none, false) :=
  (C98_root_finder _ _ _ _ _ _ _ (by norm_num) le_rfl).1 (by norm_num)

open ConsSuite in
/-- For every usable function there are numbers with the code's inverses, also such that the disguise works. -/
theorem computed_example (kind : Kind) {function inst n : Nat} (hu : Spec.Usable function inst n) :
    ∃ D : Draws n, Spec.Numbers D ∧ Brent.Spec.Computed D ∧ Spec.Away kind function inst D := by
  obtain ⟨D, h1, -, h2⟩ := numbers_example kind hu
  have hn := hu.dimension
  choose osz b1 e1 using fun y => (C98_transformations n hn ⟨0, by omega⟩ y).1
  choose asy b2 e2 using fun (i : Fin n) y => (C98_transformations n hn i y).2
  exact ⟨{ D with oszInv := osz, asyInv := asy }, ⟨h1.1, h1.2, h1.3⟩,
    ⟨fun y => ⟨_, (e1 y).1⟩, fun i y => ⟨_, (e2 i y).1⟩⟩, h2⟩

end Brent
