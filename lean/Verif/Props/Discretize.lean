import Verif.Model.Discretize
import Verif.Props.Transform
import Mathlib.Tactic.IntervalCases

/-!
# Mixed-integer problems: C55, C56
-/

namespace Discretize
open Transform

variable {n : Nat}

namespace Spec

/-- The integer of `[a, b]` used for the coordinate `x`: round half up, then into the bounds. -/
noncomputable def nearest (a b : ℤ) (x : ℝ) : ℤ := max a (min b ⌊x + 1 / 2⌋)

/-- Bounds for `k` integer variables: `a i` and `b i` are integers from 0 on; other variables have real bounds. -/
structure Bounds (lo hi : Vec n) (k : Nat) (a b : Fin n → ℤ) : Prop where
  pos : 0 < k
  le : k ≤ n
  lt : ∀ i, lo i < hi i
  lo : ∀ i, i.1 < k → lo i = a i
  hi : ∀ i, i.1 < k → hi i = b i
  nonneg : ∀ i, i.1 < k → 0 ≤ a i
  small : ∀ i, i.1 < k → b i < 2147483647

/-- The distance of the inner points for the bounds `l`, `u` and the integers from `a` to `b`: `(u - l) / (n + 1)` for
`n` values. -/
noncomputable def step (l u : ℝ) (a b : ℤ) : ℝ := (u - l) / ((b - a + 1 : ℤ) + 1)

end Spec

theorem toInt_int {a : ℤ} (h0 : 0 ≤ a) (h1 : a ≤ 2147483647) : toInt (a : ℝ) = .ok a := by
  unfold toInt
  have e0 : (0 : ℝ) ≤ a := by exact_mod_cast h0
  have e1 : (a : ℝ) ≤ 2147483647 := by exact_mod_cast h1
  rw [if_neg (by linarith), if_neg (by linarith)]
  dsimp only
  have hf : ⌊(a : ℝ) + 1 / 2⌋ = a := by
    rw [Int.floor_eq_iff]; constructor <;> linarith
  have hr : (if 0 ≤ (a : ℝ) + 1 / 2 then ⌊(a : ℝ) + 1 / 2⌋ else ⌈(a : ℝ) + 1 / 2⌉) = a := by
    rw [if_pos (by linarith), hf]
  rw [hr, if_pos ⟨by omega, h1⟩]

theorem count_int {a b : ℤ} (h0 : 0 ≤ a) (hab : a < b) (h1 : b < 2147483647) :
    count (a : ℝ) (b : ℝ) = .ok (b - a + 1) := by
  unfold count
  rw [toInt_int (by omega) (by omega), toInt_int h0 (by omega), Res.ok_bind, Res.ok_bind, if_pos ⟨by omega, by omega⟩,
    if_pos (by omega)]

theorem clip_round {a b : ℤ} (hab : a < b) (x : ℝ) : clip a b (round x) = (Spec.nearest a b x : ℤ) := by
  unfold clip round Spec.nearest
  dsimp only
  generalize ⌊x + 1 / 2⌋ = r
  have e : (if (r : ℝ) < a then (a : ℝ) else r) = ((max a r : ℤ) : ℝ) := by
    by_cases h1 : r < a
    · rw [if_pos (by exact_mod_cast h1), max_eq_left h1.le]
    · rw [if_neg (by exact_mod_cast h1), max_eq_right (by omega)]
  rw [e]
  have e2 : max a (min b r) = if b < max a r then b else max a r := by split_ifs <;> omega
  rw [e2]
  by_cases h2 : b < max a r
  · rw [if_pos (by exact_mod_cast h2), if_pos h2]
  · rw [if_neg (by exact_mod_cast h2), if_neg h2]

theorem nearest_mem {a b : ℤ} (hab : a < b) (x : ℝ) : a ≤ Spec.nearest a b x ∧ Spec.nearest a b x ≤ b := by
  unfold Spec.nearest; constructor
  · exact le_max_left _ _
  · exact max_le hab.le (min_le_left _ _)

theorem place_eq {a b : ℤ} (hab : a < b) (l u d : ℝ) :
    place l u a b (b - a + 1) d = l + Spec.step l u a b * (d - a + 1) := by
  have h : (0 : ℝ) < (b : ℝ) - a := by
    have : (a : ℝ) < b := by exact_mod_cast hab
    linarith
  unfold place innerL innerU Spec.step
  push_cast
  have h2 : (b : ℝ) - a + 1 + 1 ≠ 0 := by linarith
  field_simp
  ring

/-- The optimum in the coordinates of the outer problem before rounding. -/
theorem outerOpt_eq {a b : ℤ} (hab : a < b) {l u : ℝ} (hlu : l < u) (p : ℝ) :
    outerOpt l u a b (b - a + 1) p =
      (Spec.nearest a b (a + (p - l) / Spec.step l u a b - 1 + 1 / 10 ^ 7) : ℤ) := by
  have h : (0 : ℝ) < (b : ℝ) - a := by
    have : (a : ℝ) < b := by exact_mod_cast hab
    linarith
  unfold outerOpt
  dsimp only
  rw [← clip_round hab]
  congr 3
  unfold innerL innerU Spec.step
  push_cast
  have h2 : (b : ℝ) - a + 1 + 1 ≠ 0 := by linarith
  have h3 : u - l ≠ 0 := by linarith
  have h4 : u - (u - l) / ((b : ℝ) - a + 1 + 1) - (l + (u - l) / ((b : ℝ) - a + 1 + 1)) =
      (u - l) * (b - a) / ((b : ℝ) - a + 1 + 1) := by field_simp; ring
  rw [h4]
  field_simp
  ring

theorem step_pos {a b : ℤ} (hab : a < b) {l u : ℝ} (hlu : l < u) : 0 < Spec.step l u a b := by
  have h : (0 : ℝ) < (b : ℝ) - a := by
    have : (a : ℝ) < b := by exact_mod_cast hab
    linarith
  unfold Spec.step
  push_cast
  exact div_pos (by linarith) (by linarith)

/-- The rounded optimum is within 1 of the optimum when that is within 1 of the bounds. -/
theorem nearest_within {a b : ℤ} (hab : a < b) {t : ℝ} (h0 : (a : ℝ) - 1 ≤ t) (h1 : t ≤ b + 1) :
    (Spec.nearest a b (t + 1 / 10 ^ 7) : ℝ) ≤ t + 1 ∧ t ≤ (Spec.nearest a b (t + 1 / 10 ^ 7) : ℝ) + 1 := by
  unfold Spec.nearest
  have hf := Int.floor_le (t + 1 / 10 ^ 7 + 1 / 2)
  have hl := Int.lt_floor_add_one (t + 1 / 10 ^ 7 + 1 / 2)
  have hs : (1 : ℝ) / 10 ^ 7 < 1 / 2 := by norm_num
  have hp : (0 : ℝ) < 1 / 10 ^ 7 := by norm_num
  generalize ⌊t + 1 / 10 ^ 7 + 1 / 2⌋ = r at *
  push_cast
  have hab' : (a : ℝ) < b := by exact_mod_cast hab
  rcases le_total (b : ℝ) r with h2 | h2
  · rw [min_eq_left h2, max_eq_right hab'.le]; constructor <;> linarith
  · rw [min_eq_right h2]
    rcases le_total (a : ℝ) r with h3 | h3
    · rw [max_eq_right h3]; constructor <;> linarith
    · rw [max_eq_left h3]; constructor <;> linarith

theorem nearest_close {a b : ℤ} {t : ℝ} (h0 : (a : ℝ) ≤ t) (h1 : t ≤ b) :
    |(Spec.nearest a b (t + 1 / 10 ^ 7) : ℝ) - t| ≤ 1 / 2 + 1 / 10 ^ 7 := by
  unfold Spec.nearest
  have hf := Int.floor_le (t + 1 / 10 ^ 7 + 1 / 2)
  have hl := Int.lt_floor_add_one (t + 1 / 10 ^ 7 + 1 / 2)
  have hp : (0 : ℝ) < 1 / 10 ^ 7 := by norm_num
  generalize ⌊t + 1 / 10 ^ 7 + 1 / 2⌋ = r at *
  push_cast
  rw [abs_le]
  rcases le_total (b : ℝ) r with h2 | h2
  · rw [min_eq_left h2, max_eq_right (h0.trans h1)]; constructor <;> linarith
  · rw [min_eq_right h2]
    rcases le_total (a : ℝ) r with h3 | h3
    · rw [max_eq_right h3]; constructor <;> linarith
    · rw [max_eq_left h3]; constructor <;> linarith

theorem checks_ok {lo hi : Vec n} {k : Nat} {a b : Fin n → ℤ} (B : Spec.Bounds lo hi k a b) (is : List (Fin n)) :
    checks lo hi k is = .ok () := by
  induction is with
  | nil => rfl
  | cons i is ih =>
    unfold checks
    rw [if_pos (B.lt i)]
    by_cases h : i.1 < k
    · have hab : a i < b i := by
        have := B.lt i
        rw [B.lo i h, B.hi i h] at this
        exact_mod_cast this
      rw [if_pos h, B.lo i h, B.hi i h, count_int (B.nonneg i h) hab (B.small i h), Res.ok_bind, Res.ok_bind, ih]
    · rw [if_neg h, Res.ok_bind, ih]

theorem Spec.Bounds.ab {lo hi : Vec n} {k : Nat} {a b : Fin n → ℤ} (B : Spec.Bounds lo hi k a b) (i : Fin n)
    (h : i.1 < k) : a i < b i := by
  have := B.lt i
  rw [B.lo i h, B.hi i h] at this
  exact_mod_cast this

/-- **C55** For every problem with a known best parameter, all bounds with integers from 0 on for the first `k` variables,
and an inner region that is not empty: the discretised problem can be created, has the given region of interest and the
best value of the inner problem, and

- its best parameter has integers within the bounds as its first `k` coordinates, and equals the inner one otherwise;
- at every point the inner problem is evaluated once, at a point with the same continuous coordinates and with
  `p i + (j - q i) * d` as integer coordinate `i`: `j` is the integer nearest to the coordinate of the point, `q i` the
  best parameter, `p i` the inner best parameter and `d` the common distance; so there are as many values as integers,
  equally spaced, and `q` itself is mapped to `p`;
- if `p i` is within the inner bounds, so are all these values;
- the integer of the best parameter is the closest one: without the shift by the offset, it would be mapped to a point
  that differs from `p i` by at most half the distance (and 1e-7 of it). -/
theorem C55_discretised (P : Prob n) (p : Vec n) (hp : P.bestParam = some p) (hin : ∀ i, P.lo i < P.hi i)
    (lo hi : Vec n) (k : Nat) (a b : Fin n → ℤ) (B : Spec.Bounds lo hi k a b) :
    ∃ (Q : Prob n) (q : Vec n), discretize P lo hi k = .ok Q ∧ Q.lo = lo ∧ Q.hi = hi ∧ Q.bestParam = some q ∧
      Q.bestValue = P.bestValue ∧
      (∀ i, i.1 < k → ∃ j : ℤ, q i = j ∧ a i ≤ j ∧ j ≤ b i) ∧ (∀ i, k ≤ i.1 → q i = p i) ∧
      (∀ x, ∃ z, Q.eval x = P.eval z ∧ (∀ i, k ≤ i.1 → z i = x i) ∧
        ∀ i, i.1 < k →
          z i = p i + (Spec.nearest (a i) (b i) (x i) - q i) * Spec.step (P.lo i) (P.hi i) (a i) (b i) ∧
          (P.lo i ≤ p i → p i ≤ P.hi i → P.lo i ≤ z i ∧ z i ≤ P.hi i)) ∧
      (∀ i, i.1 < k →
        let d := Spec.step (P.lo i) (P.hi i) (a i) (b i)
        P.lo i + d ≤ p i → p i ≤ P.hi i - d →
        |P.lo i + d * (q i - a i + 1) - p i| ≤ (1 / 2 + 1 / 10 ^ 7) * d) := by
  have hcard : ∀ i : Fin n, i.1 < k → card (lo i) (hi i) = b i - a i + 1 := by
    intro i h
    unfold card
    rw [B.lo i h, B.hi i h, count_int (B.nonneg i h) (B.ab i h) (B.small i h)]
  have hopt : ∀ i : Fin n, i.1 < k → outerOpt (P.lo i) (P.hi i) (lo i) (hi i) (card (lo i) (hi i)) (p i) =
      (Spec.nearest (a i) (b i)
        (a i + (p i - P.lo i) / Spec.step (P.lo i) (P.hi i) (a i) (b i) - 1 + 1 / 10 ^ 7) : ℤ) := by
    intro i h
    rw [hcard i h, B.lo i h, B.hi i h]
    exact outerOpt_eq (B.ab i h) (hin i) (p i)
  have hQ : discretize P lo hi k = .ok
      { eval := fun x => if k ≤ n then P.eval (image P lo hi k p x) else .ub
        lo := lo
        hi := hi
        bestParam := some fun i =>
          if i.1 < k then outerOpt (P.lo i) (P.hi i) (lo i) (hi i) (card (lo i) (hi i)) (p i) else p i
        bestValue := P.bestValue } := by
    unfold discretize
    rw [show Res.assert (decide (k > 0)) = .ok () by simp [Res.assert, B.pos], checks_ok B, Res.ok_bind, Res.ok_bind,
      hp]
  refine ⟨_, _, hQ, rfl, rfl, rfl, rfl, ?_, ?_, ?_, ?_⟩
  · intro i h
    rw [if_pos h, hopt i h]
    exact ⟨_, rfl, nearest_mem (B.ab i h) _⟩
  · intro i h
    rw [if_neg (by omega)]
  · intro x
    refine ⟨image P lo hi k p x, ?_, ?_, ?_⟩
    · exact if_pos B.le
    · intro i h
      unfold image; rw [if_neg (by omega)]
    · intro i h
      have hz : image P lo hi k p x i = p i + (Spec.nearest (a i) (b i) (x i) -
          (Spec.nearest (a i) (b i)
            (a i + (p i - P.lo i) / Spec.step (P.lo i) (P.hi i) (a i) (b i) - 1 + 1 / 10 ^ 7) : ℤ)) *
          Spec.step (P.lo i) (P.hi i) (a i) (b i) := by
        unfold image
        rw [if_pos h]
        dsimp only
        rw [hopt i h, hcard i h, B.lo i h, B.hi i h, clip_round (B.ab i h), place_eq (B.ab i h), place_eq (B.ab i h)]
        ring
      refine ⟨by rw [hz, if_pos h, hopt i h], fun h0 h1 => ?_⟩
      rw [hz]
      have hd := step_pos (B.ab i h) (hin i)
      have hu : P.hi i = P.lo i + Spec.step (P.lo i) (P.hi i) (a i) (b i) * (b i - a i + 2) := by
        have hb : (a i : ℝ) < b i := by exact_mod_cast B.ab i h
        have : (b i : ℝ) - a i + 1 + 1 ≠ 0 := by linarith
        unfold Spec.step
        push_cast
        field_simp
        ring
      generalize Spec.step (P.lo i) (P.hi i) (a i) (b i) = d at *
      obtain ⟨t, ht⟩ : ∃ t, a i + (p i - P.lo i) / d - 1 = t := ⟨_, rfl⟩
      have hpt : p i = P.lo i + d * (t - a i + 1) := by rw [← ht]; field_simp; ring
      have ht0 : (a i : ℝ) - 1 ≤ t := by
        have : 0 ≤ (p i - P.lo i) / d := div_nonneg (by linarith) hd.le
        linarith
      have ht1 : t ≤ b i + 1 := by
        have : (p i - P.lo i) / d ≤ b i - a i + 2 := by
          rw [div_le_iff₀ hd]; linarith
        linarith
      rw [ht]
      have hw := nearest_within (B.ab i h) ht0 ht1
      have hj := nearest_mem (B.ab i h) (x i)
      have hj0 : (a i : ℝ) ≤ Spec.nearest (a i) (b i) (x i) := by exact_mod_cast hj.1
      have hj1 : (Spec.nearest (a i) (b i) (x i) : ℝ) ≤ b i := by exact_mod_cast hj.2
      generalize (Spec.nearest (a i) (b i) (x i) : ℝ) = j at *
      generalize (Spec.nearest (a i) (b i) (t + 1 / 10 ^ 7) : ℝ) = q at *
      have e : p i + (j - q) * d = P.lo i + d * (t - a i + 1 + j - q) := by rw [hpt]; ring
      rw [e]
      constructor
      · nlinarith
      · rw [hu]
        have : t - a i + 1 + j - q ≤ b i - a i + 2 := by linarith
        linarith [mul_le_mul_of_nonneg_left this hd.le]
  · intro i h
    dsimp only
    intro h0 h1
    rw [if_pos h, hopt i h]
    have hd := step_pos (B.ab i h) (hin i)
    have hu : P.hi i = P.lo i + Spec.step (P.lo i) (P.hi i) (a i) (b i) * (b i - a i + 2) := by
      have hb : (a i : ℝ) < b i := by exact_mod_cast B.ab i h
      have : (b i : ℝ) - a i + 1 + 1 ≠ 0 := by linarith
      unfold Spec.step
      push_cast
      field_simp
      ring
    generalize Spec.step (P.lo i) (P.hi i) (a i) (b i) = d at *
    obtain ⟨t, ht⟩ : ∃ t, a i + (p i - P.lo i) / d - 1 = t := ⟨_, rfl⟩
    have hpt : p i = P.lo i + d * (t - a i + 1) := by rw [← ht]; field_simp; ring
    have ht0 : (a i : ℝ) ≤ t := by
      have : 1 ≤ (p i - P.lo i) / d := by rw [le_div_iff₀ hd]; linarith
      linarith
    have ht1 : t ≤ b i := by
      have : (p i - P.lo i) / d ≤ b i - a i + 1 := by
        rw [div_le_iff₀ hd]; linarith
      linarith
    rw [ht]
    have hc := nearest_close ht0 ht1
    generalize (Spec.nearest (a i) (b i) (t + 1 / 10 ^ 7) : ℝ) = q at *
    have e : P.lo i + d * (q - a i + 1) - p i = d * (q - t) := by rw [hpt]; ring
    rw [e, abs_mul, abs_of_pos hd, mul_comm]
    exact mul_le_mul_of_nonneg_right hc hd.le

/-- The discretised problem evaluates the inner problem at points of a grid that contains the best parameter. -/
theorem discretize_maps (P : Prob n) (p : Vec n) (hp : P.bestParam = some p)
    (hin : ∀ i, P.lo i < P.hi i) (lo hi : Vec n) (k : Nat) (a b : Fin n → ℤ) (B : Spec.Bounds lo hi k a b) :
    ∃ (Q : Prob n) (q : Vec n), discretize P lo hi k = .ok Q ∧ Q.lo = lo ∧ Q.hi = hi ∧ Q.bestParam = some q ∧
      Q.bestValue = P.bestValue ∧ (∀ i, i.1 < k → ∃ j : ℤ, q i = j ∧ a i ≤ j ∧ j ≤ b i) ∧
      (∀ i, k ≤ i.1 → q i = p i) ∧ (∀ x, ∃ z, Q.eval x = P.eval z) ∧ Q.eval q = P.eval p := by
  obtain ⟨Q, q, hQ, hl, hh, hq, hv, hint, hcont, hev, -⟩ := C55_discretised P p hp hin lo hi k a b B
  refine ⟨Q, q, hQ, hl, hh, hq, hv, hint, hcont, fun x => ?_, ?_⟩
  · obtain ⟨z, hz, -⟩ := hev x
    exact ⟨z, hz⟩
  · obtain ⟨z, hz, hzc, hzi⟩ := hev q
    rw [hz]
    have : z = p := by
      funext i
      by_cases hi : i.1 < k
      · obtain ⟨j, hj, hj0, hj1⟩ := hint i hi
        rw [(hzi i hi).1, hj]
        have : Spec.nearest (a i) (b i) (j : ℝ) = j := by
          unfold Spec.nearest
          rw [show ⌊(j : ℝ) + 1 / 2⌋ = j by rw [Int.floor_eq_iff]; constructor <;> linarith]
          rw [min_eq_right hj1, max_eq_right hj0]
        rw [this]; ring
      · rw [hzc i (by omega), hcont i (by omega)]
    rw [this]

/-- **C55** (optimum). If the best value of the inner problem is attained at its best parameter and is its global
minimum, the same holds for the discretised problem. -/
theorem C55_optimum (P : Prob n) (p : Vec n) (v : ℝ) (h : Transform.Spec.Optimal P p v)
    (hin : ∀ i, P.lo i < P.hi i) (lo hi : Vec n) (k : Nat) (a b : Fin n → ℤ) (B : Spec.Bounds lo hi k a b) :
    ∃ (Q : Prob n) (q : Vec n), discretize P lo hi k = .ok Q ∧ Q.lo = lo ∧ Q.hi = hi ∧
      Transform.Spec.Optimal Q q v ∧ (∀ i, i.1 < k → ∃ j : ℤ, q i = j ∧ a i ≤ j ∧ j ≤ b i) ∧
      (∀ i, k ≤ i.1 → q i = p i) := by
  obtain ⟨Q, q, hQ, hl, hh, hq, hv, hint, hcont, hmap, hbest⟩ := discretize_maps P p h.param hin lo hi k a b B
  refine ⟨Q, q, hQ, hl, hh, ⟨hq, hv.trans h.value, hbest.trans h.attained, fun x => ?_⟩, hint, hcont⟩
  obtain ⟨z, hz⟩ := hmap x
  rw [hz]
  exact h.minimal z

/-- Bounds with a negative lower end are outside the theorem: the interval from -1 to 0 is counted as one integer and the
creation stops. -/
theorem C55_negative_bounds : discretize squares (fun _ => -1) (fun _ => 0) 2 = .assertFail := by
  have h0 : toInt 0 = .ok 0 := by exact_mod_cast toInt_int (a := 0) (by norm_num) (by norm_num)
  have h1 : toInt (-1) = .ok 0 := by
    unfold toInt
    rw [if_neg (by norm_num), if_neg (by norm_num)]
    dsimp only
    have hc : ⌈(-1 : ℝ) + 1 / 2⌉ = 0 := by rw [Int.ceil_eq_iff]; constructor <;> norm_num
    have hr : (if 0 ≤ (-1 : ℝ) + 1 / 2 then ⌊(-1 : ℝ) + 1 / 2⌋ else ⌈(-1 : ℝ) + 1 / 2⌉) = 0 := by
      rw [if_neg (by norm_num), hc]
    rw [hr, if_pos (by norm_num)]
  have hc : count (-1) 0 = .assertFail := by
    unfold count
    rw [h0, h1]
    norm_num [Res.ok_bind]
  unfold discretize
  rw [show Res.assert (decide (2 > 0)) = .ok () by rfl, Res.ok_bind]
  have : List.finRange 2 = [0, 1] := rfl
  rw [this]
  unfold checks
  rw [if_pos (by norm_num), if_pos (by norm_num), hc]
  rfl

/-! ### Cardinalities -/

namespace Spec

/-- Number of values of variable `i` of `5 m` variables: groups of `m` with 2, 4, 8, 16 values, then continuous. -/
def values (m i : Nat) : Option Nat :=
  if i < m then some 2 else if i < 2 * m then some 4 else if i < 3 * m then some 8
  else if i < 4 * m then some 16 else none

end Spec

theorem read_card {m i : Nat} (hi : i < 5 * m) :
    Res.readNat [2, 4, 8, 16, 0] (i / m) = .ok ((Spec.values m i).getD 0) := by
  have hm : 0 < m := by omega
  have hlt : i / m < 5 := Nat.div_lt_of_lt_mul (by omega)
  have hmod := Nat.div_add_mod i m
  have hr := Nat.mod_lt i hm
  unfold Spec.values
  obtain ⟨q, hq⟩ : ∃ q, i / m = q := ⟨_, rfl⟩
  rw [hq] at hlt hmod ⊢
  have : q = 0 ∨ q = 1 ∨ q = 2 ∨ q = 3 ∨ q = 4 := by omega
  rcases this with rfl | rfl | rfl | rfl | rfl
  · rw [if_pos (by omega)]; rfl
  · rw [if_neg (by omega), if_pos (by omega)]; rfl
  · rw [if_neg (by omega), if_neg (by omega), if_pos (by omega)]; rfl
  · rw [if_neg (by omega), if_neg (by omega), if_neg (by omega), if_pos (by omega)]; rfl
  · rw [if_neg (by omega), if_neg (by omega), if_neg (by omega), if_neg (by omega)]; rfl

theorem values_zero {m i : Nat} : (Spec.values m i).getD 0 = 0 ↔ 4 * m ≤ i := by
  unfold Spec.values
  split_ifs <;> simp <;> omega

theorem loop_ok {m : Nat} (hm : 0 < m) : ∀ (r i num : Nat), i + r = 5 * m →
    (i ≤ 4 * m → num = 5 * m) → (4 * m < i → num = 4 * m) →
    loop (5 * m) r i num = .ok ((List.range' i r).map (fun i => (Spec.values m i).getD 0),
      if r = 0 then num else 4 * m)
  | 0, i, num, _, _, _ => by simp [loop]
  | r + 1, i, num, hr, h0, h1 => by
    unfold loop
    have e : 5 * m / 5 = m := by omega
    rw [e, read_card (by omega), Res.ok_bind]
    dsimp only
    have key : (if (Spec.values m i).getD 0 = 0 then (if num = 5 * m then i else num) else num) =
        if 4 * m ≤ i then 4 * m else 5 * m := by
      by_cases hc : 4 * m ≤ i
      · rw [if_pos (values_zero.mpr hc), if_pos hc]
        by_cases hi : i = 4 * m
        · rw [if_pos (h0 (by omega)), hi]
        · rw [if_neg (by rw [h1 (by omega)]; omega), h1 (by omega)]
      · rw [if_neg (fun h => hc (values_zero.mp h)), if_neg hc, h0 (by omega)]
    rw [key, loop_ok hm r (i + 1) _ (by omega) (fun h => by rw [if_neg (by omega)])
      (fun h => by rw [if_pos (by omega)]), Res.ok_bind]
    dsimp only
    rw [List.range'_succ, List.map_cons, if_neg (by omega : ¬ r + 1 = 0)]
    congr 2
    by_cases hr0 : r = 0
    · subst hr0; rw [if_pos rfl, if_pos (by omega)]
    · rw [if_neg hr0]

/-- **C56** (cardinalities). For every dimension: it is accepted exactly if it is a positive multiple of 5, and then the
variables have, in consecutive groups of a fifth, 2, 4, 8 and 16 values and are continuous (0 in the list); the first four
fifths are integer. -/
theorem C56_cardinalities (dimension : Nat) :
    (∀ m, 0 < m → dimension = 5 * m →
      cardinalities dimension = .ok ((List.range dimension).map (fun i => (Spec.values m i).getD 0), 4 * m)) ∧
    ((∀ m, 0 < m → dimension ≠ 5 * m) → cardinalities dimension = .error) := by
  constructor
  · rintro m hm rfl
    unfold cardinalities
    rw [if_neg (by omega), if_neg (by omega), loop_ok hm (5 * m) 0 (5 * m) (by omega) (fun _ => rfl)
      (fun h => by omega), if_neg (by omega), List.range_eq_range']
  · intro h
    unfold cardinalities
    by_cases h0 : dimension = 0
    · rw [if_pos h0]
    · rw [if_neg h0]
      by_cases h5 : dimension % 5 = 0
      · exact absurd (by omega : dimension = 5 * (dimension / 5)) (h (dimension / 5) (by omega))
      · rw [if_pos h5]

/-- For ten variables: two each with 2, 4, 8, 16 values, two continuous, eight integer. -/
example : cardinalities 10 = .ok ([2, 2, 4, 4, 8, 8, 16, 16, 0, 0], 8) := by decide +kernel

/-- The factor by which the values of a function are multiplied. -/
noncomputable def Spec.scale (function : Nat) : ℝ :=
  if function ∈ [17, 19, 23] then 10
  else if function ∈ [3, 4, 13, 15, 20, 24] then 1 / 10
  else if function ∈ [6, 8, 9, 11] then 1 / 10 ^ 2
  else if function ∈ [2, 10] then 1 / 10 ^ 3
  else if function = 12 then 1 / 10 ^ 4
  else 1

theorem Spec.scale_pos (function : Nat) : 0 < Spec.scale function := by
  unfold Spec.scale
  split_ifs <;> norm_num

theorem read_factor (function : Nat) (h1 : 1 ≤ function) (h24 : function ≤ 24) :
    Res.readAt factors ((function : Int) - 1) = .ok (Spec.scale function) := by
  unfold Res.readAt factors Spec.scale
  interval_cases function <;> simp

/-- The mixed-integer problem evaluates the scaled inner problem at points of a grid. -/
theorem mixint_maps (bound : ℝ) (hb : 0 < bound) (function m : Nat) (h1 : 1 ≤ function) (h24 : function ≤ 24)
    (hm : 0 < m) (P : Prob (5 * m)) (p : Vec (5 * m)) (hp : P.bestParam = some p) (hin : ∀ i, P.lo i < P.hi i) :
    ∃ (Q : Prob (5 * m)) (q : Vec (5 * m)), mixint bound function P = .ok Q ∧
      Q.bestParam = some q ∧ Q.bestValue = (objScale (Spec.scale function) P).bestValue ∧
      (∀ x, ∃ z, Q.eval x = (objScale (Spec.scale function) P).eval z) ∧
      Q.eval q = (objScale (Spec.scale function) P).eval p ∧
      (∀ i c, Spec.values m i.1 = some c → Q.lo i = 0 ∧ Q.hi i = (c : ℝ) - 1 ∧
        ∃ j : ℤ, q i = j ∧ 0 ≤ j ∧ j < c) ∧
      (∀ i, Spec.values m i.1 = none → Q.lo i = -bound ∧ Q.hi i = bound ∧ q i = p i) := by
  have hcs := (C56_cardinalities (5 * m)).1 m hm rfl
  have hf := read_factor function h1 h24
  generalize Spec.scale function = f at hf ⊢
  have hc : ∀ i : Fin (5 * m), ((List.range (5 * m)).map (fun i => (Spec.values m i).getD 0)).getD i.1 0 =
      (Spec.values m i.1).getD 0 := by
    intro i
    rw [List.getD_eq_getElem?_getD, List.getElem?_map, List.getElem?_range i.2]
    rfl
  have hsome : ∀ i : Nat, i < 4 * m → ∃ c, Spec.values m i = some c ∧ 2 ≤ c ∧ c ≤ 16 := by
    intro i hi
    unfold Spec.values
    split_ifs with h1 h2 h3
    · exact ⟨2, rfl, by omega, by omega⟩
    · exact ⟨4, rfl, by omega, by omega⟩
    · exact ⟨8, rfl, by omega, by omega⟩
    · exact ⟨16, rfl, by omega, by omega⟩
  set c : Fin (5 * m) → Nat := fun i => (Spec.values m i.1).getD 0 with hcdef
  set lo : Vec (5 * m) := fun i => (outerBounds bound (c i)).1 with hlo
  set hi : Vec (5 * m) := fun i => (outerBounds bound (c i)).2 with hhi
  set P' : Prob (5 * m) := { P with
    lo := fun i => if c i = 0 then P.lo i else -4
    hi := fun i => if c i = 0 then P.hi i else 4 } with hP'
  have hci : ∀ i : Fin (5 * m), i.1 < 4 * m → c i ≠ 0 ∧ 2 ≤ c i ∧ c i ≤ 16 := by
    intro i hi
    obtain ⟨d, hd, h2, h16⟩ := hsome i.1 hi
    have : c i = d := by rw [hcdef]; simp [hd]
    omega
  have B : Spec.Bounds lo hi (4 * m) (fun _ => 0) (fun i => (c i : ℤ) - 1) := by
    refine ⟨by omega, by omega, ?_, ?_, ?_, fun _ _ => le_rfl, ?_⟩
    · intro i
      simp only [hlo, hhi, outerBounds]
      by_cases h0 : c i = 0
      · rw [if_pos h0]; dsimp only; linarith
      · rw [if_neg h0]
        have hi4 : i.1 < 4 * m := by
          by_contra hge
          exact h0 (values_zero.mpr (by omega))
        have : (2 : ℝ) ≤ c i := by exact_mod_cast (hci i hi4).2.1
        dsimp only; linarith
    · intro i hi4
      simp only [hlo, outerBounds]
      rw [if_neg (hci i hi4).1]; simp
    · intro i hi4
      simp only [hhi, outerBounds]
      rw [if_neg (hci i hi4).1]; push_cast; rfl
    · intro i hi4
      have := (hci i hi4).2.2
      omega
  have hin' : ∀ i, P'.lo i < P'.hi i := by
    intro i
    simp only [hP']
    by_cases h0 : c i = 0
    · rw [if_pos h0, if_pos h0]; exact hin i
    · rw [if_neg h0, if_neg h0]; norm_num
  obtain ⟨Q, q, hQ, hl, hh, hq, hv, hint, hcont, hmap, hbest⟩ := discretize_maps P' p hp hin' lo hi (4 * m) _ _ B
  have hev : ∀ x z, Q.eval x = P.eval z → (objScale f Q).eval x = (objScale f P).eval z := by
    intro x z hz
    show (Q.eval x).bind (fun y => check (Q.bestValue.map (· * f)) (y * f)) = _
    rw [hz, hv]
    rfl
  refine ⟨objScale f Q, q, ?_, hq, ?_, fun x => ?_, hev q p hbest, ?_, ?_⟩
  · unfold mixint
    rw [hcs, Res.ok_bind]
    dsimp only
    have hcf : (fun i : Fin (5 * m) => ((List.range (5 * m)).map (fun i => (Spec.values m i).getD 0)).getD i.1 0) = c :=
      funext hc
    simp only [hc]
    rw [show discretize _ _ _ _ = _ from hQ, Res.ok_bind, hf, Res.ok_bind]
  · show Q.bestValue.map (· * f) = _
    rw [hv]
    rfl
  · obtain ⟨z, hz⟩ := hmap x
    exact ⟨z, hev x z hz⟩
  · intro i d hd
    have hcd : c i = d := by rw [hcdef]; simp [hd]
    have hi4 : i.1 < 4 * m := by
      by_contra hge
      have := values_zero.mpr (by omega : 4 * m ≤ i.1)
      have h2 : c i = 0 := this
      rw [hcdef] at h2
      unfold Spec.values at hd
      split_ifs at hd <;> omega
    obtain ⟨j, hj, hj0, hj1⟩ := hint i hi4
    refine ⟨?_, ?_, j, hj, hj0, by rw [← hcd]; omega⟩
    · show Q.lo i = _; rw [hl, B.lo i hi4]; simp
    · show Q.hi i = _; rw [hh, B.hi i hi4, hcd]; push_cast; rfl
  · intro i hd
    have hc0 : c i = 0 := by rw [hcdef]; simp [hd]
    refine ⟨?_, ?_, hcont i (values_zero.mp hc0)⟩
    · show Q.lo i = _; rw [hl]; simp only [hlo, outerBounds]; rw [if_pos hc0]
    · show Q.hi i = _; rw [hh]; simp only [hhi, outerBounds]; rw [if_pos hc0]

/-- **C56** (problem). For every function number from 1 to 24 and every continuous problem of `5 m` variables with a
region of interest that is not empty and a right best parameter and best value: the mixed-integer problem can be created;
variable `i` ranges over the integers from 0 to one less than its number of values, or over the interval of the
continuous variables; its best parameter lies on the grid, has the best value (the inner one, scaled by the factor of the
function), and is a global minimum. -/
theorem C56_problem (bound : ℝ) (hb : 0 < bound) (function m : Nat) (h1 : 1 ≤ function) (h24 : function ≤ 24)
    (hm : 0 < m) (P : Prob (5 * m)) (p : Vec (5 * m)) (v : ℝ) (h : Transform.Spec.Optimal P p v)
    (hin : ∀ i, P.lo i < P.hi i) :
    ∃ (Q : Prob (5 * m)) (q : Vec (5 * m)), mixint bound function P = .ok Q ∧
      Transform.Spec.Optimal Q q (v * Spec.scale function) ∧
      (∀ i c, Spec.values m i.1 = some c → Q.lo i = 0 ∧ Q.hi i = (c : ℝ) - 1 ∧
        ∃ j : ℤ, q i = j ∧ 0 ≤ j ∧ j < c) ∧
      (∀ i, Spec.values m i.1 = none → Q.lo i = -bound ∧ Q.hi i = bound ∧ q i = p i) := by
  obtain ⟨Q, q, hQ, hq, hv, hmap, hbest, h3, h4⟩ := mixint_maps bound hb function m h1 h24 hm P p h.param hin
  obtain ⟨R, hR, -, -, ho⟩ := create_optimal (.objScale (Spec.scale function)) P p v h (Spec.scale_pos _).le
  have hR' : R = objScale (Spec.scale function) P := (Res.ok.inj hR).symm
  subst hR'
  refine ⟨Q, q, hQ, ⟨hq, hv.trans ho.value, hbest.trans ho.attained, fun x => ?_⟩, h3, h4⟩
  obtain ⟨z, hz⟩ := hmap x
  rw [hz]
  exact ho.minimal z

/-! ### A case that meets the hypotheses -/

/-- Squared distance to (1, ..., 1) in five dimensions. -/
noncomputable def five : Prob (5 * 1) :=
  ⟨fun x => .ok (∑ i, (x i - 1) ^ 2), fun _ => -5, fun _ => 5, some fun _ => 1, some 0⟩

theorem five_optimal : Transform.Spec.Optimal five (fun _ => 1) 0 :=
  ⟨rfl, rfl, by simp [five], fun _ => ⟨_, rfl, Finset.sum_nonneg fun _ _ => sq_nonneg _⟩⟩

/-- The scaled mixed-integer problem of function 17 on it: an optimum with value 0, integer in the first four
coordinates, 1 in the last. -/
example : ∃ Q q, mixint 5 17 five = .ok Q ∧ Transform.Spec.Optimal Q q 0 ∧ q 4 = 1 ∧ Q.hi 3 = 15 := by
  obtain ⟨Q, q, hQ, ho, hi, hc⟩ := C56_problem 5 (by norm_num) 17 1 (by norm_num) (by norm_num) one_pos five _ 0
    five_optimal (fun _ => by norm_num [five])
  refine ⟨Q, q, hQ, by rwa [zero_mul] at ho, (hc 4 rfl).2.2, ?_⟩
  rw [(hi 3 16 rfl).2.1]; norm_num

end Discretize
