import Verif.Model.Utils
import Mathlib.Tactic.Linarith
import Mathlib.Tactic.Ring
import Mathlib.Tactic.FieldSimp
import Mathlib.Tactic.NormNum

/-!
Properties C21, C68 and C69: default initial solution, conversion of doubles to integers, rounding up to a
precision.
-/

namespace Utils

/-! ### C21 -/

/-- The point `x` lies in the box. -/
def Spec.InBox (lo hi x : List ℚ) : Prop :=
  x.length = lo.length ∧ ∀ (k : Nat) (l h v : ℚ), lo[k]? = some l → hi[k]? = some h → x[k]? = some v →
    l ≤ v ∧ v ≤ h

/-- The first `n` entries are integers. -/
def Spec.IntegralUpTo (n : Nat) (x : List ℚ) : Prop :=
  ∀ (k : Nat) (v : ℚ), k < n → x[k]? = some v → ∃ z : ℤ, v = z

theorem round_centre (l h : ℤ) (hle : l ≤ h) :
    ((l : ℚ) ≤ (round ((l : ℚ) + 1 / 2 * (h - l)) : ℚ)) ∧
    ((round ((l : ℚ) + 1 / 2 * (h - l)) : ℚ) ≤ h) := by
  unfold round
  have hq : (l : ℚ) ≤ h := by exact_mod_cast hle
  constructor
  · have : l ≤ ⌊(l : ℚ) + 1 / 2 * (h - l) + 1 / 2⌋ := by
      rw [Int.le_floor]; linarith
    exact_mod_cast this
  · have : ⌊(l : ℚ) + 1 / 2 * (h - l) + 1 / 2⌋ ≤ h := by
      rw [← Int.lt_add_one_iff, Int.floor_lt]
      push_cast
      linarith
    exact_mod_cast this

theorem centre_spec (nint : Nat) : ∀ (lo hi : List ℚ) (i : Nat), lo.length = hi.length →
    (∀ (k : Nat) (l h : ℚ), lo[k]? = some l → hi[k]? = some h → l ≤ h) →
    (∀ (k : Nat) (l h : ℚ), i + k < nint → lo[k]? = some l → hi[k]? = some h → (∃ z : ℤ, l = z) ∧ ∃ z : ℤ, h = z) →
    Spec.InBox lo hi (centre nint i lo hi) ∧
    ∀ (k : Nat) (v : ℚ), i + k < nint → (centre nint i lo hi)[k]? = some v → ∃ z : ℤ, v = z := by
  intro lo
  induction lo with
  | nil =>
    intro hi i hlen _ _
    cases hi with
    | nil => simp [centre, Spec.InBox]
    | cons => simp at hlen
  | cons l lo ih =>
    intro hi i hlen hle hint
    cases hi with
    | nil => simp at hlen
    | cons h hi =>
      have h0 : l ≤ h := hle 0 l h rfl rfl
      have := ih hi (i + 1) (by simpa using hlen) (fun k a b ha hb => hle (k + 1) a b ha hb)
        (fun k a b hk ha hb => hint (k + 1) a b (by omega) ha hb)
      obtain ⟨⟨hlen', hbox⟩, hI⟩ := this
      unfold centre
      refine ⟨⟨by simp [hlen'], ?_⟩, ?_⟩
      · intro k a b v ha hb hv
        cases k with
        | zero =>
          simp only [List.getElem?_cons_zero, Option.some.injEq] at ha hb hv
          subst ha hb hv
          split
          · rename_i hi'
            obtain ⟨⟨z, rfl⟩, ⟨w, rfl⟩⟩ := hint 0 l h (by omega) rfl rfl
            exact round_centre z w (by exact_mod_cast h0)
          · constructor <;> linarith
        | succ k =>
          simp only [List.getElem?_cons_succ] at ha hb hv
          exact hbox k a b v ha hb hv
      · intro k v hk hv
        cases k with
        | zero =>
          simp only [List.getElem?_cons_zero, Option.some.injEq] at hv
          subst hv
          rw [if_pos (by omega)]
          exact ⟨_, rfl⟩
        | succ k =>
          simp only [List.getElem?_cons_succ] at hv
          exact hI k v (by omega) hv

/-- **C21.** A stored initial solution is returned as it is; otherwise the returned point lies in the
region of interest and its first `nint` coordinates are integers, provided that the bounds of these
variables are integers. -/
theorem C21_initial_solution (nint : Nat) (lo hi : List ℚ) (hlen : lo.length = hi.length)
    (hle : ∀ (k : Nat) (l h : ℚ), lo[k]? = some l → hi[k]? = some h → l ≤ h)
    (hint : Spec.IntegralUpTo nint lo ∧ Spec.IntegralUpTo nint hi) :
    (∀ s, initialSolution (some s) nint lo hi = s) ∧
    Spec.InBox lo hi (initialSolution none nint lo hi) ∧
    Spec.IntegralUpTo nint (initialSolution none nint lo hi) := by
  have := centre_spec nint lo hi 0 hlen hle
    (fun k l h hk hl hh => ⟨hint.1 k l (by omega) hl, hint.2 k h (by omega) hh⟩)
  refine ⟨fun s => rfl, this.1, ?_⟩
  intro k v hk hv
  exact this.2 k v (by omega) hv

/-- **C21** (centre). Coordinates that are not rounded are the middle of their interval. -/
theorem C21_middle (nint : Nat) : ∀ (lo hi : List ℚ) (i k : Nat) (l h v : ℚ), nint ≤ i + k →
    lo[k]? = some l → hi[k]? = some h → (centre nint i lo hi)[k]? = some v → v = (l + h) / 2 := by
  intro lo
  induction lo with
  | nil => intro hi i k l h v _ hl; simp at hl
  | cons a lo ih =>
    intro hi i k l h v hk hl hh hv
    cases hi with
    | nil => simp at hh
    | cons b hi =>
      unfold centre at hv
      cases k with
      | zero =>
        simp only [List.getElem?_cons_zero, Option.some.injEq] at hl hh hv
        subst hl hh hv
        rw [if_neg (by omega)]; ring
      | succ k =>
        simp only [List.getElem?_cons_succ] at hl hh hv
        exact ih hi (i + 1) k l h v (by omega) hl hh hv

/-- Mixed-integer bounds as in the bbob-mixint suite: variables in {0..1}, {0..3} and [-5,5]. -/
example : initialSolution none 2 [0, 0, -5] [1, 3, 5] = [1, 2, 0] := by
  simp only [initialSolution, centre, round]
  norm_num

/-! ### C68 -/

/-- **C68** (numbers from -1/2 up to the largest `int`). The conversion returns a nearest integer (halves
are rounded up). Missing: negative numbers, for which this is false (`C68_negative_wrong`). -/
theorem C68_to_int_partial (x : ℚ) (h0 : -1 / 2 ≤ x) (hmax : x ≤ 2147483647) :
    ∃ z : ℤ, toInt x = .ok z ∧ (z : ℚ) - 1 / 2 ≤ x ∧ x < z + 1 / 2 := by
  unfold toInt
  have hz : trunc (x + 1 / 2) = ⌊x + 1 / 2⌋ := by
    unfold trunc; rw [if_pos (by linarith)]
  have hl := Int.floor_le (x + 1 / 2)
  have hu := Int.lt_floor_add_one (x + 1 / 2)
  have a1 : ¬ x > 2147483647 := by linarith
  have a2 : ¬ x < -2147483648 := by linarith
  have a3 : (0 : ℤ) ≤ ⌊x + 1 / 2⌋ := by rw [Int.floor_nonneg]; linarith
  have a4 : ⌊x + 1 / 2⌋ ≤ 2147483647 := by
    rw [← Int.lt_add_one_iff, Int.floor_lt]; push_cast; linarith
  refine ⟨⌊x + 1 / 2⌋, ?_, ?_, ?_⟩
  · simp only [a1, a2, if_false, hz]
    rw [if_pos ⟨by omega, a4⟩]
  · linarith
  · linarith

/-- **C68** (range check). Numbers beyond the range of `int` abort. -/
theorem C68_out_of_range (x : ℚ) (h : x > 2147483647 ∨ x < -2147483648) : toInt x = .error := by
  unfold toInt
  rcases h with h | h
  · simp [h]
  · rw [if_neg (by linarith), if_pos h]

/-- **C68** (false for negative numbers). Every number closer than one half to the negative integer `-n`
(in particular `-n` itself) is converted to `-n + 1`. -/
theorem C68_negative_wrong (n : ℤ) (hn : 1 ≤ n) (hn2 : n ≤ 2147483647) (x : ℚ) (h1 : -(n : ℚ) - 1 / 2 < x)
    (h2 : x < -n + 1 / 2) : toInt x = .ok (-n + 1) := by
  have hq : (n : ℚ) ≤ 2147483647 := by exact_mod_cast hn2
  have hq1 : (1 : ℚ) ≤ n := by exact_mod_cast hn
  have hc : ⌈x + 1 / 2⌉ = -n + 1 := by
    rw [Int.ceil_eq_iff]; push_cast; constructor <;> linarith
  have ht : trunc (x + 1 / 2) = -n + 1 := by
    unfold trunc
    split
    · have : ⌊x + 1 / 2⌋ = 0 := by
        rw [Int.floor_eq_zero_iff]; constructor <;> linarith
      have h3 : (n : ℚ) < 2 := by linarith
      have h4 : n < 2 := by exact_mod_cast h3
      rw [this]; omega
    · exact hc
  unfold toInt
  rw [if_neg (by linarith), if_neg (by linarith), ht]
  exact if_pos ⟨by omega, by omega⟩

example : toInt (5 / 2) = .ok 3 ∧ toInt (-2) = .ok (-1) := by decide +kernel

/-! ### C69 -/

theorem ceil_mul_ge (a p : ℚ) (hp : 0 < p) : a ≤ ⌈a / p⌉ * p := by
  have := Int.le_ceil (a / p)
  calc a = a / p * p := by field_simp
    _ ≤ _ := by exact mul_le_mul_of_nonneg_right this hp.le

theorem ceil_mul_lt (a p : ℚ) (hp : 0 < p) : ⌈a / p⌉ * p < a + p := by
  have := Int.ceil_lt_add_one (a / p)
  calc (⌈a / p⌉ : ℚ) * p < (a / p + 1) * p := by exact mul_lt_mul_of_pos_right this hp
    _ = a + p := by field_simp

/-- **C69.** Rounding up to a precision larger than 1e-12 returns the multiple `m` of the precision with
`number ≤ m < number + precision`, except that a number at most 1e-12 above a multiple is rounded down to
that multiple; a number equal to a multiple is returned unchanged. -/
theorem C69_round_up (a p : ℚ) (hp : p > 1 / 10 ^ 12) :
    ∃ m : ℤ, roundUpWithPrecision a p = .ok (m * p) ∧
      ((a ≤ m * p ∧ (m : ℚ) * p < a + p) ∨ ((m : ℚ) * p < a ∧ a < m * p + 1 / 10 ^ 12)) := by
  have hp0 : 0 < p := lt_trans (by norm_num) hp
  unfold roundUpWithPrecision
  simp only [Res.assert, hp, decide_true, if_true, Res.ok_bind]
  split
  · exact ⟨_, rfl, .inl ⟨ceil_mul_ge a p hp0, ceil_mul_lt a p hp0⟩⟩
  · split
    · rename_i h1 h2
      refine ⟨_, rfl, ?_⟩
      simp only [almostEqual, sub_zero, decide_eq_true_eq] at h2
      rw [abs_lt] at h2
      by_cases hle : a ≤ round (a / p) * p
      · left
        refine ⟨hle, ?_⟩
        linarith
      · right
        constructor <;> linarith
    · exact ⟨_, rfl, .inl ⟨ceil_mul_ge a p hp0, ceil_mul_lt a p hp0⟩⟩

/-- **C69** (exact multiples are kept). -/
theorem C69_multiple_unchanged (k : ℤ) (p : ℚ) (hp : p > 1 / 10 ^ 12) :
    roundUpWithPrecision (k * p) p = .ok (k * p) := by
  have hp0 : 0 < p := lt_trans (by norm_num) hp
  have hdiv : (k : ℚ) * p / p = k := by field_simp
  have hr : round (k : ℚ) = k := by
    unfold round
    rw [Int.floor_eq_iff]; constructor <;> linarith
  unfold roundUpWithPrecision
  simp only [Res.assert, hp, decide_true, if_true, Res.ok_bind, hdiv, hr, Int.ceil_intCast]
  simp [almostEqual, hp0]

example : roundUpWithPrecision (7 / 2) 2 = .ok 4 ∧ roundUpWithPrecision 4 2 = .ok 4 ∧
    roundUpWithPrecision (4 + 1 / 10 ^ 13) 2 = .ok 4 := by decide +kernel

end Utils
