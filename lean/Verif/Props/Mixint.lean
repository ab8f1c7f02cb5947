import Verif.Model.Mixint
import Verif.Props.Discretize
import Verif.Props.LargeScale

/-!
# The problems of the bbob-mixint and sbox-cost suites: C88, C89
-/

namespace Mixint
open Classical Transform

/-- The random matrices for the rotations of a function and instance are regular: for fewer than 50 variables those of
the bbob suite, otherwise those of the blocks of the large-scale suite. -/
def Spec.Regular (function inst n : Nat) : Prop :=
  if n < 50 then
    Bbob.Spec.Regular (Bbob.Spec.seed function inst) n ∧ Bbob.Spec.Regular (Bbob.Spec.seed function inst + 1000000) n
  else
    LargeScale.Spec.Regular (Bbob.Spec.seed function inst) n ∧
      LargeScale.Spec.Regular (Bbob.Spec.seed function inst + 1000000) n

/-- The first four fifths of the variables range over the integers from 0 to one less than 2, 4, 8 and 16 (in this order),
the last fifth over `[-5, 5]`, and the point lies on this grid. -/
def Spec.Grid {m : Nat} (Q : Prob (5 * m)) (q : Vec (5 * m)) : Prop :=
  (∀ i : Fin (5 * m), ∀ k < 4, k * m ≤ i.1 → i.1 < (k + 1) * m →
    Q.lo i = 0 ∧ Q.hi i = 2 ^ (k + 1) - 1 ∧ ∃ j : ℕ, q i = j ∧ j < 2 ^ (k + 1)) ∧
  ∀ i : Fin (5 * m), 4 * m ≤ i.1 → Q.lo i = -5 ∧ Q.hi i = 5 ∧ -5 ≤ q i ∧ q i ≤ 5

theorem grid_of {m : Nat} {Q : Prob (5 * m)} {p q : Vec (5 * m)} (hp : ∀ i, -5 ≤ p i ∧ p i ≤ 5)
    (h1 : ∀ i c, Discretize.Spec.values m i.1 = some c → Q.lo i = 0 ∧ Q.hi i = (c : ℝ) - 1 ∧
        ∃ j : ℤ, q i = j ∧ 0 ≤ j ∧ j < c)
    (h2 : ∀ i, Discretize.Spec.values m i.1 = none → Q.lo i = -5 ∧ Q.hi i = 5 ∧ q i = p i) : Spec.Grid Q q := by
  refine ⟨fun i k hk hlo hhi => ?_, fun i hi => ?_⟩
  · have hv : Discretize.Spec.values m i.1 = some (2 ^ (k + 1)) := by
      unfold Discretize.Spec.values
      interval_cases k <;> norm_num at hlo hhi ⊢ <;> split_ifs <;> first | rfl | omega
    obtain ⟨a, b, j, e, h0, hj⟩ := h1 i _ hv
    refine ⟨a, by rw [b]; push_cast; rfl, j.toNat, ?_, ?_⟩
    · rw [e]
      have : ((j.toNat : ℤ) : ℝ) = (j : ℝ) := by rw [Int.toNat_of_nonneg h0]
      exact_mod_cast this.symm
    · have : (j.toNat : ℤ) < (2 ^ (k + 1) : ℕ) := by rw [Int.toNat_of_nonneg h0]; exact_mod_cast hj
      exact_mod_cast this
  · have hv : Discretize.Spec.values m i.1 = none := by
      unfold Discretize.Spec.values
      split_ifs <;> first | rfl | omega
    obtain ⟨a, b, e⟩ := h2 i hv
    exact ⟨a, b, e ▸ hp i⟩

/-- C88: for every function but number 20, every instance and every dimension `5 m`, the problem of the bbob-mixint suite
can be created; its variables and its recorded best parameter are those of the grid; the best parameter has the recorded
best value, the value computed from function and instance times the factor of the function, and every point can be evaluated and
has no smaller value. -/
theorem C88_mixint (qsort : Permutation.SortFn) (hq : Permutation.Spec.IsSort qsort) (function inst m : Nat)
    (h1 : 1 ≤ function) (hf : function ≤ 24) (h20 : function ≠ 20) (hi : inst ≤ 10 ^ 10) (hm : 0 < m)
    (hm' : 5 * m ≤ 10 ^ 6) (h24 : function = 24 → 5 * m < 3000)
    (hr : Bbob.Spec.Rotated function → 5 * m ≠ 45 ∧ Spec.Regular function inst (5 * m)) :
    ∃ P q v, get qsort function inst (5 * m) = .ok P ∧ Legacy.computeFopt function inst = .ok v ∧
      Transform.Spec.Optimal P q (v * Discretize.Spec.scale function) ∧ Spec.Grid P q := by
  have hinner : ∃ P v, (if 5 * m < 50 then Bbob.get .bbob function inst (5 * m)
      else LargeScale.get qsort function inst (5 * m)) = .ok P ∧ Legacy.computeFopt function inst = .ok v ∧
      Bbob.Spec.Known P v := by
    unfold Spec.Regular at hr
    by_cases h50 : 5 * m < 50
    · rw [if_pos h50]
      exact Bbob.optimum_known .bbob function inst (5 * m) h1 hf h20 hi (by omega) fun h => by
        have := hr h
        rw [if_pos h50] at this
        exact ⟨by omega, this.2⟩
    · rw [if_neg h50]
      exact LargeScale.optimum_known qsort hq function inst (5 * m) h1 hf h20 hi (by omega) hm' h24 fun h => by
        have := hr h
        rw [if_neg h50] at this
        exact this.2
  obtain ⟨P, v, eP, ev, hl, hh, p, ho, hp⟩ := hinner
  obtain ⟨Q, q, hQ, hopt, g1, g2⟩ := Discretize.C56_problem 5 (by norm_num) function m h1 hf hm P p v ho (fun i => by
    rw [hl, hh]; norm_num)
  refine ⟨Q, q, v, ?_, ev, hopt, grid_of hp g1 g2⟩
  unfold get
  rw [(Discretize.C56_cardinalities (5 * m)).1 m hm rfl, Res.ok_bind, eP, Res.ok_bind, hQ]

/-- C88, function 20 (whose values are divided by 10): the same up to `1e-14`. -/
theorem C88_schwefel (qsort : Permutation.SortFn) (inst m : Nat) (hi : inst ≤ 10 ^ 10) (hm : 0 < m) :
    ∃ P q v w, get qsort 20 inst (5 * m) = .ok P ∧ Legacy.computeFopt 20 inst = .ok v ∧
      P.bestParam = some q ∧ Spec.Grid P q ∧ P.bestValue = some w ∧ |w - v / 10| ≤ 1 / 10 ^ 14 ∧
      (∃ y, P.eval q = .ok y ∧ |y - w| ≤ 1 / 10 ^ 14) ∧ ∀ x, ∃ y, P.eval x = .ok y ∧ w - 1 / 10 ^ 14 ≤ y := by
  have hinner : ∃ P v, (if 5 * m < 50 then Bbob.get .bbob 20 inst (5 * m)
      else LargeScale.get qsort 20 inst (5 * m)) = .ok P ∧ Legacy.computeFopt 20 inst = .ok v ∧
      Bbob.Spec.NearlyKnown P v := by
    by_cases h50 : 5 * m < 50
    · rw [if_pos h50]
      exact Bbob.C86_schwefel .bbob inst (5 * m) hi (by omega)
    · rw [if_neg h50]
      exact LargeScale.C87_schwefel qsort inst (5 * m) hi (by omega)
  obtain ⟨P, v, eP, ev, hl, hh, p, w, hpp, hp, hw, hwv, ⟨y, hy, hyw⟩, hmin⟩ := hinner
  obtain ⟨Q, q, hQ, hq, hv, hmap, hbest, g1, g2⟩ := Discretize.mixint_maps 5 (by norm_num) 20 m (by norm_num)
    (by norm_num) hm P p hpp (fun i => by rw [hl, hh]; norm_num)
  have hf : Discretize.Spec.scale 20 = 1 / 10 := by simp [Discretize.Spec.scale]
  rw [hf] at hv hmap hbest
  have hev : ∀ z y, P.eval z = .ok y → w - 1 / 10 ^ 13 ≤ y → (objScale (1 / 10) P).eval z = .ok (y * (1 / 10)) := by
    intro z y hz hle
    show (P.eval z).bind (fun y => check (P.bestValue.map (· * (1 / 10))) (y * (1 / 10))) = _
    rw [hz, Res.ok_bind, hw, Option.map_some]
    refine Bbob.check_near ?_
    norm_num at hle ⊢
    linarith
  have hyle : w - 1 / 10 ^ 13 ≤ y := by
    obtain ⟨y', hy', hle⟩ := hmin p
    rwa [Res.ok.inj (hy.symm.trans hy')]
  refine ⟨Q, q, v, w * (1 / 10), ?_, ev, hq, grid_of hp g1 g2, ?_, ?_, ⟨y * (1 / 10), ?_, ?_⟩, fun x => ?_⟩
  · unfold get
    rw [(Discretize.C56_cardinalities (5 * m)).1 m hm rfl, Res.ok_bind, eP, Res.ok_bind, hQ]
  · rw [hv]
    show P.bestValue.map _ = _
    rw [hw]
    rfl
  · rw [show w * (1 / 10) - v / 10 = (w - v) / 10 by ring, abs_div, abs_of_pos (by norm_num : (0 : ℝ) < 10)]
    norm_num at hwv ⊢
    linarith
  · rw [hbest, hev p y hy hyle]
  · rw [show y * (1 / 10) - w * (1 / 10) = (y - w) / 10 by ring, abs_div, abs_of_pos (by norm_num : (0 : ℝ) < 10)]
    norm_num at hyw ⊢
    linarith
  · obtain ⟨z, hz⟩ := hmap x
    obtain ⟨u, hu, hle⟩ := hmin z
    refine ⟨u * (1 / 10), by rw [hz, hev z u hu hle], ?_⟩
    norm_num at hle ⊢
    linarith

/-- C88: dimensions that are not multiples of 5 and unknown functions are errors. -/
theorem C88_error (qsort : Permutation.SortFn) (function inst n : Nat) (h : n % 5 ≠ 0 ∨ n = 0 ∨ function = 0 ∨ 24 < function) :
    get qsort function inst n = .error := by
  by_cases hn : ∀ m, 0 < m → n ≠ 5 * m
  · unfold get
    rw [(Discretize.C56_cardinalities n).2 hn]
    rfl
  · push Not at hn
    obtain ⟨m, hm, rfl⟩ := hn
    have hf : function = 0 ∨ 24 < function := by omega
    unfold get
    rw [(Discretize.C56_cardinalities (5 * m)).1 m hm rfl, Res.ok_bind, Bbob.C85_unknown _ _ _ _ hf,
      LargeScale.C87_unknown _ _ _ _ hf, ite_self]
    rfl

/-- C88: in dimension 45, which is below the limit for the large-scale functions but too large for the rotation matrices
of the bbob suite, the functions with rotations stop the process. -/
theorem C88_dimension_45 (qsort : Permutation.SortFn) (function inst : Nat) (hf : function ≤ 24) (hi : inst ≤ 10 ^ 10)
    (hr : Bbob.Spec.Rotated function) : get qsort function inst 45 = .assertFail := by
  unfold get
  rw [(Discretize.C56_cardinalities 45).1 9 (by norm_num) rfl, Res.ok_bind, if_pos (by norm_num),
    Bbob.C85_too_large .bbob function inst 45 hf hi hr (by norm_num)]
  rfl

/-- Function 2 in dimension 80 (large-scale version), and function 8 in dimension 10. -/
example (qsort : Permutation.SortFn) (hq : Permutation.Spec.IsSort qsort) :
    (∃ P q v, get qsort 2 1 (5 * 16) = .ok P ∧ Legacy.computeFopt 2 1 = .ok v ∧
      Transform.Spec.Optimal P q (v * Discretize.Spec.scale 2) ∧ Spec.Grid P q) ∧
    ∃ P q v, get qsort 8 1 (5 * 2) = .ok P ∧ Legacy.computeFopt 8 1 = .ok v ∧
      Transform.Spec.Optimal P q (v * Discretize.Spec.scale 8) ∧ Spec.Grid P q :=
  ⟨C88_mixint qsort hq 2 1 16 (by norm_num) (by norm_num) (by norm_num) (by norm_num) (by norm_num) (by norm_num)
    (by norm_num) fun h => absurd h.1 (by norm_num),
   C88_mixint qsort hq 8 1 2 (by norm_num) (by norm_num) (by norm_num) (by norm_num) (by norm_num) (by norm_num)
    (by norm_num) fun h => absurd h.2.1 (by norm_num)⟩

end Mixint

namespace Boxed
open Classical Transform

/-- C89: for every function but number 20, every instance and dimension, the problem of the sbox-cost suite can be
created with the region of interest `[-5, 5]`; a point has a finite value exactly if it lies in it, and this value is not
below the recorded best value, which is attained at the recorded best parameter and is the value computed from function
and instance. -/
theorem C89_boxed (function inst n : Nat) (h1 : 1 ≤ function) (hf : function ≤ 24)
    (h20 : function ≠ 20) (hi : inst ≤ 10 ^ 10) (hn : 2 ≤ n)
    (hr : Bbob.Spec.Rotated function → n ≤ 44 ∧ Bbob.Spec.Regular (Bbob.Spec.seed function inst) n ∧
      Bbob.Spec.Regular (Bbob.Spec.seed function inst + 1000000) n) :
    ∃ P p v, get function inst n = .ok P ∧ Legacy.computeFopt function inst = .ok v ∧ P.lo = (fun _ => -5) ∧
      P.hi = (fun _ => 5) ∧ P.bestParam = some p ∧ P.bestValue = some v ∧ P.eval p = .ok (some v) ∧
      ∀ x, ((∃ i, 5 < |x i|) → P.eval x = .ok none) ∧
        ((∀ i, |x i| ≤ 5) → ∃ y, P.eval x = .ok (some y) ∧ v ≤ y) := by
  obtain ⟨P, v, eP, ev, hl, hh, p, ho, hp⟩ := Bbob.optimum_known .boxed function inst n h1 hf h20 hi hn hr
  have hin : ∀ x, (∀ i, |x i| ≤ 5) → ∃ y, P.eval x = .ok y ∧ (enforceBox P).eval x = .ok (some y) ∧ v ≤ y := by
    intro x hx
    obtain ⟨y, hy, hle⟩ := ho.minimal x
    refine ⟨y, hy, ?_, hle⟩
    unfold enforceBox
    dsimp only
    rw [if_neg, hy, Res.ok_bind, ho.value, check_ok hle, Res.ok_bind]
    rintro ⟨i, h⟩
    have := abs_le.1 (hx i)
    rw [hl, hh] at h
    rcases h with h | h <;> linarith
  refine ⟨enforceBox P, p, v, ?_, ev, hl, hh, ho.param, ho.value, ?_, fun x => ⟨fun h => ?_, fun h => ?_⟩⟩
  · unfold get
    rw [eP, Res.ok_bind]
  · obtain ⟨y, hy, e, -⟩ := hin p fun i => abs_le.2 (hp i)
    rw [e, Res.ok.inj (hy.symm.trans ho.attained)]
  · obtain ⟨i, h⟩ := h
    refine if_pos ⟨i, ?_⟩
    rw [hl, hh]
    rcases lt_abs.1 h with h | h
    · exact Or.inr h
    · left; linarith
  · obtain ⟨y, -, e, hle⟩ := hin x h
    exact ⟨y, e, hle⟩

/-- C89, function 20: the same up to `1e-13`. -/
theorem C89_schwefel (inst n : Nat) (hi : inst ≤ 10 ^ 10) (hn : 2 ≤ n) :
    ∃ P p v w, get 20 inst n = .ok P ∧ Legacy.computeFopt 20 inst = .ok v ∧ P.lo = (fun _ => -5) ∧
      P.hi = (fun _ => 5) ∧ P.bestParam = some p ∧ P.bestValue = some w ∧ |w - v| ≤ 1 / 10 ^ 13 ∧
      (∃ y, P.eval p = .ok (some y) ∧ |y - w| ≤ 1 / 10 ^ 13) ∧
      ∀ x, ((∃ i, 5 < |x i|) → P.eval x = .ok none) ∧
        ((∀ i, |x i| ≤ 5) → ∃ y, P.eval x = .ok (some y) ∧ w - 1 / 10 ^ 13 ≤ y) := by
  obtain ⟨P, v, eP, ev, hl, hh, p, w, hpp, hp, hw, hwv, ⟨y, hy, hyw⟩, hmin⟩ := Bbob.C86_schwefel .boxed inst n hi hn
  have hin : ∀ x, (∀ i, |x i| ≤ 5) → ∃ y, P.eval x = .ok y ∧ (enforceBox P).eval x = .ok (some y) ∧
      w - 1 / 10 ^ 13 ≤ y := by
    intro x hx
    obtain ⟨y, hy, hle⟩ := hmin x
    refine ⟨y, hy, ?_, hle⟩
    unfold enforceBox
    dsimp only
    rw [if_neg, hy, Res.ok_bind, hw, Bbob.check_near (by linarith), Res.ok_bind]
    rintro ⟨i, h⟩
    have := abs_le.1 (hx i)
    rw [hl, hh] at h
    rcases h with h | h <;> linarith
  refine ⟨enforceBox P, p, v, w, ?_, ev, hl, hh, hpp, hw, hwv, ⟨y, ?_, hyw⟩, fun x => ⟨fun h => ?_, fun h => ?_⟩⟩
  · unfold get
    rw [eP, Res.ok_bind]
  · obtain ⟨y', hy', e, -⟩ := hin p fun i => abs_le.2 (hp i)
    rw [e, Res.ok.inj (hy'.symm.trans hy)]
  · obtain ⟨i, h⟩ := h
    refine if_pos ⟨i, ?_⟩
    rw [hl, hh]
    rcases lt_abs.1 h with h | h
    · exact Or.inr h
    · left; linarith
  · obtain ⟨y, -, e, hle⟩ := hin x h
    exact ⟨y, e, hle⟩

/-- Other function numbers are errors. -/
theorem C89_unknown (function inst n : Nat) (h : function = 0 ∨ 24 < function) : get function inst n = .error := by
  unfold get
  rw [Bbob.C85_unknown _ _ _ _ h]
  rfl

/-- The rotated Rastrigin function in dimension 2, instance 1. -/
example : ∃ P p v, get 15 1 2 = .ok P ∧ Legacy.computeFopt 15 1 = .ok v ∧ P.lo = (fun _ => -5) ∧
      P.hi = (fun _ => 5) ∧ P.bestParam = some p ∧ P.bestValue = some v ∧ P.eval p = .ok (some v) ∧
      ∀ x, ((∃ i, 5 < |x i|) → P.eval x = .ok none) ∧
        ((∀ i, |x i| ≤ 5) → ∃ y, P.eval x = .ok (some y) ∧ v ≤ y) :=
  C89_boxed 15 1 2 (by norm_num) (by norm_num) (by norm_num) (by norm_num) le_rfl fun _ =>
    ⟨by norm_num, Bbob.regular_example.2⟩

end Boxed
