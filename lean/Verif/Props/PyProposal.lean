import Mathlib.Analysis.SpecialFunctions.Integrals.Basic
import Mathlib.MeasureTheory.Measure.Lebesgue.Integral
import Mathlib.Tactic.Linarith
import Mathlib.Tactic.Ring
import Mathlib.Tactic.FieldSimp
import Mathlib.Tactic.NormNum
import Mathlib.Data.Fin.VecNotation
import Mathlib.Tactic.FinCases
import Mathlib.Tactic.FunProp
import Verif.Model.PyProposal

/-!
# Proposals of initial solutions in Python (C130)

`/repo/build/python/src/cocoex/interface.pyx` lines 676-722.
-/

namespace PyProposal

open MeasureTheory

variable {n : Nat}

/-! ### Specification -/

namespace Spec

/-- The bounds of the problem are in order, those of integer variables are integers, and a stored initial solution lies between them and is
integral where required. -/
structure Sound (P : Prob n) : Prop where
  order : ∀ i, P.lo i ≤ P.hi i
  integral : ∀ i, i.val < P.integers → ∃ a b : ℤ, P.lo i = a ∧ P.hi i = b
  stored : ∀ x, P.stored = some x → ∀ i, (P.lo i ≤ x i ∧ x i ≤ P.hi i) ∧ (i.val < P.integers → ∃ k : ℤ, x i = k)

/-- The number of a call in a sequence: its argument, or the number of calls without argument before it. -/
def number (pre : List (Option Int × Draw n)) : Option Int → Int
  | some r => r
  | none => (pre.filter fun c => c.1.isNone).length

/-- The triangular density around `c` of half width `w`. -/
noncomputable def triangular (c w y : ℝ) : ℝ := (1 - |y - c| / w) / w

/-- The pairs of uniform random numbers for coordinate `i` with which the proposal is below `x` in this coordinate. -/
noncomputable def below (P : Prob n) (d : Draw n) (i : Fin n) (x : ℝ) : Set (ℝ × ℝ) :=
  {p | p.1 ∈ Set.Ico (0 : ℝ) 1 ∧ p.2 ∈ Set.Ico (0 : ℝ) 1 ∧
    proposal P ⟨Function.update d.u i p.1, Function.update d.v i p.2, d.k⟩ i < x}

end Spec

open Spec

/-! ### Calls -/

theorem call_number (P : Prob n) (c : Nat) (r : Option Int) (d : Draw n) :
    call P c r d = (if r.isNone then c + 1 else c, if r.getD c ≤ 0 then initial P else proposal P d) := by
  cases r <;> simp only [call, Option.isNone, Option.getD] <;> split <;> rfl

theorem run_get (P : Prob n) (pre : List (Option Int × Draw n)) : ∀ (c : Nat) (r : Option Int) (d : Draw n)
    (post : List (Option Int × Draw n)), (run P c (pre ++ (r, d) :: post))[pre.length]? =
      some (if r.getD (c + (pre.filter fun c => c.1.isNone).length : Nat) ≤ 0 then initial P else proposal P d) := by
  induction pre with
  | nil =>
    intro c r d post
    simp only [List.nil_append, run, List.length_nil, List.getElem?_cons_zero, call_number, List.filter_nil, Nat.add_zero]
    congr
  | cons a pre ih =>
    intro c r d post
    obtain ⟨r', d'⟩ := a
    simp only [List.cons_append, run, List.length_cons, List.getElem?_cons_succ]
    rw [ih, call_number]
    cases r' with
    | none => simp only [Option.isNone, if_true, List.filter_cons_of_pos, List.length_cons]; rw [Nat.add_right_comm, Nat.add_assoc]
    | some x => simp [Option.isNone]

theorem run_length (P : Prob n) (l : List (Option Int × Draw n)) : ∀ c, (run P c l).length = l.length := by
  induction l with
  | nil => intro c; rfl
  | cons a l ih => intro c; obtain ⟨r, d⟩ := a; rw [run, List.length_cons, ih, List.length_cons]

/-! ### C130: which calls return the initial solution -/

/-- **C130** (calls). Whatever calls were made before, a call is answered with the initial solution if its number is at most zero, else
with the random proposal for its own random numbers; the number is the argument, or the count of earlier calls without argument. -/
theorem C130_calls (P : Prob n) (pre post : List (Option Int × Draw n)) (r : Option Int) (d : Draw n) :
    (answers P (pre ++ (r, d) :: post)).length = pre.length + 1 + post.length ∧
    (answers P (pre ++ (r, d) :: post))[pre.length]? = some (if number pre r ≤ 0 then initial P else proposal P d) := by
  constructor
  · rw [answers, run_length]
    simp
    omega
  · rw [answers, run_get]
    cases r <;> simp only [number, Option.getD, Nat.zero_add] <;> congr

/-- **C130** (first call). The first call without argument returns the initial solution, all later ones are random proposals, whatever
calls with an argument come in between. -/
theorem C130_first (P : Prob n) (pre post : List (Option Int × Draw n)) (d : Draw n) :
    ((∀ c ∈ pre, c.1 ≠ none) → (answers P (pre ++ (none, d) :: post))[pre.length]? = some (initial P)) ∧
    ((∃ c ∈ pre, c.1 = none) → (answers P (pre ++ (none, d) :: post))[pre.length]? = some (proposal P d)) := by
  rw [(C130_calls P pre post none d).2]
  constructor
  · intro h
    rw [if_pos]
    have : (pre.filter fun c => c.1.isNone) = [] := by
      rw [List.filter_eq_nil_iff]
      intro c hc hn
      exact h c hc (Option.isNone_iff_eq_none.mp hn)
    simp [number, this]
  · rintro ⟨c, hc, hn⟩
    rw [if_neg]
    have : 0 < (pre.filter fun c => c.1.isNone).length :=
      List.length_pos_of_mem (List.mem_filter.mpr ⟨hc, by rw [hn]; rfl⟩)
    simp only [number]
    omega

/-! ### C130: where proposals are -/

theorem initial_bounds {P : Prob n} (hP : Sound P) (i : Fin n) :
    (P.lo i ≤ initial P i ∧ initial P i ≤ P.hi i) ∧ (i.val < P.integers → ∃ k : ℤ, initial P i = k) := by
  cases hx : P.stored with
  | some x =>
    have : initial P = x := by unfold initial; rw [hx]
    rw [this]
    exact hP.stored x hx i
  | none =>
    have ho := hP.order i
    have : initial P i = if i.val < P.integers then (⌊P.lo i + 0.5 * (P.hi i - P.lo i) + 0.5⌋ : ℝ) else
        P.lo i + 0.5 * (P.hi i - P.lo i) := by unfold initial; rw [hx]
    rw [this]
    by_cases hi : i.val < P.integers
    · rw [if_pos hi]
      obtain ⟨a, b, ha, hb⟩ := hP.integral i hi
      refine ⟨⟨?_, ?_⟩, fun _ => ⟨_, rfl⟩⟩
      · rw [ha, Int.cast_le, Int.le_floor]
        linarith
      · by_cases h : P.lo i = P.hi i
        · have : ⌊P.lo i + 0.5 * (P.hi i - P.lo i) + 0.5⌋ = b := by
            rw [Int.floor_eq_iff, ← hb]
            constructor <;> linarith
          rw [this, hb]
        · have h1 : a + 1 ≤ b := by
            have : (a : ℝ) < b := by rw [← ha, ← hb]; exact lt_of_le_of_ne ho h
            exact_mod_cast this
          have h2 : (a : ℝ) + 1 ≤ b := by exact_mod_cast h1
          have := Int.floor_le (P.lo i + 0.5 * (P.hi i - P.lo i) + 0.5)
          linarith
    · rw [if_neg hi]
      exact ⟨⟨by linarith, by linarith⟩, fun h => absurd h hi⟩

theorem proposal_bounds {P : Prob n} (hP : Sound P) {d : Draw n} (hd : d.Valid P) (i : Fin n) :
    ((P.constraints = 0 ∨ i.val < P.integers) → P.lo i ≤ proposal P d i ∧ proposal P d i ≤ P.hi i) ∧
    (0 < P.constraints → P.integers ≤ i.val → |proposal P d i - initial P i| ≤ 1) ∧
    (i.val < P.integers → ∃ k : ℤ, proposal P d i = k) := by
  obtain ⟨hu, hv, hk⟩ := hd
  have hui := hu i
  have hvi := hv i
  have ho := hP.order i
  unfold proposal
  by_cases hi : i.val < P.integers
  · rw [if_pos hi]
    obtain ⟨a, b, ha, hb⟩ := hP.integral i hi
    have := hk i hi
    refine ⟨fun _ => ⟨this.1, ?_⟩, fun _ h => absurd h (by omega), fun _ => ⟨_, rfl⟩⟩
    have h2 := this.2
    rw [hb] at h2 ⊢
    have : d.k i < b + 1 := by exact_mod_cast h2
    exact_mod_cast Int.lt_add_one_iff.mp this
  · rw [if_neg hi]
    by_cases hc : P.constraints > 0
    · rw [if_pos hc]
      refine ⟨fun h => ?_, fun _ _ => ?_, fun h => absurd h hi⟩
      · rcases h with h | h
        · omega
        · exact absurd h hi
      · rw [abs_le]
        constructor <;> linarith
    · rw [if_neg hc]
      refine ⟨fun _ => ⟨?_, ?_⟩, fun h => absurd h hc, fun h => absurd h hi⟩
      · have : 0 ≤ (d.u i + d.v i) * ((P.hi i - P.lo i) / 2) := mul_nonneg (by linarith) (by linarith)
        linarith
      · have : (d.u i + d.v i) * ((P.hi i - P.lo i) / 2) ≤ 2 * ((P.hi i - P.lo i) / 2) :=
          mul_le_mul_of_nonneg_right (by linarith) (by linarith)
        linarith

/-- **C130** (domain). Every answer to every sequence of calls is integral in the integer variables and within their bounds; without
constraints it is within the bounds in all variables, with constraints it differs from the initial solution by at most 1 in each of the
other variables. -/
theorem C130_domain {P : Prob n} (hP : Sound P) (l : List (Option Int × Draw n)) (hd : ∀ c ∈ l, c.2.Valid P) (x : Fin n → ℝ)
    (hx : x ∈ answers P l) (i : Fin n) :
    (i.val < P.integers → (∃ k : ℤ, x i = k) ∧ P.lo i ≤ x i ∧ x i ≤ P.hi i) ∧
    (P.constraints = 0 → P.lo i ≤ x i ∧ x i ≤ P.hi i) ∧
    (0 < P.constraints → P.integers ≤ i.val → |x i - initial P i| ≤ 1) := by
  have key : x = initial P ∨ ∃ c ∈ l, x = proposal P c.2 := by
    unfold answers at hx
    generalize 0 = c at hx
    induction l generalizing c with
    | nil => simp [run] at hx
    | cons a l ih =>
      obtain ⟨r, d⟩ := a
      rw [run, List.mem_cons] at hx
      rcases hx with hx | hx
      · rw [call_number] at hx
        dsimp only at hx
        split at hx
        · exact .inl hx
        · exact .inr ⟨_, .head _, hx⟩
      · rcases ih (fun c hc => hd c (.tail _ hc)) _ hx with h | ⟨c, hc, h⟩
        · exact .inl h
        · exact .inr ⟨c, .tail _ hc, h⟩
  rcases key with rfl | ⟨c, hc, rfl⟩
  · have := initial_bounds hP i
    exact ⟨fun h => ⟨this.2 h, this.1⟩, fun _ => this.1, fun _ _ => by simp⟩
  · have := proposal_bounds hP (hd c hc) i
    exact ⟨fun h => ⟨this.2.2 h, this.1 (.inr h)⟩, fun h => this.1 (.inl h), this.2.1⟩

/-! ### C130: the density -/

/-- The area of the pairs whose sum is below `t`. -/
theorem area {t : ℝ} (h0 : 0 ≤ t) (h2 : t ≤ 2) :
    volume {p : ℝ × ℝ | p.1 ∈ Set.Ioo (0 : ℝ) 1 ∧ p.2 ∈ Set.Ioo (0 : ℝ) 1 ∧ p.1 + p.2 < t} =
      ENNReal.ofReal (if t ≤ 1 then t ^ 2 / 2 else 1 - (2 - t) ^ 2 / 2) := by
  rw [Measure.volume_eq_prod]
  split
  · rename_i h1
    have e : {p : ℝ × ℝ | p.1 ∈ Set.Ioo (0 : ℝ) 1 ∧ p.2 ∈ Set.Ioo (0 : ℝ) 1 ∧ p.1 + p.2 < t} =
        regionBetween (fun _ => 0) (fun u => t - u) (Set.Ioo 0 t) := by
      ext p
      simp only [regionBetween, Set.mem_setOf_eq, Set.mem_Ioo]
      constructor
      · rintro ⟨⟨_, _⟩, ⟨_, _⟩, _⟩
        refine ⟨⟨?_, ?_⟩, ?_, ?_⟩ <;> linarith
      · rintro ⟨⟨_, _⟩, _, _⟩
        refine ⟨⟨?_, ?_⟩, ⟨?_, ?_⟩, ?_⟩ <;> linarith
    have hc : Continuous fun u : ℝ => t - u := by fun_prop
    rw [e, volume_regionBetween_eq_integral (continuous_const.integrableOn_Icc.mono_set Set.Ioo_subset_Icc_self)
      (hc.integrableOn_Icc.mono_set Set.Ioo_subset_Icc_self) measurableSet_Ioo (fun u hu => by linarith [hu.2])]
    congr 1
    rw [← integral_Ioc_eq_integral_Ioo, ← intervalIntegral.integral_of_le h0]
    simp only [Pi.sub_apply, sub_zero]
    rw [intervalIntegral.integral_sub (by simp) (by simp)]
    simp
    ring
  · rename_i h1
    have h1 : 1 ≤ t := (not_le.mp h1).le
    have e : {p : ℝ × ℝ | p.1 ∈ Set.Ioo (0 : ℝ) 1 ∧ p.2 ∈ Set.Ioo (0 : ℝ) 1 ∧ p.1 + p.2 < t} =
        regionBetween (fun _ => 0) (fun u => min 1 (t - u)) (Set.Ioo 0 1) := by
      ext p
      simp only [regionBetween, Set.mem_setOf_eq, Set.mem_Ioo, lt_min_iff]
      constructor
      · rintro ⟨⟨_, _⟩, ⟨_, _⟩, _⟩
        refine ⟨⟨?_, ?_⟩, ?_, ?_, ?_⟩ <;> linarith
      · rintro ⟨⟨_, _⟩, _, _, _⟩
        refine ⟨⟨?_, ?_⟩, ⟨?_, ?_⟩, ?_⟩ <;> linarith
    have hc : Continuous fun u : ℝ => min 1 (t - u) := by fun_prop
    rw [e, volume_regionBetween_eq_integral (continuous_const.integrableOn_Icc.mono_set Set.Ioo_subset_Icc_self)
      (hc.integrableOn_Icc.mono_set Set.Ioo_subset_Icc_self) measurableSet_Ioo
      (fun u hu => le_min zero_le_one (by linarith [hu.2]))]
    congr 1
    rw [← integral_Ioc_eq_integral_Ioo, ← intervalIntegral.integral_of_le zero_le_one]
    simp only [Pi.sub_apply, sub_zero]
    rw [← intervalIntegral.integral_add_adjacent_intervals (b := t - 1) (hc.intervalIntegrable _ _) (hc.intervalIntegrable _ _)]
    have i1 : ∫ u in (0 : ℝ)..(t - 1), min 1 (t - u) = ∫ _u in (0 : ℝ)..(t - 1), (1 : ℝ) := by
      apply intervalIntegral.integral_congr
      intro u hu
      rw [Set.uIcc_of_le (by linarith)] at hu
      exact min_eq_left (by linarith [hu.2])
    have i2 : ∫ u in (t - 1)..(1 : ℝ), min 1 (t - u) = ∫ u in (t - 1)..(1 : ℝ), (t - u) := by
      apply intervalIntegral.integral_congr
      intro u hu
      rw [Set.uIcc_of_le (by linarith)] at hu
      exact min_eq_right (by linarith [hu.1])
    rw [i1, i2, intervalIntegral.integral_sub (by simp) (by simp)]
    simp
    ring

/-- The same with the left borders. -/
theorem area' {t : ℝ} (h0 : 0 ≤ t) (h2 : t ≤ 2) :
    volume {p : ℝ × ℝ | p.1 ∈ Set.Ico (0 : ℝ) 1 ∧ p.2 ∈ Set.Ico (0 : ℝ) 1 ∧ p.1 + p.2 < t} =
      ENNReal.ofReal (if t ≤ 1 then t ^ 2 / 2 else 1 - (2 - t) ^ 2 / 2) := by
  rw [← area h0 h2]
  apply le_antisymm
  · have sub : {p : ℝ × ℝ | p.1 ∈ Set.Ico (0 : ℝ) 1 ∧ p.2 ∈ Set.Ico (0 : ℝ) 1 ∧ p.1 + p.2 < t} ⊆
        {p : ℝ × ℝ | p.1 ∈ Set.Ioo (0 : ℝ) 1 ∧ p.2 ∈ Set.Ioo (0 : ℝ) 1 ∧ p.1 + p.2 < t} ∪
          (({0} : Set ℝ) ×ˢ Set.univ ∪ Set.univ ×ˢ ({0} : Set ℝ)) := by
      rintro p ⟨hu, hv, hs⟩
      by_cases h1 : p.1 = 0
      · exact .inr (.inl ⟨h1, trivial⟩)
      · by_cases h2 : p.2 = 0
        · exact .inr (.inr ⟨trivial, h2⟩)
        · exact .inl ⟨⟨lt_of_le_of_ne hu.1 (Ne.symm h1), hu.2⟩, ⟨lt_of_le_of_ne hv.1 (Ne.symm h2), hv.2⟩, hs⟩
    have z : volume ((({0} : Set ℝ) ×ˢ Set.univ ∪ Set.univ ×ˢ ({0} : Set ℝ)) : Set (ℝ × ℝ)) = 0 := by
      rw [measure_union_null_iff, Measure.volume_eq_prod, Measure.prod_prod, Measure.prod_prod]
      simp
    calc _ ≤ _ := measure_mono sub
      _ ≤ _ := measure_union_le _ _
      _ = _ := by rw [z, add_zero]
  · apply measure_mono
    rintro p ⟨hu, hv, hs⟩
    exact ⟨⟨hu.1.le, hu.2⟩, ⟨hv.1.le, hv.2⟩, hs⟩

theorem integral_tent {t : ℝ} (h0 : 0 ≤ t) (h2 : t ≤ 2) :
    ∫ s in (0 : ℝ)..t, (1 - |s - 1|) = if t ≤ 1 then t ^ 2 / 2 else 1 - (2 - t) ^ 2 / 2 := by
  have hc : Continuous fun s : ℝ => 1 - |s - 1| := by fun_prop
  have up : ∀ b : ℝ, 0 ≤ b → b ≤ 1 → ∫ s in (0 : ℝ)..b, (1 - |s - 1|) = b ^ 2 / 2 := by
    intro b hb hb1
    have : ∫ s in (0 : ℝ)..b, (1 - |s - 1|) = ∫ s in (0 : ℝ)..b, s := by
      apply intervalIntegral.integral_congr
      intro s hs
      rw [Set.uIcc_of_le hb] at hs
      dsimp only
      rw [abs_of_nonpos (by linarith [hs.2])]
      ring
    rw [this]
    simp
  split
  · rename_i h1
    exact up t h0 h1
  · rename_i h1
    have h1 : 1 ≤ t := (not_le.mp h1).le
    rw [← intervalIntegral.integral_add_adjacent_intervals (b := 1) (hc.intervalIntegrable _ _) (hc.intervalIntegrable _ _),
      up 1 zero_le_one le_rfl]
    have : ∫ s in (1 : ℝ)..t, (1 - |s - 1|) = ∫ s in (1 : ℝ)..t, (2 - s) := by
      apply intervalIntegral.integral_congr
      intro s hs
      rw [Set.uIcc_of_le h1] at hs
      dsimp only
      rw [abs_of_nonneg (by linarith [hs.1])]
      ring
    rw [this, intervalIntegral.integral_sub (by simp) (by simp)]
    simp
    ring

theorem integral_triangular {c w x : ℝ} (hw : 0 < w) :
    ∫ y in (c - w)..x, triangular c w y = ∫ s in (0 : ℝ)..((x - (c - w)) / w), (1 - |s - 1|) := by
  have h := intervalIntegral.smul_integral_comp_add_mul (a := 0) (b := (x - (c - w)) / w) (triangular c w) w (c - w)
  have e1 : c - w + w * 0 = c - w := by ring
  have e2 : c - w + w * ((x - (c - w)) / w) = x := by field_simp; ring
  rw [e1, e2] at h
  rw [← h, smul_eq_mul, ← intervalIntegral.integral_const_mul]
  congr 1
  ext s
  unfold triangular
  have : c - w + w * s - c = w * (s - 1) := by ring
  rw [this, abs_mul, abs_of_pos hw]
  field_simp

theorem below_area {P : Prob n} {d : Draw n} {i : Fin n} {c w x : ℝ} (hw : 0 < w) (hx : c - w ≤ x ∧ x ≤ c + w)
    (h : ∀ p : ℝ × ℝ, proposal P ⟨Function.update d.u i p.1, Function.update d.v i p.2, d.k⟩ i = (p.1 + p.2) * w + (c - w)) :
    volume (below P d i x) = ENNReal.ofReal (∫ y in (c - w)..x, triangular c w y) := by
  have hd : 0 ≤ (x - (c - w)) / w := div_nonneg (by linarith) hw.le
  have hd2 : (x - (c - w)) / w ≤ 2 := by rw [div_le_iff₀ hw]; linarith
  rw [integral_triangular hw, integral_tent hd hd2, ← area' hd hd2]
  congr 1
  ext p
  simp only [below, Set.mem_setOf_eq, h]
  rw [lt_div_iff₀ hw, lt_sub_iff_add_lt]

/-- **C130** (density). In every variable that is not an integer variable the random proposals have a triangular density: without
constraints around the middle of the domain and as wide as the domain, with constraints around the initial solution and of half width 1.
(The area of the pairs of random numbers that lead to a value below `x` is the integral of this density up to `x`.) -/
theorem C130_density (P : Prob n) (d : Draw n) (i : Fin n) (hi : P.integers ≤ i.val) (x : ℝ) :
    (P.constraints = 0 → P.lo i < P.hi i → P.lo i ≤ x → x ≤ P.hi i →
      volume (below P d i x) = ENNReal.ofReal (∫ y in P.lo i..x, triangular ((P.lo i + P.hi i) / 2) ((P.hi i - P.lo i) / 2) y)) ∧
    (0 < P.constraints → initial P i - 1 ≤ x → x ≤ initial P i + 1 →
      volume (below P d i x) = ENNReal.ofReal (∫ y in (initial P i - 1)..x, triangular (initial P i) 1 y)) := by
  have hi' : ¬ i.val < P.integers := by omega
  constructor
  · intro hc hlt h1 h2
    have e : P.lo i = (P.lo i + P.hi i) / 2 - (P.hi i - P.lo i) / 2 := by ring
    conv_rhs => rw [show (∫ y in P.lo i..x, triangular ((P.lo i + P.hi i) / 2) ((P.hi i - P.lo i) / 2) y) =
      ∫ y in ((P.lo i + P.hi i) / 2 - (P.hi i - P.lo i) / 2)..x, triangular ((P.lo i + P.hi i) / 2) ((P.hi i - P.lo i) / 2) y by rw [← e]]
    apply below_area (by linarith) ⟨by linarith, by linarith⟩
    intro p
    simp only [proposal, if_neg hi', hc, gt_iff_lt, lt_irrefl, if_false, Function.update_self]
    ring
  · intro hc h1 h2
    apply below_area one_pos ⟨h1, h2⟩
    intro p
    have hq : ∀ q : Draw n, proposal P q i = q.u i + q.v i + (-1 + initial P i) := by
      intro q
      simp only [proposal, if_neg hi', gt_iff_lt, hc, if_true]
    rw [hq]
    simp only [Function.update_self]
    ring

/-- **C130** (the suite bbob). With the bounds -5 and 5 the density is the documented one. -/
theorem C130_bbob (y : ℝ) : (-5 ≤ y → y ≤ 0 → triangular ((-5 + 5) / 2) ((5 - -5) / 2) y = 0.2 * (y / 5 + 1)) ∧
    (0 ≤ y → y ≤ 5 → triangular ((-5 + 5) / 2) ((5 - -5) / 2) y = 0.2 * (1 - y / 5)) := by
  constructor
  · intro h1 h2
    unfold triangular
    rw [abs_of_nonpos (by linarith)]
    norm_num
    ring
  · intro h1 h2
    unfold triangular
    rw [abs_of_nonneg (by linarith)]
    norm_num
    ring

/-- **C130** (different proposals). In a variable that is not an integer variable a random proposal equals a given number, for example
that of an earlier proposal, with probability zero. -/
theorem C130_different (P : Prob n) (d : Draw n) (i : Fin n) (hi : P.integers ≤ i.val) (h : 0 < P.constraints ∨ P.lo i < P.hi i) (y : ℝ) :
    volume {p : ℝ × ℝ | proposal P ⟨Function.update d.u i p.1, Function.update d.v i p.2, d.k⟩ i = y} = 0 := by
  have hi' : ¬ i.val < P.integers := by omega
  obtain ⟨a, b, ha, e⟩ : ∃ a b : ℝ, a ≠ 0 ∧ ∀ q : Draw n, proposal P q i = (q.u i + q.v i) * a + b := by
    by_cases hc : 0 < P.constraints
    · refine ⟨1, -1 + initial P i, one_ne_zero, fun q => ?_⟩
      simp only [proposal, if_neg hi', gt_iff_lt, hc, if_true, mul_one]
    · refine ⟨(P.hi i - P.lo i) / 2, P.lo i, ?_, fun q => ?_⟩
      · have := h.resolve_left hc
        exact (by linarith : 0 < (P.hi i - P.lo i) / 2).ne'
      · simp only [proposal, if_neg hi', gt_iff_lt, hc, if_false]
  have hs : {p : ℝ × ℝ | proposal P ⟨Function.update d.u i p.1, Function.update d.v i p.2, d.k⟩ i = y} =
      {p : ℝ × ℝ | p.1 + p.2 = (y - b) / a} := by
    ext p
    simp only [Set.mem_setOf_eq, e, Function.update_self]
    rw [eq_div_iff ha, eq_sub_iff_add_eq]
  have hm : MeasurableSet {p : ℝ × ℝ | p.1 + p.2 = (y - b) / a} :=
    (isClosed_eq (by fun_prop) continuous_const).measurableSet
  rw [hs, Measure.volume_eq_prod, Measure.measure_prod_null hm]
  refine Filter.Eventually.of_forall fun u => ?_
  have : Prod.mk u ⁻¹' {p : ℝ × ℝ | p.1 + p.2 = (y - b) / a} = {(y - b) / a - u} := by
    ext v
    simp only [Set.mem_preimage, Set.mem_setOf_eq, Set.mem_singleton_iff]
    rw [eq_sub_iff_add_eq, add_comm]
  change volume (Prod.mk u ⁻¹' {p : ℝ × ℝ | p.1 + p.2 = (y - b) / a}) = 0
  rw [this]
  simp

/-! ### A case that meets the hypotheses -/

/-- A problem with an integer variable with values 0 to 3 and a variable in [-5, 5]. -/
def Spec.mixed : Prob 2 := ⟨1, 0, ![0, -5], ![3, 5], none⟩

example : Sound Spec.mixed where
  order i := by fin_cases i <;> norm_num [Spec.mixed]
  integral i hi := by
    have : i = 0 := by
      apply Fin.ext
      change i.val < 1 at hi
      simpa using hi
    subst this
    exact ⟨0, 3, by norm_num [Spec.mixed], by norm_num [Spec.mixed]⟩
  stored x hx := by cases hx

example : (Draw.mk ![0.25, 0.5] ![0.5, 0.75] ![3, 0]).Valid Spec.mixed := by
  refine ⟨fun i => ?_, fun i => ?_, fun i hi => ?_⟩
  · fin_cases i <;> norm_num
  · fin_cases i <;> norm_num
  · have : i = 0 := by
      apply Fin.ext
      change i.val < 1 at hi
      simpa using hi
    subst this
    norm_num [Spec.mixed]

/-- The calls with `None`, 5, `None`, 0: initial solution, random, random, initial solution. -/
example (d : Draw 2) : answers Spec.mixed [(none, d), (some 5, d), (none, d), (some 0, d)] =
    [initial Spec.mixed, proposal Spec.mixed d, proposal Spec.mixed d, initial Spec.mixed] := by
  simp [answers, run, call_number]

end PyProposal
