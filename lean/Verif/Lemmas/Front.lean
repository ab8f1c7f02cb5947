import Verif.Props.MO
import Mathlib.Data.List.Basic
import Mathlib.MeasureTheory.Measure.Lebesgue.Basic

/-!
Lists of mutually non-dominated points sorted by the second objective, and the area they dominate.
-/

namespace Front
open MO

/-- `q` is nowhere worse than `p`. -/
def Weakly (q p : ℚ × ℚ) : Prop := q.1 ≤ p.1 ∧ q.2 ≤ p.2

instance (q p : ℚ × ℚ) : Decidable (Weakly q p) := by unfold Weakly; infer_instance

theorem Weakly.refl (p : ℚ × ℚ) : Weakly p p := ⟨le_rfl, le_rfl⟩

theorem Weakly.trans {p q r : ℚ × ℚ} (h : Weakly p q) (h' : Weakly q r) : Weakly p r :=
  ⟨h.1.trans h'.1, h.2.trans h'.2⟩

theorem Weakly.antisymm {p q : ℚ × ℚ} (h : Weakly p q) (h' : Weakly q p) : p = q :=
  Prod.ext (le_antisymm h.1 h'.1) (le_antisymm h.2 h'.2)

variable {α : Type} (v : α → ℚ × ℚ)

/-- Second objective strictly increasing, first objective strictly decreasing. -/
def Stair (l : List α) : Prop := l.Pairwise fun q r => (v q).2 < (v r).2 ∧ (v r).1 < (v q).1

/-- The effect of a new point on the sorted list of non-dominated points, for a splitting of the list at
its second objective. -/
theorem reject_iff {a b : List α} {p : ℚ × ℚ} {n : α} (hs : Stair v (a ++ b)) (hn : a.getLast? = some n)
    (ha : ∀ y ∈ a, (v y).2 ≤ p.2) (hb : ∀ y ∈ b, p.2 < (v y).2) :
    (∃ q ∈ a ++ b, Weakly (v q) p) ↔ (v n).1 ≤ p.1 := by
  have hmem : n ∈ a := List.mem_of_getLast? hn
  constructor
  · rintro ⟨q, hq, h1, h2⟩
    rcases List.mem_append.1 hq with hq | hq
    · obtain ⟨a', rfl⟩ := List.getLast?_eq_some_iff.1 hn
      rcases List.mem_append.1 hq with hq' | hq'
      · unfold Stair at hs
        rw [List.pairwise_append, List.pairwise_append] at hs
        exact le_trans (hs.1.2.2 q hq' n (by simp)).2.le h1
      · rw [List.mem_singleton] at hq'; rw [← hq']; exact h1
    · exact absurd h2 (not_le.2 (hb q hq))
  · intro h
    exact ⟨n, List.mem_append_left _ hmem, h, ha n hmem⟩

theorem filter_low {a b : List α} {p : ℚ × ℚ} (hs : Stair v (a ++ b)) 
    (ha : ∀ y ∈ a, (v y).2 ≤ p.2) (a' : List α) (n : α) (e : a = a' ++ [n]) (hrej : p.1 < (v n).1) :
    a.filter (fun q => !decide (Weakly p (v q))) = if (v n).2 = p.2 then a' else a := by
  subst e
  unfold Stair at hs
  rw [List.pairwise_append, List.pairwise_append] at hs
  have h1 : a'.filter (fun q => !decide (Weakly p (v q))) = a' := by
    rw [List.filter_eq_self]
    intro q hq
    have := (hs.1.2.2 q hq n (by simp)).1
    have := ha n (by simp)
    simp only [Bool.not_eq_true', decide_eq_false_iff_not]
    rintro ⟨-, h⟩
    linarith
  rw [List.filter_append, h1]
  split
  · rename_i h
    have : Weakly p (v n) := ⟨hrej.le, h.ge⟩
    simp [this]
  · rename_i h
    have : ¬ Weakly p (v n) := by
      rintro ⟨-, h'⟩
      exact h (le_antisymm (ha n (by simp)) h')
    simp [this]

theorem dropWhile_high {b : List α} {p : ℚ × ℚ} (hs : Stair v b) :
    b.dropWhile (fun q => decide (p.1 ≤ (v q).1)) = b.filter (fun q => !decide (p.1 ≤ (v q).1)) := by
  induction b with
  | nil => rfl
  | cons q b ih =>
    unfold Stair at hs ih
    rw [List.pairwise_cons] at hs
    by_cases h : p.1 ≤ (v q).1
    · simp [h, ih hs.2]
    · have : b.filter (fun q => !decide (p.1 ≤ (v q).1)) = b := by
        rw [List.filter_eq_self]
        intro r hr
        have := (hs.1 r hr).2
        simp only [Bool.not_eq_true', decide_eq_false_iff_not, not_le]
        push Not at h
        linarith
      simp [h, this]

/-- The result of `mo_get_dominance` for pairs on the grid. -/
theorem dominance_pair (p q : ℚ × ℚ) (hp : MO.Spec.OnGrid p.1 ∧ MO.Spec.OnGrid p.2)
    (hq : MO.Spec.OnGrid q.1 ∧ MO.Spec.OnGrid q.2) :
    (Weakly p q → p ≠ q → dominance [p.1, p.2] [q.1, q.2] = .ok 1) ∧
    (Weakly q p → ∃ d, dominance [p.1, p.2] [q.1, q.2] = .ok d ∧ d ≤ -1) ∧
    (¬ Weakly p q → ¬ Weakly q p → dominance [p.1, p.2] [q.1, q.2] = .ok 0) := by
  obtain ⟨c1, c2, c3, c4⟩ := C30_dominance [p.1, p.2] [q.1, q.2] rfl
    (by intro w hw; simp at hw; rcases hw with rfl | rfl; exacts [hp.1, hp.2])
    (by intro w hw; simp at hw; rcases hw with rfl | rfl; exacts [hq.1, hq.2])
  have w : ∀ a b : ℚ × ℚ, MO.Spec.Dominates [a.1, a.2] [b.1, b.2] ↔ Weakly a b ∧ a ≠ b := by
    intro a b
    unfold MO.Spec.Dominates Weakly
    simp [Prod.ext_iff]
  have e : ([p.1, p.2] = [q.1, q.2]) ↔ p = q := by simp [Prod.ext_iff]
  rw [w] at c1 c2
  rw [e] at c3
  rw [w, w] at c4
  refine ⟨fun h hne => c1.2 ⟨h, hne⟩, ?_, ?_⟩
  · intro h
    by_cases hpq : p = q
    · exact ⟨-2, c3.2 hpq, by norm_num⟩
    · exact ⟨-1, c2.2 ⟨h, Ne.symm hpq⟩, by norm_num⟩
  · intro h1 h2
    refine c4.2 ⟨fun h => h1 h.1, fun h => h2 h.1, ?_⟩
    intro h
    rw [e.1 h] at h1
    exact h1 (Weakly.refl _)

/-! ### The dominated area -/

/-- The part of the unit square dominated by at least one of the points. -/
def region (s : Set (ℚ × ℚ)) : Set (ℝ × ℝ) :=
  {z | 0 ≤ z.1 ∧ z.1 ≤ 1 ∧ 0 ≤ z.2 ∧ z.2 ≤ 1 ∧ ∃ p ∈ s, (p.1 : ℝ) ≤ z.1 ∧ (p.2 : ℝ) ≤ z.2}

/-- The sum of the areas of the steps; `x` is the first coordinate of the preceding point. -/
def stairArea : ℚ → List (ℚ × ℚ) → ℚ
  | _, [] => 0
  | x, p :: ps => (x - p.1) * (1 - p.2) + stairArea p.1 ps

/-- The part of the region to the left of `x`. -/
theorem volume_stair (ps : List (ℚ × ℚ)) (x : ℚ) (hx : x ≤ 1)
    (hp : ∀ p ∈ ps, 0 ≤ p.1 ∧ p.1 ≤ x ∧ 0 ≤ p.2 ∧ p.2 ≤ 1) (hs : Stair id ps) :
    0 ≤ stairArea x ps ∧
    MeasureTheory.volume (region {p | p ∈ ps} ∩ {z | z.1 < x}) = ENNReal.ofReal (stairArea x ps) := by
  induction ps generalizing x with
  | nil =>
    refine ⟨le_rfl, ?_⟩
    have : region {p : ℚ × ℚ | p ∈ ([] : List (ℚ × ℚ))} = ∅ := by
      ext z; simp [region]
    rw [this]; simp [stairArea]
  | cons p ps ih =>
    unfold Stair at hs ih
    rw [List.pairwise_cons] at hs
    obtain ⟨p0, p1, q0, q1⟩ := hp p (by simp)
    obtain ⟨n, e⟩ := ih p.1 (p1.trans hx) (by
      intro r hr
      obtain ⟨r0, r1, s0, s1⟩ := hp r (by simp [hr])
      exact ⟨r0, (hs.1 r hr).2.le, s0, s1⟩) hs.2
    have nn : 0 ≤ (x - p.1) * (1 - p.2) := mul_nonneg (sub_nonneg.2 p1) (sub_nonneg.2 q1)
    refine ⟨add_nonneg nn n, ?_⟩
    have hsplit : region {q | q ∈ p :: ps} ∩ {z | z.1 < (x : ℝ)} =
        (Set.Ico (p.1 : ℝ) x ×ˢ Set.Icc (p.2 : ℝ) 1) ∪ (region {q | q ∈ ps} ∩ {z | z.1 < (p.1 : ℝ)}) := by
      have p0' : (0 : ℝ) ≤ p.1 := by exact_mod_cast p0
      have p1' : (p.1 : ℝ) ≤ x := by exact_mod_cast p1
      have q0' : (0 : ℝ) ≤ p.2 := by exact_mod_cast q0
      have hx' : (x : ℝ) ≤ 1 := by exact_mod_cast hx
      ext ⟨z1, z2⟩
      simp only [region, Set.mem_inter_iff, Set.mem_ofPred_eq, Set.mem_union, Set.mem_prod, Set.mem_Ico, Set.mem_Icc,
        List.mem_cons]
      constructor
      · rintro ⟨⟨a0, a1, b0, b1, q, hq, c1, c2⟩, hlt⟩
        by_cases hz : z1 < p.1
        · right
          rcases hq with rfl | hq
          · exact absurd c1 (not_le.2 hz)
          · exact ⟨⟨a0, a1, b0, b1, q, hq, c1, c2⟩, hz⟩
        · left
          refine ⟨⟨not_lt.1 hz, hlt⟩, ?_, b1⟩
          rcases hq with rfl | hq
          · exact c2
          · have : (p.2 : ℝ) < q.2 := by exact_mod_cast (hs.1 q hq).1
            linarith
      · rintro (⟨⟨a0, a1⟩, b0, b1⟩ | ⟨⟨a0, a1, b0, b1, q, hq, c1, c2⟩, hlt⟩)
        · exact ⟨⟨by linarith, by linarith, by linarith, b1, p, .inl rfl, a0, b0⟩, a1⟩
        · exact ⟨⟨a0, a1, b0, b1, q, .inr hq, c1, c2⟩, by linarith⟩
    have hdisj : Disjoint (Set.Ico (p.1 : ℝ) x ×ˢ Set.Icc (p.2 : ℝ) 1)
        (region {q | q ∈ ps} ∩ {z | z.1 < (p.1 : ℝ)}) := by
      rw [Set.disjoint_left]
      rintro ⟨z1, z2⟩ h1 h2
      exact absurd h2.2 (not_lt.2 h1.1.1)
    rw [hsplit, MeasureTheory.measure_union' hdisj (measurableSet_Ico.prod measurableSet_Icc), e,
      MeasureTheory.Measure.volume_eq_prod, MeasureTheory.Measure.prod_prod, Real.volume_Ico, Real.volume_Icc,
      ← ENNReal.ofReal_mul (by
        have : (p.1 : ℝ) ≤ x := by exact_mod_cast p1
        linarith), ← ENNReal.ofReal_add]
    · congr 1
      rw [stairArea]
      push_cast
      ring
    · have : ((0 : ℚ) : ℝ) ≤ (((x - p.1) * (1 - p.2) : ℚ) : ℝ) := by exact_mod_cast nn
      push_cast at this
      exact this
    · exact_mod_cast n

/-- The border `z.1 = x` has no area. -/
theorem volume_region (ps : List (ℚ × ℚ)) (hp : ∀ p ∈ ps, 0 ≤ p.1 ∧ p.1 ≤ 1 ∧ 0 ≤ p.2 ∧ p.2 ≤ 1)
    (hs : Stair id ps) :
    MeasureTheory.volume (region {p | p ∈ ps}) = ENNReal.ofReal (stairArea 1 ps) := by
  rw [← (volume_stair ps 1 le_rfl hp hs).2]
  apply le_antisymm
  · have hsub : region {p | p ∈ ps} ⊆ (region {p | p ∈ ps} ∩ {z | z.1 < ((1 : ℚ) : ℝ)}) ∪ ({(1 : ℝ)} ×ˢ Set.univ) := by
      rintro ⟨z1, z2⟩ h
      rcases lt_or_eq_of_le h.2.1 with h1 | h1
      · left; refine ⟨h, ?_⟩
        simp only [Set.mem_ofPred_eq, Rat.cast_one]
        exact h1
      · right; exact ⟨h1, trivial⟩
    refine (MeasureTheory.measure_mono hsub).trans ((MeasureTheory.measure_union_le _ _).trans ?_)
    have : MeasureTheory.volume (({(1 : ℝ)} : Set ℝ) ×ˢ (Set.univ : Set ℝ)) = 0 := by
      rw [MeasureTheory.Measure.volume_eq_prod, MeasureTheory.Measure.prod_prod]
      simp
    rw [this, add_zero]
  · exact MeasureTheory.measure_mono Set.inter_subset_left

end Front
