import Mathlib.Tactic.Common
import Mathlib.Tactic.Linarith
import Verif.Model.PySearch

/-!
# Random search in Python (C135)

`/repo/build/python/src/cocoex/solvers.py` lines 6-29.
-/

namespace PySearch

/-! ### Specification -/

namespace Spec

/-- `x` is the first one of the best of the first `n` points of the sequence. -/
def FirstBest {X V : Type} [LinearOrder V] (f : X → V) (pts : Nat → X) (n : Nat) (x : X) : Prop :=
  ∃ i < n, x = pts i ∧ (∀ j < n, f (pts i) ≤ f (pts j)) ∧ ∀ j < i, f (pts i) < f (pts j)

end Spec

open Spec

variable {X V : Type} [LinearOrder V]

/-! ### Numbers of points -/

theorem chunk_pos (dim : Nat) (b : Int) : 1 ≤ chunk dim b := Nat.le_max_left _ _

theorem chunk_le (dim : Nat) {b : Int} (h : 0 < b) : (chunk dim b : Int) ≤ b := by
  unfold chunk maxChunk
  generalize 40000 / dim = q
  omega

theorem chunk_max (dim : Nat) (b : Int) : chunk dim b ≤ maxChunk dim := by
  unfold chunk maxChunk
  generalize 40000 / dim = q
  omega

theorem chunk_all (dim : Nat) {b : Nat} (h : 0 < b) (hm : b ≤ maxChunk dim) : chunk dim b = b := by
  unfold chunk
  omega

theorem loop_step (P : Prob X V) (dim : Nat) (pts : Nat → X) {b : Int} (h : 0 < b) (k : Nat) (best : Option (X × V)) :
    loop P dim pts b k best = loop P dim pts (b - cost P (chunk dim b)) (k + chunk dim b)
      (update P ((List.range (chunk dim b)).map fun i => pts (k + i)) best) := by
  rw [loop, if_pos h]

theorem loop_end (P : Prob X V) (dim : Nat) (pts : Nat → X) {b : Int} (h : ¬ 0 < b) (k : Nat) (best : Option (X × V)) :
    loop P dim pts b k best = (k, best) := by
  rw [loop, if_neg h]

/-- Induction along the loop. -/
theorem loop_induct (P : Prob X V) (dim : Nat) (pts : Nat → X) (M : Int → Nat → Option (X × V) → Nat × Option (X × V) → Prop)
    (hend : ∀ b k best, ¬ 0 < b → M b k best (k, best))
    (hstep : ∀ b k best r, 0 < b → M (b - cost P (chunk dim b)) (k + chunk dim b)
      (update P ((List.range (chunk dim b)).map fun i => pts (k + i)) best) r →
        r = loop P dim pts (b - cost P (chunk dim b)) (k + chunk dim b)
          (update P ((List.range (chunk dim b)).map fun i => pts (k + i)) best) → M b k best r) :
    ∀ b k best, M b k best (loop P dim pts b k best) := by
  intro b
  induction h : b.toNat using Nat.strong_induction_on generalizing b with
  | _ n ih =>
    intro k best
    by_cases hb : 0 < b
    · rw [loop_step P dim pts hb]
      have h1 := chunk_pos dim b
      have h2 : 1 ≤ cost P (chunk dim b) := by unfold cost; split <;> omega
      exact hstep b k best _ hb (ih _ (by omega) _ rfl _ _) rfl
    · rw [loop_end P dim pts hb]
      exact hend b k best hb

theorem points_free (P : Prob X V) (hc : P.constraints = 0) (dim : Nat) (pts : Nat → X) (b : Int) (k : Nat) (best : Option (X × V)) :
    (loop P dim pts b k best).1 = k + b.toNat := by
  refine loop_induct P dim pts (fun b k _ r => r.1 = k + b.toNat) ?_ ?_ b k best
  · intro b k _ h; simp only; omega
  · intro b k _ r h hr _
    rw [hr]
    have := chunk_le dim h
    simp only [cost, hc, Nat.lt_irrefl, gt_iff_lt, if_false]
    omega

theorem points_le (P : Prob X V) (dim : Nat) (pts : Nat → X) (b : Int) (k : Nat) (best : Option (X × V)) :
    k ≤ (loop P dim pts b k best).1 := by
  refine loop_induct P dim pts (fun _ k _ r => k ≤ r.1) ?_ ?_ b k best
  · intro b k _ h; exact Nat.le_refl _
  · intro b k _ r h hr _; omega

theorem points_constrained (P : Prob X V) (hc : 0 < P.constraints) (dim : Nat) (pts : Nat → X) (b : Int) (k : Nat)
    (best : Option (X × V)) :
    b.toNat ≤ 2 * ((loop P dim pts b k best).1 - k) ∧ (loop P dim pts b k best).1 - k ≤ b.toNat ∧
      2 * ((loop P dim pts b k best).1 - k) < b.toNat + 2 * maxChunk dim := by
  have hm : 1 ≤ maxChunk dim := Nat.le_add_right 1 _
  refine loop_induct P dim pts (fun b k _ r => b.toNat ≤ 2 * (r.1 - k) ∧ r.1 - k ≤ b.toNat ∧ 2 * (r.1 - k) < b.toNat + 2 * maxChunk dim)
    ?_ ?_ b k best
  · intro b k _ h; simp only; omega
  · intro b k best r h hr hl
    have h1 := chunk_le dim h
    have h2 := chunk_max dim b
    have h3 := chunk_pos dim b
    have h4 := points_le P dim pts (b - cost P (chunk dim b)) (k + chunk dim b)
      (update P ((List.range (chunk dim b)).map fun i => pts (k + i)) best)
    rw [← hl] at h4
    simp only [cost, hc, if_true] at hr
    by_cases hz : 0 < b - (2 * chunk dim b : Nat)
    · omega
    · have hr' : r.1 = k + chunk dim b := by
        rw [hl, loop_end]
        simp only [cost, hc, if_true]
        exact hz
      omega

/-! ### The best point -/

theorem argmin_none : ∀ {vs : List V}, argmin vs = none ↔ vs = []
  | [] => by simp [argmin]
  | v :: vs => by
    rw [argmin]
    cases argmin vs with
    | none => simp
    | some j => simp only; split <;> simp

theorem argmin_some : ∀ {vs : List V} {i : Nat}, argmin vs = some i →
    ∃ v, vs[i]? = some v ∧ (∀ w ∈ vs, v ≤ w) ∧ ∀ j < i, ∀ w ∈ vs[j]?, v < w
  | [], i, h => by simp [argmin] at h
  | v :: vs, i, h => by
    rw [argmin] at h
    cases hj : argmin vs with
    | none =>
      rw [hj] at h
      simp only [Option.some.injEq] at h
      subst h
      have := argmin_none.mp hj
      subst this
      exact ⟨v, rfl, by simp, by simp⟩
    | some j =>
      rw [hj] at h
      obtain ⟨u, h1, h2, h3⟩ := argmin_some hj
      simp only [h1, Option.mem_def, Option.some.injEq, exists_eq_left'] at h
      by_cases hu : u < v
      · rw [if_pos hu, Option.some.injEq] at h
        subst h
        refine ⟨u, by simpa using h1, ?_, ?_⟩
        · intro w hw
          rcases List.mem_cons.mp hw with rfl | hw
          · exact hu.le
          · exact h2 w hw
        · intro i hi w hw
          cases i with
          | zero => simp at hw; subst hw; exact hu
          | succ i => exact h3 i (by omega) w (by simpa using hw)
      · rw [if_neg hu, Option.some.injEq] at h
        subst h
        refine ⟨v, by simp, ?_, by simp⟩
        intro w hw
        rcases List.mem_cons.mp hw with rfl | hw
        · exact le_rfl
        · exact le_trans (not_lt.mp hu) (h2 w hw)

/-- What the variables say about the first `k` points. -/
def Known (f : X → V) (pts : Nat → X) (k : Nat) : Option (X × V) → Prop
  | none => k = 0
  | some b => FirstBest f pts k b.1 ∧ b.2 = f b.1

theorem update_known (P : Prob X V) (ho : P.objectives = 1) (pts : Nat → X) (k c : Nat) (hc : 1 ≤ c) (best : Option (X × V))
    (hg : P.constraints = 0 ∨ ∀ i < c, P.feasible (pts (k + i)) = true) (hk : Known P.f pts k best) :
    Known P.f pts (k + c) (update P ((List.range c).map fun i => pts (k + i)) best) := by
  have hv : values P ((List.range c).map fun i => pts (k + i)) = (List.range c).map fun i => P.f (pts (k + i)) := by
    rw [values]
    split
    · rename_i h
      have hg' : ∀ i < c, P.feasible (pts (k + i)) = true := hg.resolve_left (by omega)
      rw [List.filter_eq_self.mpr]
      · simp
      · intro x hx
        obtain ⟨i, hi, rfl⟩ := List.mem_map.mp hx
        exact hg' i (List.mem_range.mp hi)
    · simp
  rw [update, if_pos ho, hv]
  cases hi : argmin ((List.range c).map fun i => P.f (pts (k + i))) with
  | none =>
    have := argmin_none.mp hi
    rw [List.map_eq_nil_iff, List.range_eq_nil] at this
    omega
  | some i =>
    obtain ⟨v, h1, h2, h3⟩ := argmin_some hi
    have hic : i < c := by
      by_contra hcon
      rw [List.getElem?_eq_none (by simp; omega)] at h1
      simp at h1
    have e1 : ((List.range c).map fun i => pts (k + i))[i]? = some (pts (k + i)) := by simp [hic]
    have e2 : ((List.range c).map fun i => P.f (pts (k + i)))[i]? = some (P.f (pts (k + i))) := by simp [hic]
    rw [e2, Option.some.injEq] at h1
    subst h1
    have hmin : ∀ j < c, P.f (pts (k + i)) ≤ P.f (pts (k + j)) := fun j hj =>
      h2 _ (List.mem_map.mpr ⟨j, List.mem_range.mpr hj, rfl⟩)
    have hfirst : ∀ j < i, P.f (pts (k + i)) < P.f (pts (k + j)) := fun j hj =>
      h3 j hj _ (by simp [show j < c by omega])
    simp only [e1, e2]
    cases best with
    | none =>
      have hk0 : k = 0 := hk
      subst hk0
      refine ⟨⟨i, by omega, by simp, fun j hj => ?_, fun j hj => ?_⟩, rfl⟩
      · simpa using hmin j (by omega)
      · simpa using hfirst j hj
    | some b =>
      obtain ⟨⟨m, hm, hx, hm1, hm2⟩, hb⟩ := hk
      rw [hx] at hb
      simp only
      by_cases hlt : P.f (pts (k + i)) < b.2
      · rw [if_pos hlt]
        rw [hb] at hlt
        refine ⟨⟨k + i, by omega, rfl, fun j hj => ?_, fun j hj => ?_⟩, rfl⟩
        · by_cases hjk : j < k
          · exact le_trans hlt.le (hm1 j hjk)
          · have := hmin (j - k) (by omega)
            rwa [show k + (j - k) = j by omega] at this
        · by_cases hjk : j < k
          · exact lt_of_lt_of_le hlt (hm1 j hjk)
          · have := hfirst (j - k) (by omega)
            rwa [show k + (j - k) = j by omega] at this
      · rw [if_neg hlt]
        rw [hb] at hlt
        refine ⟨⟨m, by omega, hx, fun j hj => ?_, hm2⟩, by rw [hb, hx]⟩
        by_cases hjk : j < k
        · exact hm1 j hjk
        · have := hmin (j - k) (by omega)
          rw [show k + (j - k) = j by omega] at this
          exact le_trans (not_lt.mp hlt) this

theorem loop_known (P : Prob X V) (ho : P.objectives = 1) (dim : Nat) (pts : Nat → X) (b : Int) (k : Nat) (best : Option (X × V))
    (hg : P.constraints = 0 ∨ ∀ i < (loop P dim pts b k best).1, P.feasible (pts i) = true) (hk : Known P.f pts k best) :
    Known P.f pts (loop P dim pts b k best).1 (loop P dim pts b k best).2 := by
  revert hg hk
  refine loop_induct P dim pts (fun _ k best r => (P.constraints = 0 ∨ ∀ i < r.1, P.feasible (pts i) = true) → Known P.f pts k best →
    Known P.f pts r.1 r.2) ?_ ?_ b k best
  · intro b k best _ _ h; exact h
  · intro b k best r hb hr hl hg hk
    refine hr hg (update_known P ho pts k _ (chunk_pos dim b) best ?_ hk)
    rcases hg with hg | hg
    · exact .inl hg
    · refine .inr fun i hi => hg _ ?_
      have := points_le P dim pts (b - cost P (chunk dim b)) (k + chunk dim b)
        (update P ((List.range (chunk dim b)).map fun i => pts (k + i)) best)
      rw [← hl] at this
      omega

omit [LinearOrder V] in
theorem values_length (P : Prob X V) (xs : List X) : (values P xs).length ≤ xs.length := by
  rw [values]
  split
  · rw [List.length_map]; exact List.length_filter_le _ _
  · rw [List.length_map]

omit [LinearOrder V] in
theorem values_nil (P : Prob X V) (hc : 0 < P.constraints) (xs : List X) : values P xs = [] ↔ ∀ x ∈ xs, P.feasible x = false := by
  rw [values, if_pos hc, List.map_eq_nil_iff, List.filter_eq_nil_iff]
  simp

theorem update_isSome (P : Prob X V) (ho : P.objectives = 1) (hc : 0 < P.constraints) (xs : List X) (best : Option (X × V)) :
    (update P xs best).isSome = true ↔ best.isSome = true ∨ ∃ x ∈ xs, P.feasible x = true := by
  rw [update, if_pos ho]
  cases hi : argmin (values P xs) with
  | none =>
    have := (values_nil P hc xs).mp (argmin_none.mp hi)
    constructor
    · exact fun h => .inl h
    · rintro (h | ⟨x, hx, h⟩)
      · exact h
      · rw [this x hx] at h; cases h
  | some i =>
    obtain ⟨v, h1, -, -⟩ := argmin_some hi
    have hil : i < (values P xs).length := by
      by_contra hcon
      rw [List.getElem?_eq_none (by omega)] at h1
      cases h1
    have hxl := values_length P xs
    have hx : xs[i]? = some xs[i] := List.getElem?_eq_getElem (by omega)
    have hex : ∃ x ∈ xs, P.feasible x = true := by
      by_contra hcon
      have : values P xs = [] := (values_nil P hc xs).mpr fun x hx => by
        cases hf : P.feasible x
        · rfl
        · exact absurd ⟨x, hx, hf⟩ hcon
      rw [this] at hil
      simp at hil
    simp only [hx, h1]
    refine ⟨fun _ => .inr hex, fun _ => ?_⟩
    cases best with
    | none => rfl
    | some b => simp only; split <;> rfl

/-! ### C135 -/

/-- C135: drawn points lie between the bounds. -/
theorem C135_inside {lo hi u : ℝ} (h : lo ≤ hi) (h0 : 0 ≤ u) (h1 : u < 1) : lo ≤ coordinate lo hi u ∧ coordinate lo hi u ≤ hi := by
  unfold coordinate
  constructor
  · nlinarith [mul_nonneg (sub_nonneg.mpr h) h0]
  · nlinarith [mul_le_mul_of_nonneg_left h1.le (sub_nonneg.mpr h)]

/-- C135: without constraints the search ends after exactly `budget` evaluations (none if the budget is negative). -/
theorem C135_budget_partial (P : Prob X V) (hc : P.constraints = 0) (dim : Nat) (pts : Nat → X) (budget : Int) :
    evaluations P (search P dim pts budget).1 = budget.toNat := by
  rw [evaluations, if_neg (by omega), search]
  simp only [points_free P hc]
  omega

/-- C135: for one objective the returned point is the first of the best points, if there are no constraints or all points were feasible. -/
theorem C135_best_partial (P : Prob X V) (ho : P.objectives = 1) (dim : Nat) (pts : Nat → X) (budget : Int) (hb : 0 < budget)
    (hg : P.constraints = 0 ∨ ∀ i < (search P dim pts budget).1, P.feasible (pts i) = true) :
    ∃ x, (search P dim pts budget).2 = some x ∧ FirstBest P.f pts (search P dim pts budget).1 x := by
  have hk := loop_known P ho dim pts budget 0 none hg rfl
  have hpos : 0 < (loop P dim pts budget 0 none).1 := by
    rw [loop_step P dim pts hb]
    have := points_le P dim pts (budget - cost P (chunk dim budget)) (0 + chunk dim budget)
      (update P ((List.range (chunk dim budget)).map fun i => pts (0 + i)) none)
    have h1 := chunk_pos dim budget
    omega
  simp only [search]
  cases hr : (loop P dim pts budget 0 none).2 with
  | none =>
    rw [hr] at hk
    have : (loop P dim pts budget 0 none).1 = 0 := hk
    omega
  | some b =>
    rw [hr] at hk
    exact ⟨b.1, rfl, hk.1⟩

/-- C135: with constraints and one objective a point is returned exactly if a feasible one was evaluated. -/
theorem C135_some (P : Prob X V) (ho : P.objectives = 1) (hc : 0 < P.constraints) (dim : Nat) (pts : Nat → X) (budget : Int) :
    (search P dim pts budget).2.isSome = true ↔ ∃ i < (search P dim pts budget).1, P.feasible (pts i) = true := by
  have h : ∀ (b : Int) (k : Nat) (best : Option (X × V)), (loop P dim pts b k best).2.isSome = true ↔
      best.isSome = true ∨ ∃ i, k ≤ i ∧ i < (loop P dim pts b k best).1 ∧ P.feasible (pts i) = true := by
    refine loop_induct P dim pts (fun _ k best r => r.2.isSome = true ↔
      best.isSome = true ∨ ∃ i, k ≤ i ∧ i < r.1 ∧ P.feasible (pts i) = true) ?_ ?_
    · intro b k best _
      refine ⟨.inl, ?_⟩
      rintro (h | ⟨i, h1, h2, -⟩)
      · exact h
      · exact absurd h2 (by simp only; omega)
    · intro b k best r hb hr hl
      rw [hr, update_isSome P ho hc]
      have hle := points_le P dim pts (b - cost P (chunk dim b)) (k + chunk dim b)
        (update P ((List.range (chunk dim b)).map fun i => pts (k + i)) best)
      rw [← hl] at hle
      constructor
      · rintro ((h | ⟨x, hx, hf⟩) | ⟨i, h1, h2, h3⟩)
        · exact .inl h
        · obtain ⟨i, hi, rfl⟩ := List.mem_map.mp hx
          have := List.mem_range.mp hi
          exact .inr ⟨k + i, by omega, by omega, hf⟩
        · exact .inr ⟨i, by omega, h2, h3⟩
      · rintro (h | ⟨i, h1, h2, h3⟩)
        · exact .inl (.inl h)
        · by_cases hi : i < k + chunk dim b
          · refine .inl (.inr ⟨pts i, List.mem_map.mpr ⟨i - k, List.mem_range.mpr (by omega), ?_⟩, h3⟩)
            rw [show k + (i - k) = i by omega]
          · exact .inr ⟨i, by omega, h2, h3⟩
  simp only [search, Option.isSome_map]
  rw [h budget 0 none]
  simp

/-- C135: with several objectives nothing is returned. -/
theorem C135_several (P : Prob X V) (ho : P.objectives ≠ 1) (dim : Nat) (pts : Nat → X) (budget : Int) :
    (search P dim pts budget).2 = none := by
  have h : ∀ (b : Int) (k : Nat) (best : Option (X × V)), (loop P dim pts b k best).2 = best := by
    refine loop_induct P dim pts (fun _ _ best r => r.2 = best) (fun _ _ _ _ => rfl) ?_
    intro b k best r _ hr _
    rw [hr, update, if_neg ho]
  simp only [search, h, Option.map_none]

/-- C135: with constraints the evaluations, of functions and constraints together, are at least the budget and at most twice the budget,
and exceed the budget by less than two of the largest chunks. -/
theorem C135_constrained_partial (P : Prob X V) (hc : 0 < P.constraints) (dim : Nat) (pts : Nat → X) (budget : Nat) :
    budget ≤ evaluations P (search P dim pts budget).1 ∧ evaluations P (search P dim pts budget).1 ≤ 2 * budget ∧
      evaluations P (search P dim pts budget).1 < budget + 2 * maxChunk dim := by
  have h := points_constrained P hc dim pts budget 0 none
  rw [evaluations, if_pos hc]
  simp only [search]
  simp only [Nat.sub_zero, Int.toNat_natCast] at h
  omega

/-- C135 fails with constraints: whenever the budget is not larger than the largest chunk, the search makes twice as many evaluations. -/
theorem C135_twice (P : Prob X V) (hc : 0 < P.constraints) (dim : Nat) (pts : Nat → X) (budget : Nat) (hb : 0 < budget)
    (hm : budget ≤ maxChunk dim) : evaluations P (search P dim pts budget).1 = 2 * budget := by
  rw [evaluations, if_pos hc]
  simp only [search]
  rw [loop_step P dim pts (by omega), chunk_all dim hb hm, loop_end]
  · simp
  · rw [cost, if_pos hc]; omega

/-- C135 fails with constraints: the returned point can be infeasible although a feasible one was evaluated; in general, if the first
point is infeasible, the second one is feasible and the budget is 2, the first point is returned. -/
theorem C135_wrong_point (P : Prob X V) (ho : P.objectives = 1) (hc : 0 < P.constraints) (dim : Nat) (hd : 0 < dim) (hd2 : dim ≤ 40000)
    (pts : Nat → X) (h0 : P.feasible (pts 0) = false) (h1 : P.feasible (pts 1) = true) :
    (search P dim pts 2).2 = some (pts 0) := by
  have hm : 2 ≤ maxChunk dim := by
    unfold maxChunk
    have : 1 ≤ 40000 / dim := (Nat.one_le_div_iff hd).mpr hd2
    omega
  have hch : chunk dim 2 = 2 := chunk_all dim (b := 2) (by decide) hm
  simp only [search]
  rw [loop_step P dim pts (by decide), hch, loop_end]
  · simp [update, ho, values, hc, List.range_succ, h0, h1, argmin]
  · rw [cost, if_pos hc]; decide

/-! ### Cases -/

/-- The points 0, 1, 2, … with the constraint `1 ≤ x`, and values that are smallest at 3. -/
def example_prob (c : Nat) : Prob Nat Nat := ⟨c, 1, fun x => (x - 3) + (3 - x), fun x => decide (1 ≤ x)⟩

example : ∃ x, (search (example_prob 0) 2 id 10).2 = some x ∧ FirstBest (example_prob 0).f id 10 x := by
  have h := C135_best_partial (example_prob 0) rfl 2 id 10 (by decide) (.inl rfl)
  have e : (search (example_prob 0) 2 id 10).1 = 10 := by
    have := C135_budget_partial (example_prob 0) rfl 2 id 10
    simpa [evaluations, example_prob] using this
  rw [e] at h
  exact h

example : evaluations (example_prob 1) (search (example_prob 1) 2 id 10).1 = 20 :=
  C135_twice (example_prob 1) (by decide) 2 id 10 (by decide) (by decide)

/-- The infeasible point 0 is returned. -/
example : (search (example_prob 1) 2 id 2).2 = some 0 ∧ (example_prob 1).feasible 0 = false :=
  ⟨C135_wrong_point (example_prob 1) rfl (by decide) 2 (by decide) (by decide) id rfl rfl, rfl⟩

end PySearch
