import Mathlib.Tactic.Common
import Verif.Model.ExampleLoops

/-!
# Budgets of the example experiments in Python and Matlab (C136)

`/repo/build/python/example/example_experiment.py`, `example_experiment2.py`, `/repo/build/matlab/exampleexperiment.m`.
-/

namespace ExampleLoops

/-! ### Specification -/

namespace Spec

/-- All evaluations of some runs. -/
def total (l : List Call) : Nat := (l.map (·.used)).sum

/-- Every run gets the rest of the budget. -/
def Budgets (budget : Nat) (l : List Call) : Prop := ∀ (i : Nat) (h : i < l.length), l[i].given = (budget : Int) - total (l.take i)

/-- The algorithm keeps to its budget, function and constraint evaluations together. -/
def Obedient (alg : Algorithm) : Prop := ∀ run (b : Nat), (alg run b).1 + (alg run b).2.1 ≤ b

/-- The algorithm keeps to its budget, functions and constraints each. -/
def ObedientEach (alg : Algorithm) : Prop := ∀ run (b : Nat), (alg run b).1 ≤ b ∧ (alg run b).2.1 ≤ b

/-- Function and constraint evaluations and whether the target was hit after `n` runs in `example_experiment2.py`, if each run gets what is
left of the budget: the zero vector is evaluated before and does not count, and functions and constraints count separately. -/
def after (budget : Nat) (alg : Algorithm) (hit : Bool) : Nat → Nat × Nat × Bool
  | 0 => (1, 0, hit)
  | n + 1 =>
    let s := after budget alg hit n
    let r := alg n ((budget : Int) + 1 - max s.1 s.2.1)
    (s.1 + r.1, s.2.1 + r.2.1, r.2.2)

/-- There is something left of the budget, and the target was not hit. -/
def GoOn (budget : Nat) (s : Nat × Nat × Bool) : Prop := s.1 ≤ budget ∧ s.2.1 ≤ budget ∧ s.2.2 = false

end Spec

open Spec

/-! ### Lists of runs -/

/-- As `Spec.Budgets`, with evaluations before the first run. -/
def BudgetsFrom (budget : Nat) : Nat → List Call → Prop
  | _, [] => True
  | t, c :: l => c.given = (budget : Int) - t ∧ BudgetsFrom budget (t + c.used) l

theorem budgetsFrom {budget : Nat} : ∀ {l : List Call} {t : Nat}, BudgetsFrom budget t l →
    ∀ (i : Nat) (h : i < l.length), l[i].given = (budget : Int) - (t + total (l.take i) : Nat)
  | [], _, _, i, h => by simp at h
  | c :: l, t, hb, i, h => by
    cases i with
    | zero => simpa [total] using hb.1
    | succ i =>
      have := budgetsFrom hb.2 i (by simpa using h)
      simp only [List.getElem_cons_succ, List.take_succ_cons]
      rw [this]
      simp only [total, List.map_cons, List.sum_cons]
      omega

theorem budgets {budget : Nat} {l : List Call} (h : BudgetsFrom budget 0 l) : Budgets budget l := by
  intro i hi
  have := budgetsFrom h i hi
  rwa [Nat.zero_add] at this

/-! ### `coco_optimize` -/

theorem optimize_succ (budget : Nat) (alg : Algorithm) (fuel run t : Nat) (ht : t < budget) :
    ∃ f g hit, alg run ((budget - t : Nat) : Int) = (f, g, hit) ∧
      optimize budget alg (fuel + 1) run t =
        if t + 1 + f + g ≥ budget then ([⟨(budget : Int) - t, 1 + f + g⟩], t + 1 + f + g, .exhausted)
        else if hit then ([⟨(budget : Int) - t, 1 + f + g⟩], t + 1 + f + g, .targetHit)
        else (⟨(budget : Int) - t, 1 + f + g⟩ :: (optimize budget alg fuel (run + 1) (t + 1 + f + g)).1,
          (optimize budget alg fuel (run + 1) (t + 1 + f + g)).2) := by
  have e : ((budget - t : Nat) : Int) = (budget : Int) - t := by omega
  refine ⟨_, _, _, rfl, ?_⟩
  rw [optimize]
  simp only [e]
  split
  · rfl
  · split
    · rfl
    · rw [if_neg (by omega)]

theorem optimize_spec (budget : Nat) (alg : Algorithm) (ho : Obedient alg) : ∀ (fuel run t : Nat), t < budget →
    ∃ l T e, optimize budget alg fuel run t = (l, T, e) ∧ T = t + total l ∧ T ≤ budget + 1 ∧ BudgetsFrom budget t l ∧
      l.length ≤ fuel ∧ (∀ i < l.length, t + total (l.take i) < budget) ∧
      (∀ i, i + 1 < l.length → (alg (run + i) (budget - (t + total (l.take i) : Nat) : Int)).2.2 = false) ∧
      match e with
      | .exhausted => budget ≤ T
      | .targetHit => ∃ n, l.length = n + 1 ∧ (alg (run + n) (budget - (t + total (l.take n) : Nat) : Int)).2.2 = true
      | .maxRuns => l.length = fuel
      | .noEvaluations => False
  | 0, run, t, ht => ⟨[], t, .maxRuns, rfl, by simp [total], by omega, trivial, by simp, by simp, by simp, rfl⟩
  | fuel + 1, run, t, ht => by
    obtain ⟨f, g, hit, ha, hr⟩ := optimize_succ budget alg fuel run t ht
    have hob := ho run (budget - t)
    rw [ha] at hob
    simp only at hob
    have ha' : alg run ((budget : Int) - t) = (f, g, hit) := by
      rw [← ha]; congr 1; omega
    rw [hr]
    by_cases h1 : t + 1 + f + g ≥ budget
    · rw [if_pos h1]
      refine ⟨_, _, _, rfl, by simp [total]; omega, by omega, ⟨rfl, trivial⟩, by simp, ?_, by simp, h1⟩
      intro i hi
      simp only [List.length_singleton] at hi
      have : i = 0 := by omega
      subst this
      simpa [total] using ht
    · rw [if_neg h1]
      by_cases h2 : hit = true
      · rw [if_pos h2]
        refine ⟨_, _, _, rfl, by simp [total]; omega, by omega, ⟨rfl, trivial⟩, by simp, ?_, by simp, 0, rfl, ?_⟩
        · intro i hi
          simp only [List.length_singleton] at hi
          have : i = 0 := by omega
          subst this
          simpa [total] using ht
        · simp [total, ha', h2]
      · rw [if_neg h2]
        obtain ⟨l, T, e, hl, hT, hB, hbf, hlen, hsum, hno, hend⟩ := optimize_spec budget alg ho fuel (run + 1) (t + 1 + f + g) (by omega)
        rw [hl]
        have hpre : ∀ i, t + total ((⟨(budget : Int) - t, 1 + f + g⟩ :: l : List Call).take (i + 1)) =
            t + 1 + f + g + total (l.take i) := by
          intro i; simp [total]; omega
        refine ⟨_, _, _, rfl, by rw [hT]; simp [total]; omega, hB, ⟨rfl, ?_⟩, by simpa using hlen, ?_, ?_, ?_⟩
        · rw [show t + (1 + f + g) = t + 1 + f + g by omega]; exact hbf
        · intro i hi
          cases i with
          | zero => simpa [total] using ht
          | succ i =>
            rw [hpre]
            exact hsum i (by simpa using hi)
        · intro i hi
          cases i with
          | zero => simp [total, ha']; simpa using h2
          | succ i =>
            have := hno i (by simpa using hi)
            rw [hpre, show run + (i + 1) = run + 1 + i by omega]
            exact this
        · cases e with
          | exhausted => exact hend
          | maxRuns => simpa using hend
          | noEvaluations => exact hend
          | targetHit =>
            obtain ⟨n, hn, hh⟩ := hend
            refine ⟨n + 1, by simpa using hn, ?_⟩
            rw [hpre, show run + (n + 1) = run + 1 + n by omega]
            exact hh

/-! ### The loop for Matlab -/

theorem matlab_spec (budget : Nat) (alg : Algorithm) (ho : Obedient alg) : ∀ (fuel run t : Nat), t ≤ budget →
    ∃ l T e, matlab budget alg fuel run t = (l, T, e) ∧ T = t + total l ∧ T ≤ budget ∧ BudgetsFrom budget t l ∧
      l.length ≤ fuel ∧ (∀ i < l.length, t + total (l.take i) < budget) ∧
      (∀ i, i + 1 < l.length → (alg (run + i) (budget - (t + total (l.take i) : Nat) : Int)).2.2 = false) ∧
      match e with
      | .exhausted => T = budget
      | .targetHit => ∃ n, l.length = n + 1 ∧ (alg (run + n) (budget - (t + total (l.take n) : Nat) : Int)).2.2 = true
      | .maxRuns => l.length = fuel
      | .noEvaluations => ∃ c, l.getLast? = some c ∧ c.used = 0
  | 0, run, t, ht => ⟨[], t, .maxRuns, rfl, by simp [total], ht, trivial, by simp, by simp, by simp, rfl⟩
  | fuel + 1, run, t, ht => by
    by_cases h0 : budget > t
    · have e0 : ((budget - t : Nat) : Int) = (budget : Int) - t := by omega
      have hob := ho run (budget - t)
      rw [e0] at hob
      rw [matlab, if_pos h0]
      rcases ha : alg run ((budget : Int) - t) with ⟨f, g, hit⟩
      rw [ha] at hob
      simp only [ha] at hob ⊢
      have hone : ∀ i < ([⟨(budget : Int) - t, f + g⟩] : List Call).length,
          t + total (([⟨(budget : Int) - t, f + g⟩] : List Call).take i) < budget := by
        intro i hi
        simp only [List.length_singleton] at hi
        have : i = 0 := by omega
        subst this
        simpa [total] using h0
      by_cases h2 : hit = true
      · rw [if_pos h2]
        exact ⟨_, _, _, rfl, by simp [total]; omega, by omega, ⟨rfl, trivial⟩, by simp, hone, by simp, 0, rfl, by simp [total, ha, h2]⟩
      · rw [if_neg h2]
        by_cases h1 : t + f + g ≥ budget
        · rw [if_pos h1]
          exact ⟨_, _, _, rfl, by simp [total]; omega, by omega, ⟨rfl, trivial⟩, by simp, hone, by simp,
            by change t + f + g = budget; omega⟩
        · rw [if_neg h1]
          by_cases h3 : t + f + g = t
          · rw [if_pos h3]
            exact ⟨_, _, _, rfl, by simp [total]; omega, by omega, ⟨rfl, trivial⟩, by simp, hone, by simp,
              _, rfl, by change f + g = 0; omega⟩
          · rw [if_neg h3]
            obtain ⟨l, T, e, hl, hT, hB, hbf, hlen, hsum, hno, hend⟩ := matlab_spec budget alg ho fuel (run + 1) (t + f + g) (by omega)
            rw [hl]
            have hpre : ∀ i, t + total ((⟨(budget : Int) - t, f + g⟩ :: l : List Call).take (i + 1)) =
                t + f + g + total (l.take i) := by
              intro i; simp [total]; omega
            refine ⟨_, _, _, rfl, by rw [hT]; simp [total]; omega, hB, ⟨rfl, ?_⟩, by simpa using hlen, ?_, ?_, ?_⟩
            · rw [show t + (f + g) = t + f + g by omega]; exact hbf
            · intro i hi
              cases i with
              | zero => simpa [total] using h0
              | succ i =>
                rw [hpre]
                exact hsum i (by simpa using hi)
            · intro i hi
              cases i with
              | zero => simp [total, ha]; simpa using h2
              | succ i =>
                have := hno i (by simpa using hi)
                rw [hpre, show run + (i + 1) = run + 1 + i by omega]
                exact this
            · cases e with
              | exhausted => exact hend
              | maxRuns => simpa using hend
              | noEvaluations =>
                obtain ⟨c, hc, h⟩ := hend
                refine ⟨c, ?_, h⟩
                rw [List.getLast?_cons, hc]
                rfl
              | targetHit =>
                obtain ⟨n, hn, hh⟩ := hend
                refine ⟨n + 1, by simpa using hn, ?_⟩
                rw [hpre, show run + (n + 1) = run + 1 + n by omega]
                exact hh
    · rw [matlab, if_neg h0]
      exact ⟨[], t, .exhausted, rfl, by simp [total], ht, trivial, by simp, by simp, by simp, by change t = budget; omega⟩

/-! ### C136 -/

/-- C136, `coco_optimize` (one evaluation beyond the budget is possible): for every algorithm that keeps to the budgets it is given, the
evaluations are at most the budget and one more, each run gets the rest of the budget, no run starts when the budget is used up or the
target was hit, and the loop ends because of the budget, the target or the number of runs. -/
theorem C136_optimize_partial (budget maxRuns : Nat) (alg : Algorithm) (ho : Obedient alg) (hb : 0 < budget) :
    ∃ l T e, optimize budget alg maxRuns 0 0 = (l, T, e) ∧ T = total l ∧ T ≤ budget + 1 ∧ Budgets budget l ∧
      l.length ≤ maxRuns ∧ (∀ i < l.length, total (l.take i) < budget) ∧
      (∀ i, i + 1 < l.length → (alg i (budget - (total (l.take i) : Nat) : Int)).2.2 = false) ∧
      match e with
      | .exhausted => budget ≤ T
      | .targetHit => ∃ n, l.length = n + 1 ∧ (alg n (budget - (total (l.take n) : Nat) : Int)).2.2 = true
      | .maxRuns => l.length = maxRuns
      | .noEvaluations => False := by
  obtain ⟨l, T, e, h1, h2, h3, h4, h5, h6, h7, h8⟩ := optimize_spec budget alg ho maxRuns 0 0 hb
  simp only [Nat.zero_add] at h2 h6 h7 h8
  exact ⟨l, T, e, h1, h2, h3, budgets h4, h5, h6, h7, h8⟩

/-- C136 fails for `coco_optimize`: random search keeps to the budget it is given, but there is one evaluation more. -/
theorem C136_one_more (budget maxRuns : Nat) (hit : Bool) (hb : 0 < budget) (hm : 0 < maxRuns) :
    Obedient (randomSearch hit) ∧ optimize budget (randomSearch hit) maxRuns 0 0 = ([⟨budget, budget + 1⟩], budget + 1, .exhausted) := by
  refine ⟨fun _ b => by simp [randomSearch], ?_⟩
  obtain ⟨m, rfl⟩ := Nat.exists_eq_succ_of_ne_zero (by omega : maxRuns ≠ 0)
  obtain ⟨f, g, h, ha, hr⟩ := optimize_succ budget (randomSearch hit) m 0 0 hb
  simp only [randomSearch, Nat.sub_zero, Int.toNat_natCast, Prod.mk.injEq] at ha
  obtain ⟨rfl, rfl, rfl⟩ := ha
  rw [hr, if_pos (by omega)]
  simp [Nat.add_comm]

/-- C136 fails for `coco_optimize`: an algorithm that makes no evaluation is not called once, as the documentation says, but as often
as there are evaluations in the budget (or as the number of runs allows). -/
theorem C136_idle (budget maxRuns : Nat) :
    (optimize budget (fun _ _ => (0, 0, false)) maxRuns 0 0).1.length = if budget = 0 then min 1 maxRuns else min budget maxRuns := by
  have h : ∀ (fuel run t : Nat), t < budget →
      (optimize budget (fun _ _ => (0, 0, false)) fuel run t).1.length = min (budget - t) fuel := by
    intro fuel
    induction fuel with
    | zero => intro run t _; simp [optimize]
    | succ fuel ih =>
      intro run t ht
      obtain ⟨f, g, hit, ha, hr⟩ := optimize_succ budget (fun _ _ => (0, 0, false)) fuel run t ht
      simp only [Prod.mk.injEq] at ha
      obtain ⟨rfl, rfl, rfl⟩ := ha
      rw [hr]
      split
      · simp; omega
      · simp only [Bool.false_eq_true, if_false, List.length_cons]
        rw [ih _ _ (by omega)]
        omega
  split
  · rename_i hb
    subst hb
    cases maxRuns with
    | zero => simp [optimize]
    | succ m => simp [optimize]
  · rw [h _ _ _ (by omega)]; simp

/-- C136, the loop of `example_experiment2.py`: for every algorithm that keeps to the budgets it is given and makes some evaluation in each
run, it ends, after at most as many runs as there are evaluations in the budget, and with at most the budget and one more (the evaluation of
the zero vector, which does not count) of function as of constraint evaluations. -/
theorem C136_experiment2_partial (budget : Nat) (alg : Algorithm) (hit : Bool) (ho : ObedientEach alg)
    (hp : ∀ run (b : Nat), 0 < b → 0 < (alg run b).1) :
    ∃ fuel runs f g, experiment2 budget alg hit fuel = some (runs, f, g) ∧ runs ≤ budget ∧ f ≤ budget + 1 ∧ g ≤ budget + 1 ∧ 1 ≤ f := by
  have h : ∀ (n run f g : Nat) (hit : Bool), budget + 1 - f = n → f ≤ budget + 1 → g ≤ budget + 1 → 1 ≤ f →
      ∃ fuel runs f' g', restarts budget alg fuel run f g hit = some (runs, f', g') ∧ runs ≤ run + n ∧ f' ≤ budget + 1 ∧
        g' ≤ budget + 1 ∧ 1 ≤ f' := by
    intro n
    induction n using Nat.strongRecOn with
    | ind n ih =>
      intro run f g hit hn hf hg h1
      by_cases hc : left budget f g > 0 ∧ hit = false
      · have hl : left budget f g = ((budget + 1 - max f g : Nat) : Int) := by unfold left; omega
        have hpos : 0 < budget + 1 - max f g := by have := hc.1; rw [hl] at this; omega
        have hob := ho run (budget + 1 - max f g)
        have hpr := hp run (budget + 1 - max f g) hpos
        rcases ha : alg run ((budget + 1 - max f g : Nat) : Int) with ⟨df, dg, h'⟩
        rw [ha] at hob hpr
        simp only at hob hpr
        obtain ⟨fuel, runs, f', g', hr, h2, h3, h4, h5⟩ := ih (budget + 1 - (f + df)) (by omega) (run + 1) (f + df) (g + dg) h' rfl
          (by omega) (by omega) (by omega)
        refine ⟨fuel + 1, runs, f', g', ?_, by omega, h3, h4, h5⟩
        rw [restarts, if_pos hc, hl, ha]
        exact hr
      · exact ⟨1, run, f, g, by rw [restarts, if_neg hc], by omega, hf, hg, h1⟩
  obtain ⟨fuel, runs, f, g, hr, h2, h3, h4, h5⟩ := h budget 0 1 0 hit (by omega) (by omega) (by omega) (by omega)
  exact ⟨fuel, runs, f, g, hr, by omega, h3, h4, h5⟩

/-- C136, the loop of `example_experiment2.py`, for every algorithm: it ends exactly after the first run, if any, after which the budget is
used up or the target was hit; each run gets the rest of the budget. -/
theorem C136_experiment2 (budget : Nat) (alg : Algorithm) (hit : Bool) (fuel runs f g : Nat) :
    experiment2 budget alg hit fuel = some (runs, f, g) ↔
      runs < fuel ∧ (∀ i < runs, GoOn budget (after budget alg hit i)) ∧ ¬ GoOn budget (after budget alg hit runs) ∧
        (after budget alg hit runs).1 = f ∧ (after budget alg hit runs).2.1 = g := by
  have hgo : ∀ n, GoOn budget (after budget alg hit n) ↔
      left budget (after budget alg hit n).1 (after budget alg hit n).2.1 > 0 ∧ (after budget alg hit n).2.2 = false := by
    intro n
    unfold GoOn left
    rw [← and_assoc]
    refine and_congr_left fun _ => ?_
    omega
  have h : ∀ (fuel run : Nat),
      restarts budget alg fuel run (after budget alg hit run).1 (after budget alg hit run).2.1 (after budget alg hit run).2.2 =
        some (runs, f, g) ↔ run ≤ runs ∧ runs < run + fuel ∧ (∀ i, run ≤ i → i < runs → GoOn budget (after budget alg hit i)) ∧
          ¬ GoOn budget (after budget alg hit runs) ∧ (after budget alg hit runs).1 = f ∧ (after budget alg hit runs).2.1 = g := by
    intro fuel
    induction fuel with
    | zero => intro run; simp only [restarts, reduceCtorEq, false_iff]; omega
    | succ fuel ih =>
      intro run
      rw [restarts]
      by_cases hc : GoOn budget (after budget alg hit run)
      · rw [if_pos ((hgo run).mp hc)]
        have := ih (run + 1)
        rw [after] at this
        simp only [left]
        refine this.trans ?_
        constructor
        · rintro ⟨h1, h2, h3, h4⟩
          refine ⟨by omega, by omega, fun i hi hi2 => ?_, h4⟩
          by_cases e : i = run
          · rw [e]; exact hc
          · exact h3 i (by omega) hi2
        · rintro ⟨h1, h2, h3, h4⟩
          have hne : run ≠ runs := by rintro rfl; exact h4.1 hc
          exact ⟨by omega, by omega, fun i hi hi2 => h3 i (by omega) hi2, h4⟩
      · rw [if_neg fun e => hc ((hgo run).mpr e)]
        simp only [Option.some.injEq, Prod.mk.injEq]
        constructor
        · rintro ⟨rfl, h1, h2⟩
          exact ⟨Nat.le_refl _, by omega, fun i hi hi2 => by omega, hc, h1, h2⟩
        · rintro ⟨h1, h2, h3, h4, h5, h6⟩
          have e : run = runs := by
            by_contra hne
            exact hc (h3 run (Nat.le_refl _) (by omega))
          subst e
          exact ⟨rfl, h5, h6⟩
  have := h fuel 0
  simp only [Nat.zero_add, Nat.zero_le, true_and, forall_const] at this
  exact this

/-- C136 fails for `example_experiment2.py`: with an algorithm that makes no evaluation the loop does not end. -/
theorem C136_experiment2_endless (budget : Nat) (hb : 0 < budget) (fuel : Nat) :
    experiment2 budget (fun _ _ => (0, 0, false)) false fuel = none := by
  have h : ∀ (fuel run : Nat), restarts budget (fun _ _ => (0, 0, false)) fuel run 1 0 false = none := by
    intro fuel
    induction fuel with
    | zero => intro run; rfl
    | succ fuel ih =>
      intro run
      rw [restarts, if_pos ⟨by unfold left; omega, rfl⟩]
      exact ih (run + 1)
  exact h fuel 0

/-- C136, the loop for Matlab: for every algorithm that keeps to the budgets it is given, the evaluations are at most the budget, each run
gets the rest of it, no run starts when it is used up or the target was hit, and the loop ends because of the budget, the target, the number
of runs, or a run without evaluations. -/
theorem C136_matlab (budget restarts : Nat) (alg : Algorithm) (ho : Obedient alg) :
    ∃ l T e, matlab budget alg (restarts + 1) 0 0 = (l, T, e) ∧ T = total l ∧ T ≤ budget ∧ Budgets budget l ∧
      l.length ≤ restarts + 1 ∧ (∀ i < l.length, total (l.take i) < budget) ∧
      (∀ i, i + 1 < l.length → (alg i (budget - (total (l.take i) : Nat) : Int)).2.2 = false) ∧
      match e with
      | .exhausted => T = budget
      | .targetHit => ∃ n, l.length = n + 1 ∧ (alg n (budget - (total (l.take n) : Nat) : Int)).2.2 = true
      | .maxRuns => l.length = restarts + 1
      | .noEvaluations => ∃ c, l.getLast? = some c ∧ c.used = 0 := by
  obtain ⟨l, T, e, h1, h2, h3, h4, h5, h6, h7, h8⟩ := matlab_spec budget alg ho (restarts + 1) 0 0 (Nat.zero_le _)
  simp only [Nat.zero_add] at h2 h6 h7 h8
  exact ⟨l, T, e, h1, h2, h3, budgets h4, h5, h6, h7, h8⟩

/-- C136: the optimizer of the Matlab example uses exactly its budget without constraints, and twice the budget with constraints. -/
theorem C136_matlab_twice (budget restarts constraints : Nat) (hb : 0 < budget) :
    (matlab budget (myOptimizer constraints false) (restarts + 1) 0 0).2.1 = if constraints > 0 then 2 * budget else budget := by
  rw [matlab, if_pos hb]
  by_cases hc : constraints > 0
  · simp only [myOptimizer, if_pos hc, Bool.false_eq_true, if_false]
    rw [if_pos (by simp)]
    simp; omega
  · simp only [myOptimizer, if_neg hc, Bool.false_eq_true, if_false]
    rw [if_pos (by simp)]
    simp

/-! ### Cases -/

/-- An algorithm that uses a quarter of its budget and one more for functions, and a quarter for constraints. -/
def quarters : Algorithm := fun _ b => (min b.toNat (b.toNat / 4 + 1), min (b.toNat / 4) (b.toNat - 1), false)

example : Obedient quarters := by intro _ b; simp [quarters]; omega

example : ObedientEach quarters ∧ ∀ run (b : Nat), 0 < b → 0 < (quarters run b).1 := by
  constructor
  · intro _ b; simp [quarters]; omega
  · intro _ b hb; simp [quarters]; omega

example : (optimize 20 quarters 100 0 0).2 = (20, .exhausted) := by decide

example : (matlab 20 quarters 100 0 0).2 = (20, .exhausted) := by decide

example : (matlab 20 quarters 100 0 0).1.length = 4 := by decide

end ExampleLoops
