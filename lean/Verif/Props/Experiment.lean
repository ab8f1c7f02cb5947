import Mathlib.Tactic
import Verif.Model.Experiment

/-!
# The budget of the example experiment (C118)
-/

namespace Experiment

/-! ### Specification -/

/-- An algorithm that never evaluates more often than it may. -/
def Spec.Obedient (opt : Optimizer) : Prop := ∀ run budget c, (opt run budget c).1 + (opt run budget c).2 ≤ budget

/-- The evaluations made in the calls. -/
def Spec.total (l : List Call) : Nat := (l.map fun c => c.f + c.g).sum

/-- Every call is given exactly what the calls before it left of the budget `B`, and something was left. -/
def Spec.Budgets (B : Nat) : Nat → List Call → Prop
  | _, [] => True
  | used, c :: l => c.budget = B - used ∧ used < B ∧ Spec.Budgets B (used + c.f + c.g) l

/-! ### Lemmas -/

theorem done_eq (c : Counters) (h : c.f + c.g < word) : done c = c.f + c.g := Nat.mod_eq_of_lt h

theorem remaining_eq (b d : Nat) (c : Counters) (hB : d * b < word) (h : c.f + c.g ≤ d * b) :
    remaining b d c = d * b - (c.f + c.g) := by
  unfold remaining
  rw [done_eq c (by omega), Nat.mod_eq_of_lt hB]
  have : d * b + word - (c.f + c.g) = (d * b - (c.f + c.g)) + word := by omega
  rw [this, Nat.add_mod_right, Nat.mod_eq_of_lt (by omega)]

/-- There are at least two calls. -/
theorem run_eq (b d m : Nat) (hit : Counters → Bool) (opt : Optimizer) :
    ∃ n, restarts = n + 1 ∧ run b d m hit opt = loop b d m hit opt (n + 1 + 1) 1 ⟨0, 0⟩ :=
  ⟨9999, rfl, rfl⟩

/-- The loop on a problem without constraints. -/
theorem loop_spec (b d : Nat) (hit : Counters → Bool) (opt : Optimizer) (hB : d * b < word) (ho : Spec.Obedient opt)
    (hg : ∀ r n c, (opt r n c).2 = 0) (fuel : Nat) : ∀ run (c : Counters), c.g = 0 → c.f ≤ d * b →
      ∃ l c' e, loop b d 0 hit opt fuel run c = (l, c', e) ∧ c'.g = 0 ∧ c'.f = c.f + Spec.total l ∧
        c'.f ≤ d * b ∧ l.length ≤ fuel ∧ Spec.Budgets (d * b) c.f l ∧
        (∀ i, i < l.length → hit ⟨c.f + Spec.total (l.take i), 0⟩ = false) ∧
        (∀ i, i + 1 < l.length → ∃ x, l[i]? = some x ∧ 0 < x.f) ∧
        e ≠ .decreased ∧ (e = .targetHit → hit c' = true) ∧ (e = .exhausted → c'.f = d * b) ∧
        (e = .noEvaluations → ∃ x, l.getLast? = some x ∧ x.f = 0) ∧ (e = .maxRestarts → l.length = fuel) := by
  induction fuel with
  | zero =>
    intro run c h0 hf
    exact ⟨[], c, .maxRestarts, rfl, h0, by simp [Spec.total], hf, by simp, trivial, by simp, by simp, by simp, by simp,
      by simp, by simp, by simp⟩
  | succ fuel ih =>
    intro run c h0 hf
    have hr : remaining b d c = d * b - c.f := by rw [remaining_eq b d c hB (by omega), h0]; rfl
    have hdone : done c = c.f := by rw [done_eq c (by omega), h0]; rfl
    have hc : c = ⟨c.f, 0⟩ := by rw [← h0]
    by_cases hh : hit c = true
    · exact ⟨[], c, .targetHit, by simp [loop, hh], h0, by simp [Spec.total], hf, by simp, trivial, by simp, by simp,
        by simp, fun _ => hh, by simp, by simp, by simp⟩
    have hh' : hit c = false := by simpa using hh
    by_cases hz : d * b - c.f = 0
    · exact ⟨[], c, .exhausted, by simp [loop, hh', hr, hz], h0, by simp [Spec.total], hf, by simp, trivial, by simp,
        by simp, by simp, by simp, fun _ => by omega, by simp, by simp⟩
    obtain ⟨df, dg, hopt⟩ : ∃ df dg, opt run (d * b - c.f) c = (df, dg) := ⟨_, _, rfl⟩
    have hdg : dg = 0 := by have := hg run (d * b - c.f) c; rw [hopt] at this; exact this
    subst hdg
    have hle : df ≤ d * b - c.f := by have := ho run (d * b - c.f) c; rw [hopt] at this; simpa using this
    have hmod : (c.f + df) % word = c.f + df := Nat.mod_eq_of_lt (by omega)
    by_cases hd0 : df = 0
    · subst hd0
      refine ⟨[⟨d * b - c.f, 0, 0⟩], ⟨c.f, c.g⟩, .noEvaluations, ?_, h0, by simp [Spec.total], hf, by simp,
        ⟨rfl, by omega, trivial⟩, ?_, by simp, by simp, by simp, by simp, by simp, by simp⟩
      · simp only [loop, hh', hr, hopt, hdone]
        have : c.f % word = c.f := Nat.mod_eq_of_lt (by omega)
        simp [hz, this]
      · intro i hi
        have : i = 0 := by simpa using hi
        subst this
        simpa [Spec.total, ← hc] using hh'
    · obtain ⟨l, c', e, h1, h2, h3, h4, h5, h6, h7, h8, he, h9, h10, h11, h12⟩ :=
        ih (run + 1) ⟨c.f + df, c.g + 0⟩ (by simpa using h0) (by show c.f + df ≤ _; omega)
      refine ⟨⟨d * b - c.f, df, 0⟩ :: l, c', e, ?_, h2, ?_, h4, by simpa using h5, ⟨rfl, by omega, by simpa using h6⟩,
        ?_, ?_, he, h9, h10, ?_, by simpa using h12⟩
      · simp only [loop, hh', hr, hopt, hdone, hmod]
        rw [if_neg (by simp), if_neg hz, if_neg (by omega), if_neg (by omega), h1]
      · rw [h3]; simp [Spec.total]; omega
      · intro i hi
        cases i with
        | zero => simpa [Spec.total, ← hc] using hh'
        | succ i =>
          have := h7 i (by simpa using hi)
          simpa [Spec.total, Nat.add_assoc] using this
      · intro i hi
        cases i with
        | zero => exact ⟨_, rfl, Nat.pos_of_ne_zero hd0⟩
        | succ i => simpa using h8 i (by simpa using hi)
      · intro he
        obtain ⟨x, hx, hx0⟩ := h11 he
        refine ⟨x, ?_, hx0⟩
        cases l with
        | nil => simp at hx
        | cons y l => simpa using hx

/-! ### C118 -/

/-- **C118** (partial; problems without constraints). With any algorithm that keeps to its budget the experiment ends without
error on every problem without constraints: each call gets exactly the rest of the budget, which is never exceeded in
total; no call is made once the final target is reached or the budget used up; and the experiment on the problem ends
only because the target is reached, the budget is used up, the last call made no evaluation, or the maximal number of
calls was made. -/
theorem C118_budget_partial (b d : Nat) (hit : Counters → Bool) (opt : Optimizer) (hB : d * b < 2 ^ 64)
    (ho : Spec.Obedient opt) (hg : ∀ r n c, (opt r n c).2 = 0) :
    ∃ l c e, run b d 0 hit opt = (l, c, e) ∧ c = ⟨Spec.total l, 0⟩ ∧ Spec.total l ≤ d * b ∧ l.length ≤ 10001 ∧
      Spec.Budgets (d * b) 0 l ∧ (∀ i, i < l.length → hit ⟨Spec.total (l.take i), 0⟩ = false) ∧
      (∀ i, i + 1 < l.length → ∃ x, l[i]? = some x ∧ 0 < x.f) ∧
      match e with
      | .targetHit => hit c = true
      | .exhausted => Spec.total l = d * b
      | .noEvaluations => ∃ x, l.getLast? = some x ∧ x.f = 0
      | .maxRestarts => l.length = 10001
      | .decreased => False := by
  obtain ⟨l, c, e, h1, h2, h3, h4, h5, h6, h7, h8, he, h9, h10, h11, h12⟩ :=
    loop_spec b d hit opt hB ho hg (1 + restarts) 1 ⟨0, 0⟩ rfl (Nat.zero_le _)
  have hc : c = ⟨Spec.total l, 0⟩ := by
    obtain ⟨cf, cg⟩ := c
    simp only at h2 h3
    rw [h2, h3, Nat.zero_add]
  refine ⟨l, c, e, h1, hc, by rw [hc] at h4; exact h4, h5, h6, by simpa using h7, h8, ?_⟩
  cases e with
  | targetHit => exact h9 rfl
  | exhausted => have := h10 rfl; rw [hc] at this; exact this
  | noEvaluations => exact h11 rfl
  | maxRestarts => exact h12 rfl
  | decreased => exact absurd rfl he

/-- **C118** (random search, no constraints). The random search makes all `d * b` evaluations in its first call, whether or
not it reaches the target in between; the restart is signalled once. -/
theorem C118_random (b d : Nat) (hit : Counters → Bool) (h0 : hit ⟨0, 0⟩ = false) (hB : d * b < 2 ^ 64) (hd : 0 < d * b) :
    ∃ e, run b d 0 hit (randomSearch 0) = ([⟨d * b, d * b, 0⟩], ⟨d * b, 0⟩, e) := by
  have hr : remaining b d ⟨0, 0⟩ = d * b := by rw [remaining_eq b d _ hB (by simp)]; simp
  have hr2 : remaining b d ⟨d * b, 0⟩ = 0 := by rw [remaining_eq b d _ hB (by simp)]; simp
  have hm : d * b % word = d * b := Nat.mod_eq_of_lt hB
  have hd0 : done ⟨0, 0⟩ = 0 := rfl
  obtain ⟨n, -, hn⟩ := run_eq b d 0 hit (randomSearch 0)
  have e1 : run b d 0 hit (randomSearch 0) =
      (⟨d * b, d * b, 0⟩ :: (loop b d 0 hit (randomSearch 0) (n + 1) 2 ⟨d * b, 0⟩).1,
        (loop b d 0 hit (randomSearch 0) (n + 1) 2 ⟨d * b, 0⟩).2) := by
    rw [hn, loop]
    simp only [h0, hr, randomSearch, hd0, Nat.zero_add, hm]
    rw [if_neg (by simp), if_neg (by omega), if_neg (by omega), if_neg (by omega)]
    rfl
  rw [e1]
  have : ∃ e, loop b d 0 hit (randomSearch 0) (n + 1) 2 ⟨d * b, 0⟩ = ([], ⟨d * b, 0⟩, e) := by
    rw [loop]
    simp only [hr2]
    by_cases h : hit ⟨d * b, 0⟩ = true
    · exact ⟨.targetHit, by simp [h]⟩
    · exact ⟨.exhausted, by simp [h]⟩
  obtain ⟨e, he⟩ := this
  exact ⟨e, by rw [he]⟩

/-- **C118** (constraints, the random search of the example). The full statement is false with constraints: the random
search makes twice as many evaluations as it may, so that the rest of the budget, an unsigned number, becomes huge: the
second call is told to make about 2^64 further evaluations, and does so; after them the experiment ends with an error.
(For any problem with constraints and a budget of at least one evaluation; the target does not matter.) -/
theorem C118_constraints_endless (b d m : Nat) (hm : 0 < m) (hit : Counters → Bool) (hB : d * b < 2 ^ 63)
    (hd : 0 < d * b) :
    run b d m hit (randomSearch m) =
      ([⟨d * b, d * b, d * b⟩, ⟨2 ^ 64 - d * b, 2 ^ 64 - d * b, 2 ^ 64 - d * b⟩], ⟨2 ^ 64, 2 ^ 64⟩, .decreased) := by
  have hw : (2 : Nat) ^ 64 = word := rfl
  have hw2 : (2 : Nat) ^ 63 + 2 ^ 63 = word := rfl
  rw [hw]
  have hr : remaining b d ⟨0, 0⟩ = d * b := by rw [remaining_eq b d _ (by omega) (by simp)]; simp
  have hmod : d * b % word = d * b := Nat.mod_eq_of_lt (by omega)
  have hdn : done ⟨d * b, d * b⟩ = d * b + d * b := Nat.mod_eq_of_lt (by show d * b + d * b < word; omega)
  have hr2 : remaining b d ⟨d * b, d * b⟩ = word - d * b := by
    unfold remaining
    rw [hdn, hmod, show d * b + word - (d * b + d * b) = word - d * b by omega, Nat.mod_eq_of_lt (by omega)]
  have hm0 : (m == 0) = false := by simpa using (by omega : m ≠ 0)
  have hd0 : done ⟨0, 0⟩ = 0 := rfl
  have hs : d * b + (word - d * b) = word := by omega
  obtain ⟨n, -, hn⟩ := run_eq b d m hit (randomSearch m)
  have e2 : loop b d m hit (randomSearch m) (n + 1) 2 ⟨d * b, d * b⟩ =
      ([⟨word - d * b, word - d * b, word - d * b⟩], ⟨word, word⟩, .decreased) := by
    rw [loop]
    simp only [hm0, hr2, randomSearch, hdn, hm, if_true, hs, Nat.mod_self]
    rw [if_neg (by simp), if_neg (by omega), if_neg (by omega), if_pos (by omega)]
  rw [hn, loop]
  simp only [hm0, hr, hd0, Nat.zero_add]
  rw [if_neg (by simp), if_neg (by omega)]
  have ho : randomSearch m 1 (d * b) ⟨0, 0⟩ = (d * b, d * b) := by simp [randomSearch, hm]
  simp only [ho, hmod]
  rw [if_neg (by omega), if_neg (by omega), e2]

/-- **C118** (constraints, other algorithms). With constraints the experiment can also end with a fatal error: the
number of function evaluations is compared with the number of all evaluations before the call. An algorithm that keeps to
its budget, and evaluates both the function and the constraints three times before its first restart and once after it, is said
to have decreased the number of evaluations. -/
theorem C118_constraints_error :
    ∃ opt : Optimizer, Spec.Obedient opt ∧ run 10 2 1 (fun _ => false) opt =
      ([⟨20, 3, 3⟩, ⟨14, 1, 1⟩], ⟨4, 4⟩, .decreased) := by
  refine ⟨fun r budget _ => if r = 1 ∧ 6 ≤ budget then (3, 3) else if 2 ≤ budget then (1, 1) else (0, 0), ?_, ?_⟩
  · intro r n c
    dsimp only
    split_ifs with h1 h2 <;> simp <;> omega
  · obtain ⟨n, -, hn⟩ := run_eq 10 2 1 (fun _ => false)
      fun r budget _ => if r = 1 ∧ 6 ≤ budget then (3, 3) else if 2 ≤ budget then (1, 1) else (0, 0)
    rw [hn]
    rfl

/-! ### Cases that meet the hypotheses -/

/-- An algorithm that restarts after three evaluations and reaches the target after seven, on a problem with 5 variables. -/
def exampleOptimizer : Optimizer := fun _ budget _ => (min 3 budget, 0)

example : Spec.Obedient exampleOptimizer ∧ (∀ r n c, (exampleOptimizer r n c).2 = 0) :=
  ⟨fun _ n _ => by simp [exampleOptimizer], fun _ _ _ => rfl⟩

example : loop 2 5 0 (fun c => 7 ≤ c.f) exampleOptimizer 5 1 ⟨0, 0⟩ =
      ([⟨10, 3, 0⟩, ⟨7, 3, 0⟩, ⟨4, 3, 0⟩], ⟨9, 0⟩, .targetHit) ∧
    loop 2 5 0 (fun _ => false) exampleOptimizer 5 1 ⟨0, 0⟩ =
      ([⟨10, 3, 0⟩, ⟨7, 3, 0⟩, ⟨4, 3, 0⟩, ⟨1, 1, 0⟩], ⟨10, 0⟩, .exhausted) := by
  decide

end Experiment
