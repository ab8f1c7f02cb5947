import Mathlib.Tactic
import Verif.Model.NoiseShared
import Verif.Props.Noise

/-!
# Noisy problems evaluated side by side (C115)
-/

namespace Noise
open Legacy

/-! ### Specification -/

/-- What belongs to problem `p` in a list of entries marked with the number of a problem. -/
def Spec.own {α : Type} (p : Nat) (l : List (Nat × α)) : List (Nat × α) := l.filter fun e => e.1 = p

/-- Two calls share no stream of random numbers: whatever `a` draws from, `b` does not. -/
def Spec.Apart (a b : Op) : Prop :=
  ((Spec.draws a).1 = 0 ∨ (Spec.draws b).1 = 0) ∧ ((Spec.draws a).2 = 0 ∨ (Spec.draws b).2 = 0)

/-! ### Dependence of a call on the seeds -/

def InRange (z : Int) : Prop := 1 ≤ z ∧ z ≤ 10 ^ 9

theorem increase_inRange {z : Int} (h : InRange z) : InRange (increase z) := by
  unfold InRange increase at *
  split_ifs <;> omega

theorem sampleUniform_dep (z : Int) (h : InRange z) :
    ∃ u : ℚ, ∀ n, sampleUniform ⟨z, n⟩ = .ok (u, ⟨increase z, n⟩) := by
  have r := increase_inRange h
  unfold InRange at r
  obtain ⟨us, e, -, -⟩ := C44_range 1 (increase z) (by omega)
  refine ⟨us.getD 0 0, fun n => ?_⟩
  unfold sampleUniform
  dsimp only
  rw [e, Res.ok_bind]

theorem sampleGaussian_dep (z : Int) (h : InRange z) :
    ∃ g : ℝ, ∀ n, sampleGaussian ⟨n, z⟩ = .ok (g, ⟨n, increase z⟩) := by
  have r := increase_inRange h
  unfold InRange at r
  obtain ⟨us, -, -, -, e⟩ := gauss_ok 1 (by norm_num) (increase z) (by omega)
  refine ⟨gaussNumber ((us.getD 0 0 : ℚ) : ℝ) ((us.getD 1 0 : ℚ) : ℝ), fun n => ?_⟩
  unfold sampleGaussian
  dsimp only
  rw [e, Res.ok_bind]
  rfl

theorem step_dep (op : Op) (s t : Seeds) (hs : InRange s.rand ∧ InRange s.randn)
    (ht : InRange t.rand ∧ InRange t.randn) (h1 : (Spec.draws op).1 = 0 ∨ s.rand = t.rand)
    (h2 : (Spec.draws op).2 = 0 ∨ s.randn = t.randn) :
    ∃ o s' t', step s op = .ok (o, s') ∧ step t op = .ok (o, t') ∧
      (InRange s'.rand ∧ InRange s'.randn) ∧ (InRange t'.rand ∧ InRange t'.randn) ∧
      (s.rand = t.rand → s'.rand = t'.rand) ∧ (s.randn = t.randn → s'.randn = t'.randn) ∧
      (op ≠ .reset → (Spec.draws op).1 = 0 → s'.rand = s.rand) ∧
      (op ≠ .reset → (Spec.draws op).2 = 0 → s'.randn = s.randn) := by
  obtain ⟨a, b⟩ := s
  obtain ⟨c, d⟩ := t
  dsimp only at *
  have ia := increase_inRange hs.1
  have ib := increase_inRange hs.2
  have ic := increase_inRange ht.1
  have id' := increase_inRange ht.2
  have ia2 := increase_inRange ia
  have ib2 := increase_inRange ib
  have ic2 := increase_inRange ic
  have id2 := increase_inRange id'
  cases op with
  | reset =>
    have r : InRange 30 := by unfold InRange; omega
    exact ⟨[], Noise.reset, Noise.reset, rfl, rfl, ⟨r, r⟩, ⟨r, r⟩, fun _ => rfl, fun _ => rfl,
      fun h => absurd rfl h, fun h => absurd rfl h⟩
  | uniform =>
    obtain rfl : a = c := h1.resolve_left (by simp [Spec.draws])
    obtain ⟨u, e⟩ := sampleUniform_dep a hs.1
    exact ⟨[(u : ℝ)], ⟨increase a, b⟩, ⟨increase a, d⟩, by simp only [step, e, Res.ok_bind], by simp only [step, e, Res.ok_bind],
      ⟨ia, hs.2⟩, ⟨ia, ht.2⟩, fun _ => rfl, fun h => h, fun _ h => by simp [Spec.draws] at h, fun _ _ => rfl⟩
  | gaussian =>
    obtain rfl : b = d := h2.resolve_left (by simp [Spec.draws])
    obtain ⟨u, e⟩ := sampleGaussian_dep b hs.2
    exact ⟨[u], ⟨a, increase b⟩, ⟨c, increase b⟩, by simp only [step, e, Res.ok_bind], by simp only [step, e, Res.ok_bind],
      ⟨hs.1, ib⟩, ⟨ht.1, ib⟩, fun h => h, fun _ => rfl, fun _ _ => rfl, fun _ h => by simp [Spec.draws] at h⟩
  | evaluate m fopt inner xs =>
    cases m with
    | gaussian β =>
      obtain rfl : b = d := h2.resolve_left (by simp [Spec.draws])
      obtain ⟨u, e⟩ := sampleGaussian_dep b hs.2
      exact ⟨_, ⟨a, increase b⟩, ⟨c, increase b⟩, by simp only [step, evaluate, e, Res.ok_bind]; rfl,
        by simp only [step, evaluate, e, Res.ok_bind],
        ⟨hs.1, ib⟩, ⟨ht.1, ib⟩, fun h => h, fun _ => rfl, fun _ _ => rfl, fun _ h => by simp [Spec.draws] at h⟩
    | uniform α β =>
      obtain rfl : a = c := h1.resolve_left (by simp [Spec.draws])
      obtain ⟨u, e⟩ := sampleUniform_dep a hs.1
      obtain ⟨v, e'⟩ := sampleUniform_dep _ ia
      exact ⟨_, ⟨increase (increase a), b⟩, ⟨increase (increase a), d⟩, by simp only [step, evaluate, e, e', Res.ok_bind]; rfl,
        by simp only [step, evaluate, e, e', Res.ok_bind],
        ⟨ia2, hs.2⟩, ⟨ia2, ht.2⟩, fun _ => rfl, fun h => h, fun _ h => by simp [Spec.draws] at h, fun _ _ => rfl⟩
    | cauchy α p =>
      obtain rfl : a = c := h1.resolve_left (by simp [Spec.draws])
      obtain rfl : b = d := h2.resolve_left (by simp [Spec.draws])
      obtain ⟨u, e⟩ := sampleUniform_dep a hs.1
      obtain ⟨g, e'⟩ := sampleGaussian_dep b hs.2
      obtain ⟨g', e''⟩ := sampleGaussian_dep _ ib
      exact ⟨_, ⟨increase a, increase (increase b)⟩, ⟨increase a, increase (increase b)⟩, by simp only [step, evaluate, e, e', e'', Res.ok_bind]; rfl,
        by simp only [step, evaluate, e, e', e'', Res.ok_bind],
        ⟨ia, ib2⟩, ⟨ia, ib2⟩, fun _ => rfl, fun _ => rfl, fun _ h => by simp [Spec.draws] at h,
        fun _ h => by simp [Spec.draws] at h⟩

/-! ### C115 -/

theorem apart_run (p : Nat) (h : List (Nat × Op)) (U G : Prop)
    (hown : ∀ e ∈ h, e.1 = p → ((Spec.draws e.2).1 = 0 ∨ U) ∧ ((Spec.draws e.2).2 = 0 ∨ G))
    (hoth : ∀ e ∈ h, e.1 ≠ p → e.2 ≠ .reset ∧ (U → (Spec.draws e.2).1 = 0) ∧ (G → (Spec.draws e.2).2 = 0))
    (s t : Seeds) (hs : InRange s.rand ∧ InRange s.randn) (ht : InRange t.rand ∧ InRange t.randn)
    (h1 : U → s.rand = t.rand) (h2 : G → s.randn = t.randn) :
    ∃ os s' os' t', runShared h s = .ok (os, s') ∧ runShared (Spec.own p h) t = .ok (os', t') ∧
      Spec.own p os = os' := by
  induction h generalizing s t with
  | nil => exact ⟨[], s, [], t, rfl, rfl, rfl⟩
  | cons e h ih =>
    obtain ⟨q, op⟩ := e
    have hown' := fun e he => hown e (List.mem_cons_of_mem _ he)
    have hoth' := fun e he => hoth e (List.mem_cons_of_mem _ he)
    by_cases hq : q = p
    · subst hq
      obtain ⟨o1, o2⟩ := hown (q, op) (by simp) rfl
      obtain ⟨o, s', t', e1, e2, rs, rt, k1, k2, -, -⟩ := step_dep op s t hs ht (o1.imp_right h1) (o2.imp_right h2)
      obtain ⟨os, s2, os', t2, f1, f2, f3⟩ := ih hown' hoth' s' t' rs rt (fun u => k1 (h1 u)) (fun u => k2 (h2 u))
      refine ⟨(q, o) :: os, s2, (q, o) :: os', t2, ?_, ?_, ?_⟩
      · simp only [runShared, e1, f1, Res.ok_bind]
      · have : Spec.own q ((q, op) :: h) = (q, op) :: Spec.own q h := by simp [Spec.own]
        rw [this]
        simp only [runShared, e2, f2, Res.ok_bind]
      · rw [← f3]
        simp [Spec.own]
    · obtain ⟨nr, n1, n2⟩ := hoth (q, op) (by simp) hq
      obtain ⟨o, s', -, e1, -, rs, -, -, -, k3, k4⟩ := step_dep op s s hs hs (Or.inr rfl) (Or.inr rfl)
      obtain ⟨os, s2, os', t2, f1, f2, f3⟩ := ih hown' hoth' s' t rs ht (fun u => by rw [k3 nr (n1 u), h1 u])
        (fun u => by rw [k4 nr (n2 u), h2 u])
      refine ⟨(q, o) :: os, s2, os', t2, ?_, ?_, ?_⟩
      · simp only [runShared, e1, f1, Res.ok_bind]
      · have : Spec.own p ((q, op) :: h) = Spec.own p h := by simp [Spec.own, hq]
        rw [this]
        exact f2
      · rw [← f3]
        simp [Spec.own, hq]

/-- **C115** (partial). In any schedule in which the other problems draw from no stream of random numbers used by
problem `p` and do not reset the seeds, `p` receives exactly the numbers it receives when it is alone. (That this
needs the condition on the streams is `C115_interference`.) -/
theorem C115_apart_partial (p : Nat) (h : List (Nat × Op))
    (ha : ∀ e ∈ h, ∀ e' ∈ h, e.1 = p → e'.1 ≠ p → Spec.Apart e.2 e'.2) (hr : ∀ e ∈ h, e.1 ≠ p → e.2 ≠ .reset) :
    ∃ os s os' s', runShared h Noise.reset = .ok (os, s) ∧ runShared (Spec.own p h) Noise.reset = .ok (os', s') ∧
      Spec.own p os = os' := by
  have r : InRange 30 := by unfold InRange; omega
  refine apart_run p h (∃ e ∈ h, e.1 = p ∧ (Spec.draws e.2).1 ≠ 0) (∃ e ∈ h, e.1 = p ∧ (Spec.draws e.2).2 ≠ 0)
    ?_ ?_ _ _ ⟨r, r⟩ ⟨r, r⟩ (fun _ => rfl) (fun _ => rfl)
  · intro e he hp
    exact ⟨(em _).imp_right fun n => ⟨e, he, hp, n⟩, (em _).imp_right fun n => ⟨e, he, hp, n⟩⟩
  · intro e' he' hp'
    refine ⟨hr e' he' hp', ?_, ?_⟩
    · rintro ⟨e, he, hp, n⟩
      exact (ha e he e' he' hp hp').1.resolve_left n
    · rintro ⟨e, he, hp, n⟩
      exact (ha e he e' he' hp hp').2.resolve_left n

theorem run_inRange (h : List Op) : ∃ os s, run h Noise.reset = .ok (os, s) ∧ InRange s.rand ∧ InRange s.randn ∧
    s.rand = Spec.seedAfter (Spec.since h).1 ∧ s.randn = Spec.seedAfter (Spec.since h).2 := by
  obtain ⟨os, s, e, e1, e2, r1, r2, r3, r4⟩ := C46_range h
  exact ⟨os, s, e, ⟨r1, r2⟩, ⟨r3, r4⟩, e1, e2⟩

/-- **C115** (history). What a call delivers depends on everything done before, by whatever problem, only through
the numbers of draws since the last reset from the streams which the call uses, and on these only modulo 10^9. -/
theorem C115_history (h h' : List Op) (op : Op)
    (h1 : (Spec.draws op).1 = 0 ∨ (Spec.since h).1 % 10 ^ 9 = (Spec.since h').1 % 10 ^ 9)
    (h2 : (Spec.draws op).2 = 0 ∨ (Spec.since h).2 % 10 ^ 9 = (Spec.since h').2 % 10 ^ 9) :
    ∃ os s os' s' o t t', run h Noise.reset = .ok (os, s) ∧ run h' Noise.reset = .ok (os', s') ∧
      step s op = .ok (o, t) ∧ step s' op = .ok (o, t') := by
  obtain ⟨os, s, e, r1, r2, k1, k2⟩ := run_inRange h
  obtain ⟨os', s', e', r1', r2', k1', k2'⟩ := run_inRange h'
  obtain ⟨o, t, t', f, f', -⟩ := step_dep op s s' ⟨r1, r2⟩ ⟨r1', r2'⟩
    (h1.imp_right fun q => by rw [k1, k1']; unfold Spec.seedAfter; omega)
    (h2.imp_right fun q => by rw [k2, k2']; unfold Spec.seedAfter; omega)
  exact ⟨os, s, os', s', o, t, t', e, e', f, f'⟩

/-- **C115** (interference). Without the condition the claim is false: one evaluation of another problem with
uniform noise changes the value which a problem with uniform noise returns for the same point, since both draw from
the same stream. -/
theorem C115_interference :
    ∃ op os s os' s', runShared [(2, op), (1, op)] Noise.reset = .ok (os, s) ∧
      runShared (Spec.own 1 [(2, op), (1, op)]) Noise.reset = .ok (os', s') ∧ Spec.own 1 os ≠ os' := by
  have k1 : ∃ us, unif 1 31 = .ok us ∧ ∃ us', unif 1 32 = .ok us' ∧ ∃ vs, unif 1 33 = .ok vs ∧
      ∃ vs', unif 1 34 = .ok vs' ∧ us.getD 0 0 ≠ vs.getD 0 0 := by
    obtain ⟨us, e, -⟩ := C44_range 1 31 (by norm_num)
    obtain ⟨us', e', -⟩ := C44_range 1 32 (by norm_num)
    obtain ⟨vs, f, -⟩ := C44_range 1 33 (by norm_num)
    obtain ⟨vs', f', -⟩ := C44_range 1 34 (by norm_num)
    refine ⟨us, e, us', e', vs, f, vs', f', fun h => ?_⟩
    have d : (unif 1 31).bind (fun us => .ok (us.getD 0 0)) ≠ (unif 1 33).bind (fun us => .ok (us.getD 0 0)) := by
      decide +kernel
    rw [e, f, Res.ok_bind, Res.ok_bind, h] at d
    exact d rfl
  obtain ⟨us, e, us', e', vs, f, vs', f', hne⟩ := k1
  have i1 : increase 30 = 31 := by decide
  have i2 : increase 31 = 32 := by decide
  have i3 : increase 32 = 33 := by decide
  have i4 : increase 33 = 34 := by decide
  have a1 : ∀ n, sampleUniform ⟨30, n⟩ = .ok (us.getD 0 0, ⟨31, n⟩) := fun n => by
    simp only [sampleUniform, i1, e, Res.ok_bind]
  have a2 : ∀ n, sampleUniform ⟨31, n⟩ = .ok (us'.getD 0 0, ⟨32, n⟩) := fun n => by
    simp only [sampleUniform, i2, e', Res.ok_bind]
  have a3 : ∀ n, sampleUniform ⟨32, n⟩ = .ok (vs.getD 0 0, ⟨33, n⟩) := fun n => by
    simp only [sampleUniform, i3, f, Res.ok_bind]
  have a4 : ∀ n, sampleUniform ⟨33, n⟩ = .ok (vs'.getD 0 0, ⟨34, n⟩) := fun n => by
    simp only [sampleUniform, i4, f', Res.ok_bind]
  have own : Spec.own 1 [(2, Op.evaluate (.uniform 0 1) 0 1 []), (1, Op.evaluate (.uniform 0 1) 0 1 [])] =
      [(1, Op.evaluate (.uniform 0 1) 0 1 [])] := by simp [Spec.own]
  have ev : ∀ (s s' s'' : Seeds) (u u' : ℚ), sampleUniform s = .ok (u, s') → sampleUniform s' = .ok (u', s'') →
      step s (.evaluate (.uniform 0 1) 0 1 []) = .ok ([(u : ℝ) + 1.01 * (1 / 10 ^ 8), 1], s'') := by
    intro s s' s'' u u' b1 b2
    simp [step, evaluate, b1, b2, Res.ok_bind, boundary]
  have e1 := ev _ _ _ _ _ (a1 30) (a2 30)
  have e2 := ev _ _ _ _ _ (a3 30) (a4 30)
  refine ⟨.evaluate (.uniform 0 1) 0 1 [], [(2, [((us.getD 0 0 : ℚ) : ℝ) + 1.01 * (1 / 10 ^ 8), 1]),
    (1, [((vs.getD 0 0 : ℚ) : ℝ) + 1.01 * (1 / 10 ^ 8), 1])], ⟨34, 30⟩,
    [(1, [((us.getD 0 0 : ℚ) : ℝ) + 1.01 * (1 / 10 ^ 8), 1])], ⟨32, 30⟩, ?_, ?_, ?_⟩
  · simp only [runShared, Noise.reset, e1, e2, Res.ok_bind]
  · rw [own]
    simp only [runShared, Noise.reset, e1, Res.ok_bind]
  · generalize us.getD 0 0 = u at hne ⊢
    generalize vs.getD 0 0 = v at hne ⊢
    intro h
    have h' : ((v : ℚ) : ℝ) + 1.01 * (1 / 10 ^ 8) = (u : ℝ) + 1.01 * (1 / 10 ^ 8) := by
      simpa [Spec.own] using h
    exact hne (by exact_mod_cast (add_right_cancel h').symm)

/-! ### Cases that meet the hypotheses -/

/-- Problem 1 has Gaussian, problem 2 uniform noise; both are evaluated in turn. -/
noncomputable def exampleSchedule : List (Nat × Op) :=
  [(2, .evaluate (.uniform 1 1) 10 11 []), (1, .evaluate (.gaussian 1) 20 22 [(6, -5, 5)]),
    (2, .evaluate (.uniform 1 1) 10 12 []), (2, .evaluate (.uniform 1 1) 10 13 []),
    (1, .evaluate (.gaussian 1) 20 21 [])]

example : ∃ os s os' s', runShared exampleSchedule Noise.reset = .ok (os, s) ∧
    runShared [(1, .evaluate (.gaussian 1) 20 22 [(6, -5, 5)]), (1, .evaluate (.gaussian 1) 20 21 [])] Noise.reset =
      .ok (os', s') ∧ Spec.own 1 os = os' := by
  have h := C115_apart_partial 1 exampleSchedule (by simp [exampleSchedule, Spec.Apart, Spec.draws])
    (by simp [exampleSchedule])
  simpa [exampleSchedule, Spec.own] using h

example : (Spec.draws (.evaluate (.cauchy 1 (1 / 5)) 10 11 [])) = (1, 2) ∧
    Spec.since [.gaussian, .evaluate (.uniform 1 1) 10 11 [], .gaussian] = (2, 2) ∧
    Spec.since [.evaluate (.cauchy 1 (1 / 5)) 0 1 [], .reset, .uniform, .gaussian, .uniform, .gaussian] = (2, 2) :=
  ⟨rfl, rfl, rfl⟩

end Noise
