import Mathlib.Tactic
import Verif.Model.Gauss
import Verif.Props.Legacy

/-!
# Properties of optimal solutions, offsets and noise (C45-C47)
-/

namespace Legacy

/-! ### C45 -/

theorem floor_range {u : ℚ} (h0 : 0 < u) (h1 : u < 1) : 0 ≤ ⌊10 ^ 4 * u⌋ ∧ ⌊10 ^ 4 * u⌋ ≤ 9999 := by
  constructor
  · exact Int.floor_nonneg.2 (by positivity)
  · have : ⌊10 ^ 4 * u⌋ < 10000 := Int.floor_lt.2 (by push_cast; linarith)
    omega

theorem xoptCoord_range {u : ℚ} (h0 : 0 < u) (h1 : u < 1) :
    -4 ≤ xoptCoord u ∧ xoptCoord u < 4 ∧ xoptCoord u ≠ 0 := by
  obtain ⟨a, b⟩ := floor_range h0 h1
  have a' : (0 : ℚ) ≤ (⌊10 ^ 4 * u⌋ : ℚ) := by exact_mod_cast a
  have b' : (⌊10 ^ 4 * u⌋ : ℚ) ≤ 9999 := by exact_mod_cast b
  unfold xoptCoord
  dsimp only
  revert a' b'
  generalize (⌊10 ^ 4 * u⌋ : ℚ) = k
  intro a' b'
  split_ifs with h
  · norm_num
  · exact ⟨by linarith, by linarith, h⟩

theorem sboxCoord_range {u : ℚ} (h0 : 0 < u) (h1 : u < 1) :
    -5 ≤ sboxCoord u ∧ sboxCoord u < 5 ∧ sboxCoord u ≠ 0 := by
  obtain ⟨a, b⟩ := floor_range h0 h1
  have a' : (0 : ℚ) ≤ (⌊10 ^ 4 * u⌋ : ℚ) := by exact_mod_cast a
  have b' : (⌊10 ^ 4 * u⌋ : ℚ) ≤ 9999 := by exact_mod_cast b
  unfold sboxCoord
  dsimp only
  revert a' b'
  generalize (⌊10 ^ 4 * u⌋ : ℚ) = k
  intro a' b'
  split_ifs with h
  · norm_num
  · exact ⟨by linarith, by linarith, h⟩

/-- **C45** (optimal solutions). For every dimension and every seed in the range of the generator the optimal
solution has all coordinates in [-4, 4), none of them 0, and each is -0.00001 or a multiple of 0.0008. -/
theorem C45_xopt (seed : Int) (hs : seed.natAbs < 2 ^ 31 * 127773) (dim : Nat) :
    ∃ xs, computeXopt seed dim = .ok xs ∧ xs.length = dim ∧
      ∀ x ∈ xs, -4 ≤ x ∧ x < 4 ∧ x ≠ 0 ∧ (x = -1 / 10 ^ 5 ∨ ∃ k : ℤ, x = k * (8 / 10 ^ 4)) := by
  obtain ⟨us, e, hl, hu⟩ := C44_range dim seed hs
  refine ⟨us.map xoptCoord, by rw [computeXopt, e, Res.ok_bind], by simpa using hl, ?_⟩
  intro x hx
  obtain ⟨u, hu', rfl⟩ := List.mem_map.1 hx
  obtain ⟨a, b, c⟩ := xoptCoord_range (hu u hu').1 (hu u hu').2
  refine ⟨a, b, c, ?_⟩
  unfold xoptCoord
  dsimp only
  split_ifs with h
  · exact Or.inl rfl
  · exact Or.inr ⟨⌊10 ^ 4 * u⌋ - 5000, by push_cast; ring⟩

/-- **C45** (optimal solutions of the sbox-cost suite). All coordinates lie in [-5, 5), none is 0, and each is
-0.00001 or a multiple of 0.001. -/
theorem C45_sbox (seed : Int) (hs : seed.natAbs < 2 ^ 31 * 127773) (dim : Nat) :
    ∃ xs, sboxComputeXopt seed dim = .ok xs ∧ xs.length = dim ∧
      ∀ x ∈ xs, -5 ≤ x ∧ x < 5 ∧ x ≠ 0 ∧ (x = -1 / 10 ^ 5 ∨ ∃ k : ℤ, x = k * (1 / 10 ^ 3)) := by
  obtain ⟨us, e, hl, hu⟩ := C44_range dim seed hs
  refine ⟨us.map sboxCoord, by rw [sboxComputeXopt, e, Res.ok_bind], by simpa using hl, ?_⟩
  intro x hx
  obtain ⟨u, hu', rfl⟩ := List.mem_map.1 hx
  obtain ⟨a, b, c⟩ := sboxCoord_range (hu u hu').1 (hu u hu').2
  refine ⟨a, b, c, ?_⟩
  unfold sboxCoord
  dsimp only
  split_ifs with h
  · exact Or.inl rfl
  · exact Or.inr ⟨⌊10 ^ 4 * u⌋ - 5000, by push_cast; ring⟩

theorem gaussNumber_ne (u v : ℝ) : gaussNumber u v ≠ 0 := by
  unfold gaussNumber
  dsimp only
  split_ifs with h
  · positivity
  · exact h

theorem gauss_ok (N : Nat) (hN : N < 3000) (seed : Int) (hs : seed.natAbs < 2 ^ 31 * 127773) :
    ∃ us : List ℚ, unif (2 * N) seed = .ok us ∧ us.length = 2 * N ∧ (∀ u ∈ us, 0 < u ∧ u < 1) ∧
      gauss N seed = .ok ((List.range N).map fun i =>
        gaussNumber ((us.getD i 0 : ℚ) : ℝ) ((us.getD (N + i) 0 : ℚ) : ℝ)) := by
  obtain ⟨us, e, hl, hu⟩ := C44_range (2 * N) seed hs
  refine ⟨us, e, hl, hu, ?_⟩
  unfold gauss
  rw [e]
  simp only [Res.assert, show 2 * N < 6000 by omega, decide_true, if_true, Res.ok_bind]

/-- The offsets: rounded to two decimals and cut at ±1000. -/
def Spec.Offset (v : ℝ) : Prop := -1000 ≤ v ∧ v ≤ 1000 ∧ ∃ k : ℤ, v = k / 100

/-- **C45** (offsets). For every function number below 10000 and every instance up to 10^10 the optimal value is
defined, lies in [-1000, 1000] and is a multiple of 0.01. -/
theorem C45_fopt (function inst : Nat) (hf : function < 10000) (hi : inst ≤ 10 ^ 10) :
    ∃ v, computeFopt function inst = .ok v ∧ Spec.Offset v := by
  have hr : rseed function < 10000 := by
    unfold rseed
    split_ifs <;> omega
  obtain ⟨us, -, -, -, e1⟩ := gauss_ok 1 (by norm_num) (rseed function + 10000 * inst : Int) (by omega)
  obtain ⟨vs, -, -, -, e2⟩ := gauss_ok 1 (by norm_num) ((rseed function + 10000 * inst : Int) + 1) (by omega)
  suffices H : ∀ w : ℝ, Spec.Offset (min 1000 (max (-1000) (round w / 100))) by
    refine ⟨_, ?_, H (100 * 100 * (List.map (fun i => gaussNumber ((us.getD i 0 : ℚ) : ℝ) ((us.getD (1 + i) 0 : ℚ) : ℝ))
        (List.range 1)).getD 0 0 / (List.map (fun i => gaussNumber ((vs.getD i 0 : ℚ) : ℝ)
        ((vs.getD (1 + i) 0 : ℚ) : ℝ)) (List.range 1)).getD 0 0)⟩
    unfold computeFopt
    dsimp only
    rw [e1, Res.ok_bind, e2, Res.ok_bind]
  intro w
  refine ⟨le_min (by norm_num) (le_max_left _ _), min_le_left _ _, ?_⟩
  rcases le_total (1000 : ℝ) (max (-1000) (round w / 100)) with h | h
  · rw [min_eq_left h]
    exact ⟨100000, by norm_num⟩
  · rw [min_eq_right h]
    rcases le_total (-1000 : ℝ) (round w / 100) with h' | h'
    · rw [max_eq_right h']
      exact ⟨⌊w + 1 / 2⌋, rfl⟩
    · rw [max_eq_left h']
      exact ⟨-100000, by norm_num⟩

end Legacy

namespace Noise
open Legacy

/-! ### C46 -/

/-- The number of uniform and of Gaussian draws of a call. -/
def Spec.draws : Op → Nat × Nat
  | .reset => (0, 0)
  | .uniform => (1, 0)
  | .gaussian => (0, 1)
  | .evaluate (.gaussian _) _ _ _ => (0, 1)
  | .evaluate (.uniform _ _) _ _ _ => (2, 0)
  | .evaluate (.cauchy _ _) _ _ _ => (1, 2)

/-- The number of uniform and of Gaussian draws since the last reset. -/
def Spec.since (h : List Op) : Nat × Nat :=
  h.foldl (fun c op => match op with
    | .reset => (0, 0)
    | op => (c.1 + (Spec.draws op).1, c.2 + (Spec.draws op).2)) (0, 0)

/-- The seed after `n` draws: starts at 30 and runs cyclically through 1, ..., 10^9. -/
def Spec.seedAfter (n : Nat) : Int := ((29 + n) % 10 ^ 9 + 1 : Nat)

theorem seedAfter_range (n : Nat) : 1 ≤ Spec.seedAfter n ∧ Spec.seedAfter n ≤ 10 ^ 9 := by
  unfold Spec.seedAfter
  constructor <;> omega

theorem increase_seedAfter (n : Nat) : increase (Spec.seedAfter n) = Spec.seedAfter (n + 1) := by
  unfold increase Spec.seedAfter
  split_ifs <;> omega

/-- The seeds after given numbers of draws. -/
def seedsAt (c : Nat × Nat) : Seeds := ⟨Spec.seedAfter c.1, Spec.seedAfter c.2⟩

theorem sampleUniform_ok (a b : Nat) :
    ∃ u : ℚ, sampleUniform (seedsAt (a, b)) = .ok (u, seedsAt (a + 1, b)) ∧ 0 < u ∧ u < 1 := by
  have r := seedAfter_range (a + 1)
  obtain ⟨us, e, hl, hu⟩ := C44_range 1 (Spec.seedAfter (a + 1)) (by omega)
  obtain ⟨u, rfl⟩ := List.length_eq_one_iff.1 hl
  refine ⟨u, ?_, hu u (by simp)⟩
  unfold sampleUniform seedsAt
  dsimp only
  rw [increase_seedAfter, e, Res.ok_bind]
  rfl

theorem sampleGaussian_ok (a b : Nat) :
    ∃ g : ℝ, sampleGaussian (seedsAt (a, b)) = .ok (g, seedsAt (a, b + 1)) ∧ g ≠ 0 := by
  have r := seedAfter_range (b + 1)
  obtain ⟨us, -, -, -, e⟩ := gauss_ok 1 (by norm_num) (Spec.seedAfter (b + 1)) (by omega)
  refine ⟨_, ?_, gaussNumber_ne ((us.getD 0 0 : ℚ) : ℝ) ((us.getD 1 0 : ℚ) : ℝ)⟩
  unfold sampleGaussian seedsAt
  dsimp only
  rw [increase_seedAfter, e, Res.ok_bind]
  rfl

/-- The lower limit of a noisy value: the Cauchy model never goes below the noise-free value, the others never
below the optimal value; always with an offset of 1.01e-8 and the penalty for violated bounds. -/
noncomputable def Spec.limit (m : Model) (fopt inner : ℝ) (xs : List (ℝ × ℝ × ℝ)) : ℝ :=
  (match m with | .cauchy _ _ => inner | _ => fopt) + 1.01 / 10 ^ 8 + boundary xs

theorem evaluate_ok (m : Model) (fopt inner : ℝ) (xs : List (ℝ × ℝ × ℝ)) (a b : Nat) :
    ∃ y, evaluate m fopt inner xs (seedsAt (a, b)) =
        .ok ((y, inner), seedsAt (a + (Spec.draws (.evaluate m fopt inner xs)).1,
          b + (Spec.draws (.evaluate m fopt inner xs)).2)) ∧
      (fopt ≤ inner → Spec.limit m fopt inner xs ≤ y) := by
  cases m with
  | gaussian β =>
    obtain ⟨g, e, -⟩ := sampleGaussian_ok a b
    refine ⟨_, by unfold evaluate; simp only [e, Res.ok_bind]; rfl, fun h => ?_⟩
    have h1 : 0 ≤ (inner - fopt) * Real.exp (β * g) := mul_nonneg (by linarith) (Real.exp_pos _).le
    simp only [Spec.limit]
    linarith
  | uniform α β =>
    obtain ⟨u, e, hu0, -⟩ := sampleUniform_ok a b
    obtain ⟨v, e', hv0, -⟩ := sampleUniform_ok (a + 1) b
    refine ⟨_, by unfold evaluate; simp only [e, e', Res.ok_bind]; rfl, fun h => ?_⟩
    set sc : ℝ := (10 ^ 9 / (inner - fopt + 1 / 10 ^ 99)) ^ (α * ((v : ℚ) : ℝ)) with hsc
    have h1 : (0 : ℝ) ≤ ((u : ℚ) : ℝ) ^ β := Real.rpow_nonneg (by exact_mod_cast hu0.le) _
    have h2 : (0 : ℝ) ≤ if sc > 1 then sc else 1 := by
      split_ifs with hc
      · linarith
      · norm_num
    have h3 : 0 ≤ (inner - fopt) * (((u : ℚ) : ℝ) ^ β * if sc > 1 then sc else 1) :=
      mul_nonneg (by linarith) (mul_nonneg h1 h2)
    simp only [Spec.limit]
    linarith
  | cauchy α p =>
    obtain ⟨u, e, -, -⟩ := sampleUniform_ok a b
    obtain ⟨g, e', -⟩ := sampleGaussian_ok (a + 1) b
    obtain ⟨g', e'', -⟩ := sampleGaussian_ok (a + 1) (b + 1)
    refine ⟨_, by unfold evaluate; simp only [e, e', e'', Res.ok_bind]; rfl, fun _ => ?_⟩
    set no : ℝ := α * (if ((u : ℚ) : ℝ) < p then 10 ^ 3 + g / |g' + 1 / 10 ^ 199| else 10 ^ 3) with hno
    have h2 : (0 : ℝ) ≤ if no > 0 then no else 0 := by
      split_ifs with hc
      · linarith
      · norm_num
    simp only [Spec.limit]
    linarith

theorem step_ok (op : Op) (c : Nat × Nat) :
    ∃ o, step (seedsAt c) op = .ok (o, seedsAt (match op with
      | .reset => (0, 0)
      | op => (c.1 + (Spec.draws op).1, c.2 + (Spec.draws op).2))) := by
  obtain ⟨a, b⟩ := c
  cases op with
  | reset => exact ⟨[], by simp [step, Noise.reset, seedsAt, Spec.seedAfter]⟩
  | uniform =>
    obtain ⟨u, e, -⟩ := sampleUniform_ok a b
    exact ⟨_, by unfold step; simp only [e, Res.ok_bind]; rfl⟩
  | gaussian =>
    obtain ⟨u, e, -⟩ := sampleGaussian_ok a b
    exact ⟨_, by unfold step; simp only [e, Res.ok_bind]; rfl⟩
  | evaluate m fopt inner xs =>
    obtain ⟨y, e, -⟩ := evaluate_ok m fopt inner xs a b
    exact ⟨_, by unfold step; simp only [e, Res.ok_bind]; rfl⟩

theorem run_ok (h : List Op) (c : Nat × Nat) :
    ∃ os, run h (seedsAt c) = .ok (os, seedsAt (h.foldl (fun c op => match op with
      | .reset => (0, 0)
      | op => (c.1 + (Spec.draws op).1, c.2 + (Spec.draws op).2)) c)) := by
  induction h generalizing c with
  | nil => exact ⟨[], rfl⟩
  | cons op h ih =>
    obtain ⟨o, e⟩ := step_ok op c
    obtain ⟨os, e'⟩ := ih _
    refine ⟨o ++ os, ?_⟩
    unfold run
    simp only [e, Res.ok_bind]
    rw [e']
    rfl

theorem init_eq : Noise.reset = seedsAt (0, 0) := by simp [Noise.reset, seedsAt, Spec.seedAfter]

/-- **C46** (range). For any sequence of draws, noisy evaluations and resets from the start of the program, no
call fails; the seeds are determined by the numbers of draws since the last reset and stay in 1, ..., 10^9. -/
theorem C46_range (h : List Op) :
    ∃ os s, run h Noise.reset = .ok (os, s) ∧ s.rand = Spec.seedAfter (Spec.since h).1 ∧
      s.randn = Spec.seedAfter (Spec.since h).2 ∧ 1 ≤ s.rand ∧ s.rand ≤ 10 ^ 9 ∧ 1 ≤ s.randn ∧ s.randn ≤ 10 ^ 9 := by
  obtain ⟨os, e⟩ := run_ok h (0, 0)
  rw [init_eq]
  exact ⟨os, _, e, rfl, rfl, (seedAfter_range _).1, (seedAfter_range _).2, (seedAfter_range _).1, (seedAfter_range _).2⟩

theorem run_append (h h' : List Op) (s : Seeds) :
    run (h ++ h') s = (run h s).bind fun (os, s) => (run h' s).bind fun (os', s) => .ok (os ++ os', s) := by
  induction h generalizing s with
  | nil =>
    simp only [List.nil_append, run, Res.ok_bind]
    cases run h' s <;> rfl
  | cons op h ih =>
    rw [List.cons_append, run, run]
    cases step s op with
    | ok r =>
      simp only [Res.ok_bind, ih]
      cases run h r.2 with
      | ok r' =>
        simp only [Res.ok_bind]
        cases run h' r'.2 with
        | ok r'' => simp only [Res.ok_bind, List.append_assoc]
        | error => rfl
        | assertFail => rfl
        | ub => rfl
      | error => rfl
      | assertFail => rfl
      | ub => rfl
    | error => rfl
    | assertFail => rfl
    | ub => rfl

/-- **C46** (reset). After a reset all further calls deliver the same numbers as at the start of the program,
whatever was done before. -/
theorem C46_reset (h h' : List Op) :
    ∃ os os' s, run h' Noise.reset = .ok (os', s) ∧ run (h ++ .reset :: h') Noise.reset = .ok (os ++ os', s) := by
  obtain ⟨os, e⟩ := run_ok h (0, 0)
  obtain ⟨os', e'⟩ := run_ok h' (0, 0)
  rw [← init_eq] at e e'
  refine ⟨os, os', _, e', ?_⟩
  rw [run_append, e, Res.ok_bind]
  simp only [run, step, Res.ok_bind, e', List.nil_append]

/-! ### C47 -/

/-- **C47.** After any sequence of calls, a noisy evaluation of a point whose noise-free value is at least the
optimal value never falls below the limit: the optimal value, for the Cauchy model the noise-free value, plus
1.01e-8 and the penalty for violated bounds. The noise-free value is recorded. -/
theorem C47_limit (h : List Op) (m : Model) (fopt inner : ℝ) (xs : List (ℝ × ℝ × ℝ)) (hi : fopt ≤ inner) :
    ∃ os s y s', run h Noise.reset = .ok (os, s) ∧ evaluate m fopt inner xs s = .ok ((y, inner), s') ∧
      Spec.limit m fopt inner xs ≤ y := by
  obtain ⟨os, e⟩ := run_ok h (0, 0)
  rw [← init_eq] at e
  obtain ⟨y, e', hy⟩ := evaluate_ok m fopt inner xs _ _
  exact ⟨os, _, y, _, e, e', hy hi⟩

theorem boundary_fold (xs : List (ℝ × ℝ × ℝ)) (p : ℝ) :
    p ≤ xs.foldl (fun p (x, lo, hi) =>
      if x > hi then p + (x - hi) * (x - hi) else if x < lo then p + (x - lo) * (x - lo) else p) p := by
  induction xs generalizing p with
  | nil => exact le_rfl
  | cons a xs ih =>
    obtain ⟨x, lo, hi⟩ := a
    rw [List.foldl_cons]
    refine le_trans ?_ (ih _)
    dsimp only
    split_ifs
    · nlinarith [mul_self_nonneg (x - hi)]
    · nlinarith [mul_self_nonneg (x - lo)]
    · exact le_rfl

/-- **C47** (optimum). In particular the noisy value is larger than the optimal value. -/
theorem C47_optimum (h : List Op) (m : Model) (fopt inner : ℝ) (xs : List (ℝ × ℝ × ℝ)) (hi : fopt ≤ inner) :
    ∃ os s y s', run h Noise.reset = .ok (os, s) ∧ evaluate m fopt inner xs s = .ok ((y, inner), s') ∧ fopt < y := by
  obtain ⟨os, s, y, s', e, e', hy⟩ := C47_limit h m fopt inner xs hi
  refine ⟨os, s, y, s', e, e', lt_of_lt_of_le ?_ hy⟩
  have hb : 0 ≤ boundary xs := mul_nonneg (by norm_num) (boundary_fold xs 0)
  unfold Spec.limit
  have : (0 : ℝ) < 1.01 / 10 ^ 8 := by norm_num
  cases m <;> dsimp only <;> linarith

/-- **C47** (penalty). The penalty is 0 exactly for points within the bounds. -/
theorem C47_penalty (xs : List (ℝ × ℝ × ℝ)) (hb : ∀ a ∈ xs, a.2.1 ≤ a.2.2) :
    boundary xs = 0 ↔ ∀ a ∈ xs, a.2.1 ≤ a.1 ∧ a.1 ≤ a.2.2 := by
  unfold boundary
  rw [mul_eq_zero, or_iff_right (by norm_num)]
  induction xs with
  | nil => simp
  | cons a xs ih =>
    obtain ⟨x, lo, hi⟩ := a
    rw [List.foldl_cons, List.forall_mem_cons]
    have hb' := hb (x, lo, hi) (by simp)
    dsimp only at hb' ⊢
    split_ifs with h1 h2
    · have := boundary_fold xs (0 + (x - hi) * (x - hi))
      have hp : 0 < (x - hi) * (x - hi) := mul_pos (by linarith) (by linarith)
      constructor
      · intro h; linarith
      · rintro ⟨⟨-, h⟩, -⟩; linarith
    · have := boundary_fold xs (0 + (x - lo) * (x - lo))
      have hp : 0 < (x - lo) * (x - lo) := mul_pos_of_neg_of_neg (by linarith) (by linarith)
      constructor
      · intro h; linarith
      · rintro ⟨⟨h, -⟩, -⟩; linarith
    · rw [ih fun b hb'' => hb b (by simp [hb''])]
      exact ⟨fun h => ⟨⟨by linarith, by linarith⟩, h⟩, fun h => h.2⟩

/-! ### Cases that meet the hypotheses -/

example : ∃ xs, computeXopt 20001 5 = .ok xs ∧ xs.length = 5 ∧ ∀ x ∈ xs, -4 ≤ x ∧ x < 4 ∧ x ≠ 0 := by
  obtain ⟨xs, h1, h2, h3⟩ := C45_xopt 20001 (by decide) 5
  exact ⟨xs, h1, h2, fun x hx => ⟨(h3 x hx).1, (h3 x hx).2.1, (h3 x hx).2.2.1⟩⟩

example : ∃ v, computeFopt 110 15 = .ok v ∧ Spec.Offset v := C45_fopt 110 15 (by norm_num) (by norm_num)

/-- A history with evaluations of all three models, a reset in between. -/
noncomputable def exampleHistory : List Op :=
  [.uniform, .evaluate (.gaussian 1) 10 12 [(6, -5, 5)], .reset, .evaluate (.uniform 1 1) 10 11 [],
    .evaluate (.cauchy 1 (1/5)) 10 10 [(0, -5, 5)]]

example : Spec.since exampleHistory = (3, 2) := rfl

example : ∃ os s y s', run exampleHistory Noise.reset = .ok (os, s) ∧
    evaluate (.cauchy 1 (1/5)) 10 11 [(6, -5, 5)] s = .ok ((y, 11), s') ∧ 10 < y :=
  C47_optimum _ _ _ _ _ (by norm_num)

end Noise
