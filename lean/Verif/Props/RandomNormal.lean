import Mathlib.Analysis.Complex.ExponentialBounds
import Verif.Model.RandomNormal
import Verif.Props.Random

/-!
# C114: normally distributed random numbers
-/

namespace Random

/-- The transformation of Box and Muller of two numbers of the unit interval, the first one not 0. -/
noncomputable def Spec.boxMuller (u v : ℚ) : ℝ := Real.sqrt (-2 * Real.log (u : ℝ)) * Real.cos (2 * Real.pi * (v : ℝ))

/-- The numbers made from 32-bit words, and sums and differences of them, are multiples of `g` after rounding. -/
structure Spec.Grid (fl : ℚ → ℚ) (g : ℚ) : Prop where
  pos : 0 < g
  word : ∀ w : Nat, w < 2 ^ 32 → ∃ k : ℤ, fl (w / (2 ^ 32 - 1)) = k * g
  one : ∃ k : ℤ, (1 : ℚ) = k * g
  keep : ∀ k : ℤ, ∃ j : ℤ, fl (k * g) = j * g

theorem draws_succ_inv {fl : ℚ → ℚ} {n : Nat} {s s' : State} {v : ℚ} {vs : List ℚ}
    (h : draws fl (n + 1) s = .ok (v :: vs, s')) :
    ∃ s1, uniform fl s = .ok (v, s1) ∧ draws fl n s1 = .ok (vs, s') := by
  unfold draws at h
  cases hu : uniform fl s with
  | ok a =>
    obtain ⟨u, s1⟩ := a
    rw [hu, Res.ok_bind] at h
    dsimp only at h
    cases hd : draws fl n s1 with
    | ok b =>
      obtain ⟨us, s2⟩ := b
      rw [hd, Res.ok_bind] at h
      simp only [Res.ok.injEq, Prod.mk.injEq, List.cons.injEq] at h
      obtain ⟨⟨rfl, rfl⟩, rfl⟩ := h
      exact ⟨s1, rfl, hd⟩
    | _ => rw [hd] at h; simp [Res.bind] at h
  | _ => rw [hu] at h; simp [Res.bind] at h

/-- The value made of two uniform numbers. -/
noncomputable def value (u v : ℚ) : Option ℝ := if u = 0 then none else some (Spec.boxMuller u v)

theorem normals_of_draws (fl : ℚ → ℚ) (n : Nat) (f : Nat → ℚ) (s s' : State)
    (h : draws fl (2 * n) s = .ok ((List.range (2 * n)).map f, s')) :
    normals fl n s = .ok ((List.range n).map fun i => value (f (2 * i)) (f (2 * i + 1)), s') := by
  induction n generalizing f s with
  | zero => simpa [draws, normals] using h
  | succ n ih =>
    rw [show 2 * (n + 1) = 2 * n + 1 + 1 by ring, List.range_succ_eq_map, List.map_cons, List.map_map,
      List.range_succ_eq_map, List.map_cons, List.map_map] at h
    obtain ⟨s1, h1, h⟩ := draws_succ_inv h
    obtain ⟨s2, h2, h⟩ := draws_succ_inv h
    have := ih (fun i => f (i + 2)) s2 (by rw [h]; rfl)
    unfold normals normal
    rw [h1, Res.ok_bind]
    dsimp only
    rw [h2, Res.ok_bind, Res.ok_bind]
    dsimp only
    rw [this, Res.ok_bind, List.range_succ_eq_map, List.map_cons, List.map_map]
    rfl

theorem word_grid {fl : ℚ → ℚ} {g : ℚ} (hg : Spec.Grid fl g) {seed : Nat} (hs : seed < 2 ^ 32) (n : Nat) :
    ∃ k : ℤ, Spec.word fl seed n = k * g := by
  induction n using Nat.strong_induction_on with
  | _ n ih =>
    rw [Spec.word]
    split_ifs with hn
    · exact hg.word _ (seedWord_lt seed hs n)
    · obtain ⟨a, ha⟩ := ih (n - 607) (by omega)
      obtain ⟨b, hb⟩ := ih (n - 273) (by omega)
      obtain ⟨o, ho⟩ := hg.one
      obtain ⟨c, hc⟩ := hg.keep (a + b)
      have e : fl (Spec.word fl seed (n - 607) + Spec.word fl seed (n - 273)) = c * g := by
        rw [ha, hb, ← hc]; push_cast; ring_nf
      dsimp only
      rw [e]
      split_ifs
      · obtain ⟨d, hd⟩ := hg.keep (c - o)
        refine ⟨d, ?_⟩
        rw [← hd]; push_cast; rw [sub_mul, ← ho]
      · exact ⟨c, rfl⟩

theorem grid_le {g v : ℚ} (hg : 0 < g) (h : ∃ k : ℤ, v = k * g) (h0 : 0 ≤ v) (hv : v ≠ 0) : g ≤ v := by
  obtain ⟨k, rfl⟩ := h
  have hk : 0 < k := by
    by_contra hc
    have : (k : ℚ) ≤ 0 := by exact_mod_cast not_lt.1 hc
    have h2 : (k : ℚ) * g ≤ 0 := mul_nonpos_of_nonpos_of_nonneg this hg.le
    exact hv (le_antisymm h2 h0)
  have : (1 : ℚ) ≤ k := by exact_mod_cast hk
  nlinarith

theorem boxMuller_bound {g u v : ℚ} (hg : 0 < g) (hu : g ≤ u) :
    |Spec.boxMuller u v| ≤ Real.sqrt (-2 * Real.log (g : ℝ)) := by
  unfold Spec.boxMuller
  rw [abs_mul, abs_of_nonneg (Real.sqrt_nonneg _)]
  have h1 : Real.sqrt (-2 * Real.log (u : ℝ)) ≤ Real.sqrt (-2 * Real.log (g : ℝ)) := by
    apply Real.sqrt_le_sqrt
    have : Real.log (g : ℝ) ≤ Real.log (u : ℝ) := Real.log_le_log (by exact_mod_cast hg) (by exact_mod_cast hu)
    linarith
  calc _ ≤ Real.sqrt (-2 * Real.log (u : ℝ)) * 1 :=
        mul_le_mul_of_nonneg_left (Real.abs_cos_le_one _) (Real.sqrt_nonneg _)
    _ ≤ _ := by rw [mul_one]; exact h1

/-- **C114** (partial: finite unless a uniform number is 0). For every 32-bit seed and every number of draws, the normal numbers are
determined by the seed: number `i` is the transformation of Box and Muller of the numbers `12 + 2 i` and `13 + 2 i` of the uniform
sequence, provided the first one is not 0, and then it is bounded by a constant that depends on the rounding only; otherwise it is not
finite. Missing: finiteness of all numbers, see `C114_infinite`. -/
theorem C114_normal_partial (fl : ℚ → ℚ) (hf : Spec.Rounding fl) (g : ℚ) (hg : Spec.Grid fl g) (junk : Nat → ℚ) (seed : Nat)
    (hs : seed < 2 ^ 32) (n : Nat) :
    ∃ s vs s', new fl junk seed = .ok s ∧ normals fl n s = .ok (vs, s') ∧ vs.length = n ∧
      ∀ i, i < n →
        (Spec.word fl seed (12 + 2 * i) = 0 → vs[i]? = some none) ∧
        (Spec.word fl seed (12 + 2 * i) ≠ 0 → ∃ x : ℝ, vs[i]? = some (some x) ∧
          x = Spec.boxMuller (Spec.word fl seed (12 + 2 * i)) (Spec.word fl seed (13 + 2 * i)) ∧
          |x| ≤ Real.sqrt (-2 * Real.log (g : ℝ))) := by
  obtain ⟨s, s', h1, h2⟩ := C43_sequence fl junk seed (2 * n)
  refine ⟨s, _, s', h1, normals_of_draws fl n _ s s' h2, by simp, ?_⟩
  intro i hi
  have e : 12 + (2 * i + 1) = 13 + 2 * i := by ring
  refine ⟨fun h0 => ?_, fun h0 => ⟨_, ?_, rfl, ?_⟩⟩
  · simp [hi, value, h0]
  · simp [hi, value, h0, e]
  · exact boxMuller_bound hg.pos (grid_le hg.pos (word_grid hg hs _) (word_range hf hs _).1 h0)

/-- **C114** (negative). The first normal number of the seed 965395927 is not finite. -/
theorem C114_infinite (fl : ℚ → ℚ) (hf : fl 0 = 0) (junk : Nat → ℚ) :
    ∃ s s', new fl junk 965395927 = .ok s ∧ normals fl 1 s = .ok ([none], s') := by
  obtain ⟨s, s', h1, h2⟩ := C43_sequence fl junk 965395927 (2 * 1)
  refine ⟨s, s', h1, ?_⟩
  rw [normals_of_draws fl 1 _ s s' h2]
  have : Spec.word fl 965395927 12 = 0 := by
    rw [Spec.word, dif_pos (by norm_num)]
    have : Spec.seedWord 965395927 12 = 0 := by decide +kernel
    rw [this]
    norm_num [hf]
  simp [value, this]

/-- Exact arithmetic meets the hypotheses, with the inverse of 2^32 - 1: the bound is then below 6.7. -/
theorem exampleGrid : Spec.Grid id (1 / (2 ^ 32 - 1)) :=
  ⟨by norm_num, fun w _ => ⟨w, by simp [div_eq_mul_inv]⟩, ⟨2 ^ 32 - 1, by norm_num⟩, fun k => ⟨k, rfl⟩⟩

example : Real.sqrt (-2 * Real.log (((1 / (2 ^ 32 - 1) : ℚ)) : ℝ)) ≤ 6.7 := by
  rw [Real.sqrt_le_left (by norm_num)]
  have e : (((1 / (2 ^ 32 - 1) : ℚ)) : ℝ) = ((2 ^ 32 - 1 : ℝ))⁻¹ := by norm_num
  rw [e, Real.log_inv]
  have h : Real.log (2 ^ 32 - 1 : ℝ) ≤ Real.log ((2 : ℝ) ^ 32) := Real.log_le_log (by norm_num) (by norm_num)
  rw [Real.log_pow] at h
  have := Real.log_two_lt_d9
  push_cast at h
  generalize Real.log (2 ^ 32 - 1 : ℝ) = a at h ⊢
  generalize Real.log 2 = b at h this
  norm_num at this ⊢
  linarith

/-- Three numbers of a seed, the first one finite. -/
example : ∃ s vs s', new id (fun _ => 0) 1 = .ok s ∧ normals id 3 s = .ok (vs, s') ∧ vs.length = 3 ∧
    Spec.word id 1 12 ≠ 0 := by
  obtain ⟨s, vs, s', h1, h2, h3, _⟩ := C114_normal_partial id exampleRounding _ exampleGrid (fun _ => 0) 1 (by norm_num) 3
  refine ⟨s, vs, s', h1, h2, h3, ?_⟩
  rw [Spec.word, dif_pos (by norm_num)]
  have : Spec.seedWord 1 12 ≠ 0 := by decide +kernel
  simp only [id, ne_eq, div_eq_zero_iff, not_or]
  exact ⟨by exact_mod_cast this, by norm_num⟩

end Random
