import Mathlib.Tactic
import Verif.Model.Random

/-!
# Properties of the random number generator (C43)
-/

namespace Random

/-! ### Specification -/

/-- A rounding: monotone, keeps 0, 1 and 2. -/
structure Spec.Rounding (fl : ℚ → ℚ) : Prop where
  mono : Monotone fl
  zero : fl 0 = 0
  one : fl 1 = 1
  two : fl 2 = 2

/-- The 32-bit words from which the first 607 numbers are made. -/
def Spec.seedWord (seed : Nat) : Nat → Nat
  | 0 => seed
  | i + 1 => (1812433253 * (Spec.seedWord seed i ^^^ (Spec.seedWord seed i >>> 30)) + (i + 1)) % 2 ^ 32

/-- The lagged Fibonacci sequence with lags 607 and 273. -/
def Spec.word (fl : ℚ → ℚ) (seed : Nat) (n : Nat) : ℚ :=
  if h : n < 607 then fl (Spec.seedWord seed n / (2 ^ 32 - 1))
  else
    let t := fl (Spec.word fl seed (n - 607) + Spec.word fl seed (n - 273))
    if t ≥ 1 then fl (t - 1) else t

/-! ### Refinement of the specification -/

theorem genStep_ok (fl : ℚ → ℚ) (x : Nat → ℚ) (i j : Nat) (hi : i < 607) (hj : j < 607) :
    genStep fl x i j = .ok (Function.update x i
      (if fl (x i + x j) ≥ 1 then fl (fl (x i + x j) - 1) else fl (x i + x j))) := by
  simp [genStep, rd, wr, hi, hj]

/-- The block of 607 numbers that starts at `607 * b`. -/
def block (fl : ℚ → ℚ) (seed b : Nat) (i : Nat) : ℚ := Spec.word fl seed (607 * b + i)

theorem block_succ (fl : ℚ → ℚ) (seed b i : Nat) :
    block fl seed (b + 1) i =
      (let t := fl (block fl seed b i + Spec.word fl seed (607 * b + i + 334))
       if t ≥ 1 then fl (t - 1) else t) := by
  unfold block
  rw [Spec.word, dif_neg (by omega)]
  rw [show 607 * (b + 1) + i - 607 = 607 * b + i by omega, show 607 * (b + 1) + i - 273 = 607 * b + i + 334 by omega]

theorem genLoop_spec (fl : ℚ → ℚ) (seed b : Nat) (other : Nat → Nat) (n i : Nat) (x : Nat → ℚ) (hn : i + n ≤ 607)
    (ho : ∀ k, i ≤ k → k < i + n → other k < 607 ∧ Spec.word fl seed (607 * b + k + 334) =
      if other k < k then block fl seed (b + 1) (other k) else block fl seed b (other k))
    (hlo : ∀ k, k < i → x k = block fl seed (b + 1) k) (hhi : ∀ k, i ≤ k → k < 607 → x k = block fl seed b k) :
    ∃ y, genLoop fl other n i x = .ok y ∧ (∀ k, k < i + n → y k = block fl seed (b + 1) k) ∧
      ∀ k, i + n ≤ k → k < 607 → y k = block fl seed b k := by
  induction n generalizing i x with
  | zero => exact ⟨x, rfl, by simpa using hlo, by simpa using hhi⟩
  | succ n ih =>
    obtain ⟨h1, h2⟩ := ho i le_rfl (by omega)
    have hx : x (other i) = Spec.word fl seed (607 * b + i + 334) := by
      rw [h2]
      split_ifs with hc
      · exact hlo _ hc
      · exact hhi _ (by omega) h1
    unfold genLoop
    rw [genStep_ok fl x i (other i) (by omega) h1, Res.ok_bind]
    have hv : (if fl (x i + x (other i)) ≥ 1 then fl (fl (x i + x (other i)) - 1) else fl (x i + x (other i))) =
        block fl seed (b + 1) i := by
      rw [block_succ, hx, hhi i le_rfl (by omega)]
    rw [hv]
    obtain ⟨y, e, y1, y2⟩ := ih (i + 1) (Function.update x i (block fl seed (b + 1) i)) (by omega)
      (fun k h1 h2 => ho k (by omega) (by omega))
      (fun k hk => by
        rcases Nat.lt_succ_iff_lt_or_eq.1 hk with h | rfl
        · rw [Function.update_of_ne (by omega), hlo k h]
        · rw [Function.update_self])
      (fun k hk hk' => by rw [Function.update_of_ne (by omega), hhi k (by omega) hk'])
    exact ⟨y, e, fun k hk => y1 k (by omega), fun k hk => y2 k (by omega)⟩

theorem generate_spec (fl : ℚ → ℚ) (seed b : Nat) (s : State) (h : ∀ k, k < 607 → s.x k = block fl seed b k) :
    ∃ y, generate fl s = .ok ⟨y, 0⟩ ∧ ∀ k, k < 607 → y k = block fl seed (b + 1) k := by
  obtain ⟨y, e, y1, y2⟩ := genLoop_spec fl seed b (fun i => i + (607 - 273)) 273 0 s.x (by omega)
    (fun k _ hk => by
      refine ⟨by omega, ?_⟩
      rw [if_neg (by simp)]
      exact congrArg (Spec.word fl seed) (by omega))
    (fun k hk => by omega) (fun k _ hk => h k hk)
  obtain ⟨z, e', z1, z2⟩ := genLoop_spec fl seed b (fun i => i - 273) (607 - 273) 273 y (by omega)
    (fun k hk hk' => by
      refine ⟨by omega, ?_⟩
      rw [if_pos (by omega)]
      exact congrArg (Spec.word fl seed) (by omega))
    (fun k hk => y1 k (by omega)) (fun k hk hk' => y2 k (by omega) hk')
  refine ⟨z, ?_, fun k hk => z1 k (by omega)⟩
  unfold generate
  rw [e, Res.ok_bind, e', Res.ok_bind]

theorem fill_spec (fl : ℚ → ℚ) (seed n i : Nat) (x : Nat → ℚ) (hn : i + n = 607)
    (hx : ∀ k, k < i → x k = fl (Spec.seedWord seed k / (2 ^ 32 - 1))) :
    ∃ y, fill fl n i (Spec.seedWord seed i) x = .ok y ∧
      ∀ k, k < 607 → y k = fl (Spec.seedWord seed k / (2 ^ 32 - 1)) := by
  induction n generalizing i x with
  | zero => exact ⟨x, rfl, fun k hk => hx k (by omega)⟩
  | succ n ih =>
    unfold fill
    rw [wr, if_pos (by omega), Res.ok_bind]
    exact ih (i + 1) _ (by omega) fun k hk => by
      rcases Nat.lt_succ_iff_lt_or_eq.1 hk with h | rfl
      · rw [Function.update_of_ne (by omega), hx k h]
      · rw [Function.update_self]

theorem new_spec (fl : ℚ → ℚ) (junk : Nat → ℚ) (seed : Nat) :
    ∃ x, new fl junk seed = .ok ⟨x, 12⟩ ∧ ∀ k, k < 607 → x k = block fl seed 0 k := by
  obtain ⟨x, e, h⟩ := fill_spec fl seed 607 0 junk rfl (fun k hk => by omega)
  refine ⟨x, ?_, fun k hk => ?_⟩
  · unfold new
    have e' : fill fl 607 0 seed junk = .ok x := e
    rw [e', Res.ok_bind]
  · rw [h k hk, block, Spec.word, dif_pos (by omega)]
    simp

theorem draws_spec (fl : ℚ → ℚ) (seed n b : Nat) (s : State) (hi : s.index ≤ 607)
    (h : ∀ k, k < 607 → s.x k = block fl seed b k) :
    ∃ s', draws fl n s = .ok ((List.range n).map fun i => Spec.word fl seed (607 * b + s.index + i), s') := by
  induction n generalizing b s with
  | zero => exact ⟨s, rfl⟩
  | succ n ih =>
    have key : ∃ s1 c, (if s.index ≥ 607 then generate fl s else Res.ok s) = .ok s1 ∧
        s1.index < 607 ∧ (∀ k, k < 607 → s1.x k = block fl seed c k) ∧
        607 * c + s1.index = 607 * b + s.index := by
      by_cases hc : s.index ≥ 607
      · obtain ⟨y, e, hy⟩ := generate_spec fl seed b s h
        rw [if_pos hc]
        exact ⟨_, b + 1, e, by simp, hy, by dsimp only; omega⟩
      · rw [if_neg hc]
        exact ⟨s, b, rfl, by omega, h, rfl⟩
    obtain ⟨s1, c, e1, e2, e3, e4⟩ := key
    obtain ⟨s', e'⟩ := ih c ⟨s1.x, s1.index + 1⟩ (by simpa using e2) e3
    refine ⟨s', ?_⟩
    unfold draws uniform
    rw [e1, Res.ok_bind, rd, if_pos e2, Res.ok_bind, Res.ok_bind]
    dsimp only
    rw [e', Res.ok_bind, List.range_succ_eq_map, List.map_cons,
      List.map_map, e3 _ e2]
    congr 2
    congr 1
    · unfold block
      rw [e4]; simp
    · apply List.map_congr_left
      intro i _
      dsimp only [Function.comp]
      congr 1
      omega

/-! ### C43 -/

/-- **C43** (sequence). The numbers drawn are determined by the seed (and not by the previous content of memory):
from element 12 on those of the lagged Fibonacci sequence started with the seed. No access is out of bounds. -/
theorem C43_sequence (fl : ℚ → ℚ) (junk : Nat → ℚ) (seed n : Nat) :
    ∃ s s', new fl junk seed = .ok s ∧
      draws fl n s = .ok ((List.range n).map fun i => Spec.word fl seed (12 + i), s') := by
  obtain ⟨x, e, h⟩ := new_spec fl junk seed
  obtain ⟨s', e'⟩ := draws_spec fl seed n 0 ⟨x, 12⟩ (by norm_num) h
  exact ⟨_, s', e, by simpa using e'⟩

theorem seedWord_lt (seed : Nat) (hs : seed < 2 ^ 32) (i : Nat) : Spec.seedWord seed i < 2 ^ 32 := by
  cases i with
  | zero => exact hs
  | succ i => exact Nat.mod_lt _ (by norm_num)

theorem reduce_range {fl : ℚ → ℚ} (hf : Spec.Rounding fl) {a b : ℚ} (a0 : 0 ≤ a) (a1 : a ≤ 1) (b0 : 0 ≤ b)
    (b1 : b ≤ 1) :
    0 ≤ (if fl (a + b) ≥ 1 then fl (fl (a + b) - 1) else fl (a + b)) ∧
      (if fl (a + b) ≥ 1 then fl (fl (a + b) - 1) else fl (a + b)) ≤ 1 := by
  have t0 : 0 ≤ fl (a + b) := by
    have := hf.mono (show 0 ≤ a + b by linarith)
    rwa [hf.zero] at this
  have t2 : fl (a + b) ≤ 2 := by
    have := hf.mono (show a + b ≤ 2 by linarith)
    rwa [hf.two] at this
  split_ifs with hc
  · constructor
    · have := hf.mono (show 0 ≤ fl (a + b) - 1 by linarith)
      rwa [hf.zero] at this
    · have := hf.mono (show fl (a + b) - 1 ≤ 1 by linarith)
      rwa [hf.one] at this
  · exact ⟨t0, by linarith⟩

theorem word_range {fl : ℚ → ℚ} (hf : Spec.Rounding fl) {seed : Nat} (hs : seed < 2 ^ 32) (n : Nat) :
    0 ≤ Spec.word fl seed n ∧ Spec.word fl seed n ≤ 1 := by
  induction n using Nat.strong_induction_on with
  | _ n ih =>
    rw [Spec.word]
    split_ifs with hn
    · have h1 : (Spec.seedWord seed n : ℚ) ≤ 2 ^ 32 - 1 := by
        have := seedWord_lt seed hs n
        have h2 : Spec.seedWord seed n ≤ 2 ^ 32 - 1 := by omega
        have h3 : (Spec.seedWord seed n : ℚ) ≤ ((2 ^ 32 - 1 : Nat) : ℚ) := by exact_mod_cast h2
        norm_num at h3 ⊢
        exact h3
      constructor
      · have : fl 0 ≤ fl (Spec.seedWord seed n / (2 ^ 32 - 1)) :=
          hf.mono (div_nonneg (Nat.cast_nonneg _) (by norm_num))
        rwa [hf.zero] at this
      · have : fl (Spec.seedWord seed n / (2 ^ 32 - 1)) ≤ fl 1 := hf.mono ((div_le_one (by norm_num)).2 h1)
        rwa [hf.one] at this
    · obtain ⟨a0, a1⟩ := ih (n - 607) (by omega)
      obtain ⟨b0, b1⟩ := ih (n - 273) (by omega)
      exact reduce_range hf a0 a1 b0 b1

/-- **C43** (range). Every number drawn lies in [0, 1], for every 32-bit seed and every number of draws. -/
theorem C43_range (fl : ℚ → ℚ) (hf : Spec.Rounding fl) (junk : Nat → ℚ) (seed : Nat) (hs : seed < 2 ^ 32) (n : Nat) :
    ∃ s vs s', new fl junk seed = .ok s ∧ draws fl n s = .ok (vs, s') ∧ vs.length = n ∧ ∀ v ∈ vs, 0 ≤ v ∧ v ≤ 1 := by
  obtain ⟨s, s', h1, h2⟩ := C43_sequence fl junk seed n
  refine ⟨s, _, s', h1, h2, by simp, ?_⟩
  intro v hv
  obtain ⟨i, _, rfl⟩ := List.mem_map.1 hv
  exact word_range hf hs _

/-- **C43** (refutation of the documented half-open range). The very first number drawn with the seed 835344883 is
exactly 1. -/
theorem C43_one (fl : ℚ → ℚ) (hf : fl 1 = 1) (junk : Nat → ℚ) :
    ∃ s s', new fl junk 835344883 = .ok s ∧ draws fl 1 s = .ok ([1], s') := by
  obtain ⟨s, s', h1, h2⟩ := C43_sequence fl junk 835344883 1
  refine ⟨s, s', h1, ?_⟩
  rw [h2]
  have : Spec.word fl 835344883 12 = 1 := by
    rw [Spec.word, dif_pos (by norm_num)]
    have : Spec.seedWord 835344883 12 = 2 ^ 32 - 1 := by decide +kernel
    rw [this]
    norm_num [hf]
  simp [this]

/-- **C43** (zero). The very first number drawn with the seed 965395927 is exactly 0 (so that the logarithm taken of
it by `coco_random_normal` is infinite). -/
theorem C43_zero (fl : ℚ → ℚ) (hf : fl 0 = 0) (junk : Nat → ℚ) :
    ∃ s s', new fl junk 965395927 = .ok s ∧ draws fl 1 s = .ok ([0], s') := by
  obtain ⟨s, s', h1, h2⟩ := C43_sequence fl junk 965395927 1
  refine ⟨s, s', h1, ?_⟩
  rw [h2]
  have : Spec.word fl 965395927 12 = 0 := by
    rw [Spec.word, dif_pos (by norm_num)]
    have : Spec.seedWord 965395927 12 = 0 := by decide +kernel
    rw [this]
    norm_num [hf]
  simp [this]

/-! ### Cases that meet the hypotheses -/

/-- Exact arithmetic. -/
theorem exampleRounding : Spec.Rounding id := ⟨monotone_id, rfl, rfl, rfl⟩

/-- Rounding down to multiples of 2^-53. -/
theorem exampleRounding' : Spec.Rounding (fun q => (⌊q * 2 ^ 53⌋ : ℚ) / 2 ^ 53) := by
  refine ⟨fun a b h => ?_, by norm_num, ?_, ?_⟩
  · have : ⌊a * 2 ^ 53⌋ ≤ ⌊b * 2 ^ 53⌋ := Int.floor_le_floor (by gcongr)
    have : (⌊a * 2 ^ 53⌋ : ℚ) ≤ ⌊b * 2 ^ 53⌋ := by exact_mod_cast this
    gcongr
  · have : ⌊(1 : ℚ) * 2 ^ 53⌋ = 2 ^ 53 := by rw [Int.floor_eq_iff]; norm_num
    rw [this]; norm_num
  · have : ⌊(2 : ℚ) * 2 ^ 53⌋ = 2 ^ 54 := by rw [Int.floor_eq_iff]; norm_num
    rw [this]; norm_num

example : ∃ s vs s', new id (fun _ => 0) 3735928559 = .ok s ∧ draws id 1000 s = .ok (vs, s') ∧ vs.length = 1000 ∧
    ∀ v ∈ vs, 0 ≤ v ∧ v ≤ 1 := C43_range id exampleRounding _ _ (by norm_num) 1000

end Random
