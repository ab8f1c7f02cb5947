import Mathlib.Tactic
import Verif.Model.Legacy

/-!
# Properties of the legacy random numbers (C44)
-/

namespace Legacy

/-! ### Specification -/

/-- The modulus of the generator, the prime 2^31 - 1. -/
def Spec.m : Nat := 2147483647

/-- The seed actually used: the absolute value, but at least 1. -/
def Spec.seed (inseed : Int) : Nat := max 1 inseed.natAbs

/-- The `k`-th state of the multiplicative congruential generator with factor 16807 (Park and Miller). -/
def Spec.lcg (seed k : Nat) : Nat := 16807 ^ k * seed % Spec.m

/-- The number made of a state; 0 is replaced. -/
def Spec.number (z : Nat) : ℚ := if z = 0 then 1 / 10 ^ 99 else (z : ℚ) / Spec.m

/-! ### The congruential generator -/

/-- One step without the range check. -/
def stepVal (s : Int) : Int :=
  let r := 16807 * (s - s / 127773 * 127773) - 2836 * (s / 127773)
  if r < 0 then r + 2147483647 else r

theorem lcgStep_ok {s : Int} (h1 : -2 ^ 31 * 127773 ≤ s) (h2 : s < 2 ^ 31 * 127773) : lcgStep s = .ok (stepVal s) := by
  unfold lcgStep toInt32
  rw [if_pos (by constructor <;> omega), Res.ok_bind]
  rfl

theorem stepVal_congr (s : Int) : stepVal s ≡ 16807 * s [ZMOD 2147483647] := by
  unfold stepVal
  have h : 16807 * (s - s / 127773 * 127773) - 2836 * (s / 127773) = 16807 * s - 2147483647 * (s / 127773) := by ring
  dsimp only
  rw [h]
  split_ifs
  · apply Int.ModEq.symm
    rw [Int.modEq_iff_dvd]
    exact ⟨1 - s / 127773, by ring⟩
  · apply Int.ModEq.symm
    rw [Int.modEq_iff_dvd]
    exact ⟨- (s / 127773), by ring⟩

theorem stepVal_range {s : Int} (h0 : 0 ≤ s) (h1 : s ≤ 2167600000) : 0 ≤ stepVal s ∧ stepVal s < 2147483647 := by
  unfold stepVal
  dsimp only
  split_ifs <;> omega

/-- The states. -/
def states (s : Int) : Nat → Int
  | 0 => s
  | k + 1 => stepVal (states s k)

theorem states_add (s : Int) (j k : Nat) : states s (j + k) = states (states s j) k := by
  induction k with
  | zero => rfl
  | succ k ih => rw [Nat.add_succ, states, ih, states]

theorem states_congr (s : Int) (k : Nat) : states s k ≡ 16807 ^ k * s [ZMOD 2147483647] := by
  induction k with
  | zero => simp [states]
  | succ k ih =>
    rw [states]
    refine (stepVal_congr _).trans ?_
    rw [pow_succ, mul_comm (16807 ^ k) 16807, mul_assoc]
    exact Int.ModEq.mul_left _ ih

theorem stepVal_early {s : Int} (h1 : 1 ≤ s) (h2 : s < 2 ^ 31 * 127773) :
    (-6090263622645 ≤ states s 1 ∧ states s 1 ≤ 2147483646) ∧ (0 ≤ states s 2 ∧ states s 2 ≤ 137400000000) ∧
    (-905000000 ≤ states s 3 ∧ states s 3 ≤ 2147483646) ∧ (0 ≤ states s 4 ∧ states s 4 ≤ 2167600000) := by
  have e1 : -6090263622645 ≤ states s 1 ∧ states s 1 ≤ 2147483646 := by
    simp only [states]
    unfold stepVal
    dsimp only
    split_ifs <;> omega
  have e2 : 0 ≤ states s 2 ∧ states s 2 ≤ 137400000000 := by
    rw [states]
    generalize states s 1 = t at *
    unfold stepVal
    dsimp only
    split_ifs <;> omega
  have e3 : -905000000 ≤ states s 3 ∧ states s 3 ≤ 2147483646 := by
    rw [states]
    generalize states s 2 = t at *
    unfold stepVal
    dsimp only
    split_ifs <;> omega
  have e4 : 0 ≤ states s 4 ∧ states s 4 ≤ 2167600000 := by
    rw [states]
    generalize states s 3 = t at *
    unfold stepVal
    dsimp only
    split_ifs <;> omega
  exact ⟨e1, e2, e3, e4⟩

theorem states_late {s : Int} (h1 : 1 ≤ s) (h2 : s < 2 ^ 31 * 127773) (k : Nat) (hk : 5 ≤ k) :
    0 ≤ states s k ∧ states s k < 2147483647 := by
  obtain ⟨-, -, -, e4⟩ := stepVal_early h1 h2
  induction k, hk using Nat.le_induction with
  | base => exact stepVal_range e4.1 e4.2
  | succ k hk ih => exact stepVal_range ih.1 (by omega)

theorem states_step {s : Int} (h1 : 1 ≤ s) (h2 : s < 2 ^ 31 * 127773) (k : Nat) :
    lcgStep (states s k) = .ok (states s (k + 1)) := by
  obtain ⟨e1, e2, e3, e4⟩ := stepVal_early h1 h2
  rw [states]
  apply lcgStep_ok
  all_goals
    rcases k with _ | _ | _ | _ | _ | k
    · rw [states]; omega
    · simp only [zero_add] at *; omega
    · simp only [zero_add, Nat.reduceAdd] at *; omega
    · simp only [zero_add, Nat.reduceAdd] at *; omega
    · simp only [zero_add, Nat.reduceAdd] at *; omega
    · have : 0 ≤ states s (k + 1 + 1 + 1 + 1 + 1) ∧ states s (k + 1 + 1 + 1 + 1 + 1) < 2147483647 :=
        states_late h1 h2 (k + 5) (by omega)
      omega

theorem states_eq {n : Nat} (h1 : 1 ≤ n) (h2 : n < 2 ^ 31 * 127773) (k : Nat) (hk : 5 ≤ k) :
    states n k = (Spec.lcg n k : Nat) := by
  obtain ⟨a, b⟩ := states_late (s := n) (by exact_mod_cast h1) (by exact_mod_cast h2) k hk
  have h := states_congr n k
  unfold Int.ModEq at h
  rw [Int.emod_eq_of_lt a b] at h
  rw [h]
  unfold Spec.lcg Spec.m
  push_cast
  rfl

/-! ### The table -/

theorem warm_spec {s : Int} (h1 : 1 ≤ s) (h2 : s < 2 ^ 31 * 127773) (n : Nat) (hn : n ≤ 40)
    (tab : List (Option Int)) (hl : tab.length = 32)
    (ht : ∀ i, n ≤ i → i < 32 → tab[i]? = some (some (states s (40 - i)))) :
    ∃ tab', warm n (states s (40 - n)) tab = .ok (states s 40, tab') ∧ tab'.length = 32 ∧
      ∀ i, i < 32 → tab'[i]? = some (some (states s (40 - i))) := by
  induction n generalizing tab with
  | zero => exact ⟨tab, rfl, hl, fun i hi => ht i (Nat.zero_le _) hi⟩
  | succ n ih =>
    unfold warm
    have e := states_step h1 h2 (40 - (n + 1))
    rw [show 40 - (n + 1) + 1 = 40 - n by omega] at e
    rw [e, Res.ok_bind]
    split_ifs with hc
    · refine ih (by omega) _ (by simp [hl]) fun i hi hi' => ?_
      rcases Nat.lt_or_eq_of_le hi with h | rfl
      · rw [List.getElem?_set_ne (by omega)]
        exact ht i h hi'
      · rw [List.getElem?_set_self (by omega)]
    · exact ih (by omega) tab hl fun i hi hi' => by omega

/-- The positions in the sequence of states of the table after the warm-up. -/
def initial : List Nat := (List.range 32).map fun i => 40 - i

theorem warm_table {s : Int} (h1 : 1 ≤ s) (h2 : s < 2 ^ 31 * 127773) :
    warm 40 s (List.replicate 32 none) = .ok (states s 40, initial.map fun j => some (states s j)) := by
  obtain ⟨tab, e, hl, ht⟩ := warm_spec h1 h2 40 le_rfl (List.replicate 32 none) (by simp)
    (fun i hi hi' => by omega)
  have e' : warm 40 s (List.replicate 32 none) = .ok (states s 40, tab) := e
  rw [e']
  congr 2
  apply List.ext_getElem?
  intro i
  by_cases hi : i < 32
  · rw [ht i hi]
    simp [initial, hi]
  · rw [List.getElem?_eq_none (by omega), List.getElem?_eq_none (by simp [initial]; omega)]

theorem number_eq {n k : Nat} (h1 : 1 ≤ n) (h2 : n < 2 ^ 31 * 127773) (hk : 5 ≤ k) :
    value (states n k) = Spec.number (Spec.lcg n k) := by
  rw [states_eq h1 h2 k hk]
  unfold value Spec.number Spec.m
  push_cast
  have h0 : ((Spec.lcg n k : ℚ) / 2147483647 = 0) ↔ Spec.lcg n k = 0 := by
    rw [div_eq_zero_iff]
    norm_num
  by_cases h : Spec.lcg n k = 0
  · rw [if_pos (h0.2 h), if_pos h]
  · rw [if_neg (fun hh => h (h0.1 hh)), if_neg h]

theorem produce_spec {n : Nat} (h1 : 1 ≤ n) (h2 : n < 2 ^ 31 * 127773) (N next : Nat) (ar : Int)
    (ha0 : 0 ≤ ar) (ha : ar < 2147483647) (tj : List Nat) (hl : tj.length = 32) (hn : tj.Nodup)
    (ht : ∀ j ∈ tj, 5 ≤ j ∧ j ≤ next) (h5 : 5 ≤ next) :
    ∃ js : List Nat, produce N (states n next) ar (tj.map fun j => some (states n j)) =
        .ok (js.map fun j => Spec.number (Spec.lcg n j)) ∧ js.length = N ∧ js.Nodup ∧
      (∀ j ∈ js, j ∈ tj ∨ next < j) ∧ ∀ i (hi : i < js.length), js[i] ≤ next + i := by
  induction N generalizing next ar tj with
  | zero => exact ⟨[], rfl, rfl, List.nodup_nil, by simp, by simp⟩
  | succ N ih =>
    have b1 : (1 : Int) ≤ n := by exact_mod_cast h1
    have b2 : (n : Int) < 2 ^ 31 * 127773 := by exact_mod_cast h2
    have hr0 : 0 ≤ ar / 67108865 := by omega
    have hr : ar / 67108865 < 32 := by omega
    obtain ⟨t, et⟩ := Int.eq_ofNat_of_zero_le hr0
    have htl : t < tj.length := by rw [hl]; omega
    have hj := ht tj[t] (List.getElem_mem htl)
    have hjs := states_late b1 b2 tj[t] hj.1
    have hnew : next + 1 ∉ tj := fun h => by have := ht _ h; omega
    obtain ⟨js, e, l1, l2, l3, l4⟩ := ih (next + 1) (states n tj[t]) hjs.1 hjs.2 (tj.set t (next + 1))
      (by simpa using hl) (hn.set hnew)
      (fun j h => by
        rcases List.mem_or_eq_of_mem_set h with h | rfl
        · have := ht j h; omega
        · omega)
      (by omega)
    refine ⟨tj[t] :: js, ?_, by simp [l1], ?_, ?_, ?_⟩
    · unfold produce
      rw [states_step b1 b2, Res.ok_bind, toInt32, if_pos (by omega), Res.ok_bind, et]
      have e1 : tableAt (tj.map fun j => some (states n j)) (t : Int) = .ok (states n tj[t]) := by
        unfold tableAt
        rw [if_neg (by omega)]
        simp [htl]
      have e2 : (tj.map fun j => some (states n j)).set (t : Int).toNat (some (states n (next + 1))) =
          (tj.set t (next + 1)).map fun j => some (states n j) := by
        rw [List.map_set]
        rfl
      rw [e1, Res.ok_bind, e2, e, Res.ok_bind, number_eq h1 h2 hj.1]
      rfl
    · rw [List.nodup_cons]
      refine ⟨fun h => ?_, l2⟩
      rcases l3 _ h with h | h
      · obtain ⟨i, hi, ei⟩ := List.getElem_of_mem h
        by_cases hit : t = i
        · subst hit
          rw [List.getElem_set_self] at ei
          omega
        · rw [List.getElem_set_ne hit] at ei
          exact hit ((List.Nodup.getElem_inj_iff hn).1 ei).symm
      · omega
    · intro j hj
      rcases List.mem_cons.1 hj with rfl | hj
      · exact Or.inl (List.getElem_mem htl)
      · rcases l3 j hj with h | h
        · rcases List.mem_or_eq_of_mem_set h with h | rfl
          · exact Or.inl h
          · exact Or.inr (by omega)
        · exact Or.inr (by omega)
    · intro i hi
      rcases i with _ | i
      · simpa using hj.2
      · have := l4 i (by simpa using hi)
        simp only [List.getElem_cons_succ]
        omega

/-! ### C44 -/

/-- **C44** (generator). For every seed of absolute value below 2^31 * 127773 and every `N` the function stores `N`
numbers, without a table access out of bounds, a read of an uninitialised entry or a conversion out of range.
The `i`-th number is made of one of the states 9, ..., 40 + i of the congruential generator, and no state is used
twice. -/
theorem C44_generator (N : Nat) (inseed : Int) (h : inseed.natAbs < 2 ^ 31 * 127773) :
    ∃ js : List Nat, unif N inseed = .ok (js.map fun j => Spec.number (Spec.lcg (Spec.seed inseed) j)) ∧
      js.length = N ∧ js.Nodup ∧ (∀ j ∈ js, 9 ≤ j) ∧ ∀ i (hi : i < js.length), js[i] ≤ 40 + i := by
  have h1 : 1 ≤ Spec.seed inseed := le_max_left _ _
  have h2 : Spec.seed inseed < 2 ^ 31 * 127773 := max_lt (by norm_num) h
  have b1 : (1 : Int) ≤ (Spec.seed inseed : Nat) := by exact_mod_cast h1
  have b2 : ((Spec.seed inseed : Nat) : Int) < 2 ^ 31 * 127773 := by exact_mod_cast h2
  have hs : (if (if inseed < 0 then -inseed else inseed) < 1 then 1 else
      (if inseed < 0 then -inseed else inseed)) = ((Spec.seed inseed : Nat) : Int) := by
    unfold Spec.seed
    split_ifs <;> omega
  have h40 := states_late b1 b2 40 (by norm_num)
  have hm : ∀ j ∈ initial, 9 ≤ j ∧ j ≤ 40 := by decide
  obtain ⟨js, e, l1, l2, l3, l4⟩ := produce_spec h1 h2 N 40 (states (Spec.seed inseed) 40) h40.1 h40.2 initial
    (by decide) (by decide) (fun j hj => ⟨by have := hm j hj; omega, (hm j hj).2⟩) (by norm_num)
  refine ⟨js, ?_, l1, l2, fun j hj => ?_, l4⟩
  · unfold unif
    rw [if_neg (by omega)]
    dsimp only
    rw [hs, warm_table b1 b2, Res.ok_bind]
    dsimp only
    have : tableAt (initial.map fun j => some (states (Spec.seed inseed) j)) 0 =
        .ok (states (Spec.seed inseed) 40) := rfl
    rw [this, Res.ok_bind, e]
  · rcases l3 j hj with h | h
    · exact (hm j h).1
    · omega

/-- **C44** (range). All numbers lie strictly between 0 and 1. -/
theorem C44_range (N : Nat) (inseed : Int) (h : inseed.natAbs < 2 ^ 31 * 127773) :
    ∃ rs, unif N inseed = .ok rs ∧ rs.length = N ∧ ∀ r ∈ rs, 0 < r ∧ r < 1 := by
  obtain ⟨js, e, l1, -, -, -⟩ := C44_generator N inseed h
  refine ⟨_, e, by simpa using l1, fun r hr => ?_⟩
  obtain ⟨j, -, rfl⟩ := List.mem_map.1 hr
  have hlt : Spec.lcg (Spec.seed inseed) j < Spec.m := Nat.mod_lt _ (by decide)
  unfold Spec.number
  split_ifs with h0
  · norm_num
  · have hm : (0 : ℚ) < Spec.m := by norm_num [Spec.m]
    constructor
    · exact div_pos (by exact_mod_cast Nat.pos_of_ne_zero h0) hm
    · rw [div_lt_one hm]
      exact_mod_cast hlt

theorem lcg_zero_iff (n k : Nat) : Spec.lcg n k = 0 ↔ Spec.m ∣ n := by
  unfold Spec.lcg
  rw [← Nat.dvd_iff_mod_eq_zero]
  have : Nat.Coprime Spec.m (16807 ^ k) := Nat.Coprime.pow_right _ (by decide +kernel)
  exact this.dvd_mul_left

/-- **C44** (degenerate seeds). If the seed is a multiple of 2^31 - 1 (other than 0), all numbers are the
replacement value 1e-99; for all other seeds no number is. -/
theorem C44_degenerate (N : Nat) (inseed : Int) (h : inseed.natAbs < 2 ^ 31 * 127773) :
    ∃ rs, unif N inseed = .ok rs ∧
      ∀ r ∈ rs, r = 1 / 10 ^ 99 ↔ (inseed ≠ 0 ∧ (2147483647 : Int) ∣ inseed) := by
  obtain ⟨js, e, l1, -, -, -⟩ := C44_generator N inseed h
  refine ⟨_, e, fun r hr => ?_⟩
  obtain ⟨j, -, rfl⟩ := List.mem_map.1 hr
  have hd : (inseed ≠ 0 ∧ (2147483647 : Int) ∣ inseed) ↔ Spec.lcg (Spec.seed inseed) j = 0 := by
    rw [lcg_zero_iff]
    unfold Spec.seed Spec.m
    rw [← Int.natAbs_dvd_natAbs]
    rcases Nat.eq_zero_or_pos inseed.natAbs with h0 | h0
    · rw [h0]
      constructor
      · rintro ⟨h1, -⟩
        omega
      · intro h1
        exact absurd h1 (by decide)
    · rw [max_eq_right h0]
      exact ⟨fun h => h.2, fun h => ⟨by omega, h⟩⟩
  rw [hd]
  unfold Spec.number
  constructor
  · intro hh
    by_contra h0
    rw [if_neg h0] at hh
    have h1 : (1 : ℚ) ≤ Spec.lcg (Spec.seed inseed) j := by exact_mod_cast Nat.pos_of_ne_zero h0
    have : (1 : ℚ) / Spec.m ≤ Spec.lcg (Spec.seed inseed) j / Spec.m := by
      apply div_le_div_of_nonneg_right h1
      norm_num [Spec.m]
    rw [hh] at this
    norm_num [Spec.m] at this
  · intro h0
    rw [if_pos h0]

/-- **C44** (too large seeds). From 2^31 * 127773 on a conversion is out of range. -/
theorem C44_large (N : Nat) (inseed : Int) (h : 2 ^ 31 * 127773 ≤ inseed) : unif N inseed = .ub := by
  unfold unif
  rw [if_neg (by omega)]
  dsimp only
  rw [if_neg (show ¬ inseed < 0 by omega), if_neg (by omega)]
  have : warm 40 inseed (List.replicate 32 none) = .ub := by
    unfold warm lcgStep toInt32
    rw [if_neg (by omega)]
    rfl
  rw [this]
  rfl

/-! ### Cases that meet the hypotheses -/

example : (-11 : Int).natAbs < 2 ^ 31 * 127773 := by decide

example : unif 3 10001 = .ok [1141674344 / 2147483647, 763226879 / 2147483647, 879540296 / 2147483647] := by decide +kernel

end Legacy
