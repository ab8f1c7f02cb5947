import Mathlib.GroupTheory.Perm.Basic
import Mathlib.Logic.Equiv.Basic
import Mathlib.Data.List.Perm.Basic
import Mathlib.Data.List.Perm.Subperm
import Mathlib.Tactic.Linarith
import Verif.Model.Permutation
import Verif.Props.Legacy
import Verif.Props.Noise

/-!
# Permutations: C49, C50
-/

namespace Permutation
open Legacy

namespace Spec

/-- A comparison function as required for `qsort`: antisymmetric signs and transitivity. -/
def Consistent (cmp : Nat → Nat → Int) : Prop :=
  (∀ a b, cmp a b < 0 ↔ 0 < cmp b a) ∧ (∀ a b c, cmp a b ≤ 0 → cmp b c ≤ 0 → cmp a c ≤ 0)

/-- What the C standard says about `qsort`: with a consistent comparison function the array is rearranged and
ascending afterwards. -/
def IsSort (qsort : SortFn) : Prop :=
  ∀ cmp l, Consistent cmp → (qsort cmp l).Perm l ∧ (qsort cmp l).Pairwise fun a b => cmp a b ≤ 0

/-- `P` lists the positions of `data` by increasing value. -/
def Sorts (data : List ℝ) (P : List Nat) : Prop :=
  P.Perm (List.range data.length) ∧ P.Pairwise fun a b => data.getD a 0 ≤ data.getD b 0

end Spec
open Spec

theorem compare_le (data : List ℝ) (a b : Nat) : compare data a b ≤ 0 ↔ data.getD a 0 ≤ data.getD b 0 := by
  unfold compare
  dsimp only
  split_ifs with h1 h2
  · constructor
    · intro h; omega
    · intro h; linarith
  · constructor
    · intro _; linarith
    · intro _; omega
  · constructor
    · intro _; linarith
    · intro _; omega

theorem compare_lt (data : List ℝ) (a b : Nat) : compare data a b < 0 ↔ data.getD a 0 < data.getD b 0 := by
  unfold compare
  dsimp only
  split_ifs with h1 h2
  · constructor
    · intro h; omega
    · intro h; linarith
  · constructor
    · intro _; linarith
    · intro _; omega
  · constructor
    · intro h; omega
    · intro h; exact absurd (by linarith) h2

theorem compare_consistent (data : List ℝ) : Consistent (compare data) := by
  constructor
  · intro a b
    rw [compare_lt, ← not_le, ← not_le, compare_le]
  · intro a b c
    rw [compare_le, compare_le, compare_le]
    exact le_trans

theorem sorts (qsort : SortFn) (hq : IsSort qsort) (data : List ℝ) :
    Sorts data (qsort (compare data) (List.range data.length)) := by
  obtain ⟨h1, h2⟩ := hq _ (List.range data.length) (compare_consistent data)
  exact ⟨h1, h2.imp fun h => (compare_le _ _ _).mp h⟩

/-- C49: the permutation from a sequence lists the positions of the sequence, each exactly once, by increasing
value. -/
theorem C49_from_sequence (qsort : SortFn) (hq : IsSort qsort) (seq : List ℝ) (h : seq ≠ []) :
    ∃ P, fromSequence qsort seq = .ok P ∧ Sorts seq P := by
  refine ⟨_, ?_, sorts qsort hq seq⟩
  unfold fromSequence
  rw [if_neg (by simpa using h)]
  rfl

theorem gauss_exists (n : Nat) (hn : n < 3000) (seed : Int) (hs : seed.natAbs < 2 ^ 31 * 127773) :
    ∃ gs, gauss n seed = .ok gs ∧ gs.length = n := by
  obtain ⟨us, -, -, -, h⟩ := gauss_ok n hn seed hs
  exact ⟨_, h, by simp⟩

/-- C49: the random permutation contains every index exactly once, for every seed and dimension below 3000. -/
theorem C49_random (qsort : SortFn) (hq : IsSort qsort) (seed : Int) (n : Nat) (h0 : 0 < n) (hn : n < 3000)
    (hs : seed.natAbs < 2 ^ 31 * 127773) :
    ∃ P, random qsort seed n = .ok P ∧ P.Perm (List.range n) := by
  obtain ⟨gs, hg, hl⟩ := gauss_exists n hn seed hs
  refine ⟨qsort (compare gs) (List.range n), ?_, ?_⟩
  · unfold random
    rw [if_neg (by omega), hg]
    rfl
  · have := (sorts qsort hq gs).1
    rwa [hl] at this

theorem unifInteger_range (lower upper seed : Int) (h : lower ≤ upper) (hs : seed.natAbs < 2 ^ 31 * 127773) :
    ∃ v, unifInteger lower upper seed = .ok v ∧ lower ≤ v ∧ v ≤ upper := by
  obtain ⟨rs, hr, hl, hu⟩ := C44_range 1 seed hs
  obtain ⟨u, rfl⟩ := List.length_eq_one_iff.mp hl
  obtain ⟨h0, h1⟩ := hu u (by simp)
  refine ⟨_, by unfold unifInteger; rw [hr]; rfl, ?_⟩
  simp only [List.getD_cons_zero]
  have hr : (0 : ℚ) < ((upper - lower + 1 : Int) : ℚ) := by
    have : 0 < upper - lower + 1 := by omega
    exact_mod_cast this
  have hx0 : 0 ≤ u * ((upper - lower + 1 : Int) : ℚ) := by positivity
  have hx1 : u * ((upper - lower + 1 : Int) : ℚ) < ((upper - lower + 1 : Int) : ℚ) := by nlinarith
  unfold truncate
  rw [if_neg (not_lt.mpr hx0)]
  have hf0 := Int.floor_nonneg.mpr hx0
  have hf1 := Int.floor_lt.mpr hx1
  generalize ⌊u * ((upper - lower + 1 : Int) : ℚ)⌋ = z at *
  constructor <;> omega

theorem readNat_eq {α : Type} (l : List α) (i : Nat) (h : i < l.length) : Res.readNat l i = .ok l[i] := by
  unfold Res.readNat
  rw [List.getElem?_eq_getElem h]

theorem exchange_map (n a b : Nat) (ha : a < n) (hb : b < n) (σ : Equiv.Perm Nat) :
    exchange ((List.range n).map σ) a b = .ok ((List.range n).map (σ * Equiv.swap a b)) := by
  unfold exchange
  rw [readNat_eq _ _ (by simpa using ha), readNat_eq _ _ (by simpa using hb)]
  simp only [Res.ok_bind]
  congr 1
  apply List.ext_getElem
  · simp
  · intro i h1 h2
    simp only [List.getElem_set, List.getElem_map, List.getElem_range, Equiv.Perm.coe_mul, Function.comp_apply]
    by_cases hib : b = i
    · subst hib
      simp [Equiv.swap_apply_right]
    · by_cases hia : a = i
      · subst hia
        simp [hib, Equiv.swap_apply_left]
      · simp [hib, hia, Equiv.swap_apply_of_ne_of_ne (Ne.symm hia) (Ne.symm hib)]

/-- A swap of `first` with another position at distance at most `range`. -/
def Spec.Swap (n range first second : Nat) : Prop :=
  second < n ∧ second ≠ first ∧ second ≤ first + range ∧ first ≤ second + range

theorem swapStep_ok (order : List Nat) (seed : Int) (n range idx first : Nat) (σ : Equiv.Perm Nat)
    (hn : 2 ≤ n) (hr : 0 < range) (hi : order[idx]? = some first) (hf : first < n)
    (hs : seed.natAbs + (1 + idx) * 1000 < 2 ^ 31 * 127773) :
    ∃ second, Spec.Swap n range first second ∧
      swapStep order seed n range idx ((List.range n).map σ) =
        .ok ((List.range n).map (σ * Equiv.swap first second)) := by
  unfold swapStep Res.readNat
  rw [hi]
  simp only [Res.ok_bind]
  generalize hlo : (if first < range then 0 else first - range) = lower
  generalize hup : (if first + range > n - 1 then n - 1 else first + range) = upper
  have hlo1 : lower ≤ first ∧ first ≤ lower + range := by split_ifs at hlo <;> omega
  have hup1 : first ≤ upper ∧ upper ≤ first + range ∧ upper < n := by split_ifs at hup <;> omega
  have hlt : lower < upper := by split_ifs at hlo hup <;> omega
  obtain ⟨v, hv, hv0, hv1⟩ := unifInteger_range lower ((upper : Int) - 1) (seed + (1 + idx : Nat) * 1000)
    (by omega) (by omega)
  rw [hv]
  simp only [Res.ok_bind]
  rw [if_neg (by omega)]
  refine ⟨if v.toNat ≥ first then v.toNat + 1 else v.toNat, ?_, ?_⟩
  · unfold Spec.Swap
    split_ifs <;> omega
  · exact exchange_map _ _ _ hf (by split_ifs <;> omega) σ

/-- Swaps after `σ`. -/
def Spec.after (σ : Equiv.Perm Nat) (swaps : List (Nat × Nat)) : Equiv.Perm Nat :=
  swaps.foldl (fun σ p => σ * Equiv.swap p.1 p.2) σ

/-- The permutation of the positions that results from swaps, the first swap being applied first. -/
def Spec.product (swaps : List (Nat × Nat)) : Equiv.Perm Nat := Spec.after 1 swaps

theorem swapLoop_ok (order : List Nat) (seed : Int) (n range : Nat) (hn : 2 ≤ n) (hr : 0 < range)
    (ho : ∀ f ∈ order, f < n) (hlen : order.length = n) : ∀ (k idx : Nat) (σ : Equiv.Perm Nat), idx + k ≤ n →
    seed.natAbs + (idx + k) * 1000 < 2 ^ 31 * 127773 →
    ∃ swaps : List (Nat × Nat), swaps.map Prod.fst = (order.drop idx).take k ∧
      (∀ p ∈ swaps, p.1 < n ∧ Spec.Swap n range p.1 p.2) ∧
      swapLoop order seed n range k idx ((List.range n).map σ) =
        .ok ((List.range n).map (Spec.after σ swaps)) := by
  intro k
  induction k with
  | zero => intro idx σ _ _; exact ⟨[], by simp, by simp, rfl⟩
  | succ k ih =>
    intro idx σ hk hs
    have hidx : idx < order.length := by omega
    have hf : order[idx] < n := ho _ (List.getElem_mem hidx)
    have hs1 : seed.natAbs + (1 + idx) * 1000 < 2 ^ 31 * 127773 := by
      refine lt_of_le_of_lt ?_ hs
      have : 1 + idx ≤ idx + (k + 1) := by omega
      exact Nat.add_le_add_left (Nat.mul_le_mul_right _ this) _
    have hs2 : seed.natAbs + (idx + 1 + k) * 1000 < 2 ^ 31 * 127773 := by
      refine lt_of_le_of_lt ?_ hs
      have : idx + 1 + k ≤ idx + (k + 1) := by omega
      exact Nat.add_le_add_left (Nat.mul_le_mul_right _ this) _
    obtain ⟨second, h1, h2⟩ := swapStep_ok order seed n range idx order[idx] σ hn hr
      (List.getElem?_eq_getElem hidx) hf hs1
    obtain ⟨swaps, h3, h4, h5⟩ := ih (idx + 1) (σ * Equiv.swap order[idx] second) (by omega)
      hs2
    refine ⟨(order[idx], second) :: swaps, ?_, ?_, ?_⟩
    · rw [List.drop_eq_getElem_cons hidx, List.take_succ_cons, List.map_cons, h3]
    · intro p hp
      rcases List.mem_cons.mp hp with rfl | hp
      · exact ⟨hf, h1⟩
      · exact h4 p hp
    · unfold swapLoop
      rw [h2]
      simp only [Res.ok_bind]
      rw [h5]
      rfl

theorem fold_lt (n : Nat) (swaps : List (Nat × Nat)) (h : ∀ p ∈ swaps, p.1 < n ∧ p.2 < n) :
    ∀ (σ : Equiv.Perm Nat), (∀ i < n, σ i < n) → ∀ i < n,
      (Spec.after σ swaps) i < n := by
  induction swaps with
  | nil => intro σ hσ; exact hσ
  | cons p swaps ih =>
    intro σ hσ
    refine ih (fun q hq => h q (by simp [hq])) _ ?_
    intro i hi
    obtain ⟨h1, h2⟩ := h p (by simp)
    simp only [Equiv.Perm.coe_mul, Function.comp_apply]
    refine hσ _ ?_
    rw [Equiv.swap_apply_def]
    split_ifs <;> assumption

theorem map_perm_range (n : Nat) (σ : Equiv.Perm Nat) (h : ∀ i < n, σ i < n) :
    ((List.range n).map σ).Perm (List.range n) := by
  have hnd : ((List.range n).map σ).Nodup := List.Nodup.map σ.injective List.nodup_range
  refine (List.subperm_of_subset hnd ?_).perm_of_length_le (by simp)
  intro a ha
  obtain ⟨i, hi, rfl⟩ := List.mem_map.mp ha
  rw [List.mem_range] at hi ⊢
  exact h i hi

/-- C49: for dimensions above 40 the truncated-uniform-swap permutation contains every index exactly once. It is the
result of `nbSwaps` swaps; their first positions are taken from the positions sorted by the random numbers, and each
exchanges its first position with a different one at distance at most `range`, never outside the array. -/
theorem C49_truncated (qsort : SortFn) (hq : IsSort qsort) (seed : Int) (n nbSwaps range : Nat) (hn : 40 < n)
    (hr : 0 < range) (hnb : nbSwaps ≤ n) (hs : seed.natAbs + nbSwaps * 1000 < 2 ^ 31 * 127773) :
    ∃ (data : List ℚ) (order : List Nat) (swaps : List (Nat × Nat)), unif n seed = .ok data ∧
      Sorts (data.map fun u : ℚ => (u : ℝ)) order ∧ swaps.map Prod.fst = order.take nbSwaps ∧
      (∀ p ∈ swaps, Spec.Swap n range p.1 p.2) ∧
      truncated qsort seed n nbSwaps range = .ok ((List.range n).map (Spec.product swaps)) ∧
      ((List.range n).map (Spec.product swaps)).Perm (List.range n) := by
  obtain ⟨data, hd, hl, -⟩ := C44_range n seed (by omega)
  have hsort := sorts qsort hq (data.map fun u : ℚ => (u : ℝ))
  rw [List.length_map, hl] at hsort
  have hperm := hsort.1
  rw [List.length_map, hl] at hperm
  obtain ⟨swaps, h1, h2, h3⟩ := swapLoop_ok _ seed n range (by omega) hr
    (fun f hf => List.mem_range.mp (hperm.mem_iff.mp hf)) (by rw [hperm.length_eq]; simp) nbSwaps 0 1
    (by omega) (by simpa using hs)
  refine ⟨data, _, swaps, hd, hsort, by simpa using h1, fun p hp => (h2 p hp).2, ?_, ?_⟩
  · unfold truncated
    rw [if_neg (by omega), hd]
    simp only [Res.ok_bind]
    rw [if_pos hr]
    have hid : (List.range n).map (1 : Equiv.Perm Nat) = List.range n := by simp
    rw [hid] at h3
    exact h3
  · refine map_perm_range n _ ?_
    refine fold_lt n swaps (fun p hp => ⟨(h2 p hp).1, (h2 p hp).2.1⟩) 1 ?_
    intro i hi; exact hi

/-- C49: up to dimension 40 it is the identity. -/
theorem C49_small (qsort : SortFn) (seed : Int) (n nbSwaps range : Nat) (hn : n ≤ 40) :
    truncated qsort seed n nbSwaps range = .ok (List.range n) := by
  unfold truncated
  rw [if_pos hn]

/-- C49: with the parameters of the `bbob-largescale` suite the permutation is made for every dimension. -/
theorem C49_largescale (qsort : SortFn) (hq : IsSort qsort) (seed : Int) (n : Nat)
    (hs : seed.natAbs + n * 1000 < 2 ^ 31 * 127773) :
    ∃ nb range P, Permutation.nbSwaps n "bbob-largescale" = .ok nb ∧ swapRange n "bbob-largescale" = .ok range ∧
      truncated qsort seed n nb range = .ok P ∧ P.Perm (List.range n) := by
  by_cases hn : n ≤ 40
  · exact ⟨n, n / 3, _, rfl, rfl, C49_small qsort seed n n (n / 3) hn, List.Perm.refl _⟩
  · obtain ⟨_, _, swaps, -, -, -, -, h1, h2⟩ := C49_truncated qsort hq seed n n (n / 3) (by omega) (by omega)
      (le_refl _) hs
    exact ⟨n, n / 3, _, rfl, rfl, h1, h2⟩

/-- C49, swap range 0: the comment promises a random permutation, but the random numbers are freed twice. -/
theorem C49_zero_range (qsort : SortFn) (seed : Int) (n nbSwaps : Nat) (hn : 40 < n) (hn2 : n < 3000)
    (hs : seed.natAbs < 2 ^ 31 * 127773) : truncated qsort seed n nbSwaps 0 = .ub := by
  obtain ⟨data, hd, -, -⟩ := C44_range n seed hs
  obtain ⟨gs, hg, -⟩ := gauss_exists n hn2 seed hs
  unfold truncated
  rw [if_neg (by omega), hd]
  simp only [Res.ok_bind]
  rw [if_neg (by omega)]
  unfold random
  rw [if_neg (by omega), hg]
  rfl

/-- Insertion sort for a comparison function meets the hypothesis on `qsort`. -/
example : IsSort fun cmp l => l.insertionSort fun a b => cmp a b ≤ 0 := by
  intro cmp l hc
  have htot : ∀ a b, cmp a b ≤ 0 ∨ cmp b a ≤ 0 := by
    intro a b
    by_contra h
    push Not at h
    have := (hc.1 b a).mpr h.1
    omega
  refine ⟨List.perm_insertionSort _ _, ?_⟩
  have : Std.Total fun a b => cmp a b ≤ 0 := ⟨htot⟩
  have : IsTrans Nat fun a b => cmp a b ≤ 0 := ⟨fun a b c => hc.2 a b c⟩
  exact List.pairwise_insertionSort _ _

/-! ## Permutation transformations: C50 -/

theorem gather_eq (x : List ℚ) (P : List Nat) (h : ∀ p ∈ P, p < x.length) :
    gather P x = .ok (P.map fun p => x.getD p 0) := by
  induction P with
  | nil => rfl
  | cons p P ih =>
    have hp := h p (by simp)
    unfold gather
    rw [readNat_eq _ _ hp, ih fun q hq => h q (by simp [hq])]
    simp [List.getD_eq_getElem?_getD, List.getElem?_eq_getElem hp]

theorem scatter_eq (P : List Nat) : ∀ (x buffer : List ℚ), P.length = x.length → P.Nodup →
    (∀ p ∈ P, p < buffer.length) →
    ∃ z, scatter P x buffer = .ok z ∧ z.length = buffer.length ∧ (P.map fun p => z.getD p 0) = x ∧
      ∀ q, q ∉ P → z.getD q 0 = buffer.getD q 0 := by
  induction P with
  | nil =>
    intro x buffer hl _ _
    have : x = [] := List.length_eq_zero_iff.mp hl.symm
    exact ⟨buffer, rfl, rfl, by simp [this], fun _ _ => rfl⟩
  | cons p P ih =>
    intro x buffer hl hnd hp
    cases x with
    | nil => simp at hl
    | cons v x =>
      obtain ⟨hnp, hnd⟩ := List.nodup_cons.mp hnd
      obtain ⟨z, h1, h2, h3, h4⟩ := ih x (buffer.set p v) (by simpa using hl) hnd
        (by intro q hq; simpa using hp q (by simp [hq]))
      have hpl := hp p (by simp)
      refine ⟨z, ?_, by simpa using h2, ?_, ?_⟩
      · unfold scatter
        rw [readNat_eq _ _ (by simp)]
        simp only [Res.ok_bind, List.getElem_cons_zero, List.tail_cons]
        rw [if_pos hpl, h1]
      · rw [List.map_cons, h3, h4 p hnp]
        simp [List.getD_eq_getElem?_getD, hpl]
      · intro q hq
        rw [List.mem_cons, not_or] at hq
        rw [h4 q hq.2]
        simp [List.getD_eq_getElem?_getD, List.getElem?_set_ne (Ne.symm hq.1)]

/-- C50: the transformed problem evaluates the inner problem at the point whose coordinate `i` is `x[P[i]]`. -/
theorem C50_forward (P : List Nat) (x : List ℚ) (hP : P.Perm (List.range x.length)) (best : ℚ)
    (inner : List ℚ → Res ℚ) :
    evaluate P best inner x = (inner (P.map fun p => x.getD p 0)).bind (checked best) := by
  unfold evaluate
  rw [gather_eq x P fun p hp => List.mem_range.mp (hP.mem_iff.mp hp)]
  rfl

/-- C50: the inverse evaluates the inner problem at the point `z` with `z[P[i]] = x[i]`, whatever earlier evaluations
left in the buffer. -/
theorem C50_inverse (P : List Nat) (x buffer : List ℚ) (hP : P.Perm (List.range x.length))
    (hb : buffer.length = x.length) (best : ℚ) (inner : List ℚ → Res ℚ) :
    ∃ z : List ℚ, z.length = x.length ∧ (∀ i (h : i < P.length), z[P[i]]? = x[i]?) ∧
      evaluateInverse P best buffer inner x = (inner z).bind (checked best) := by
  have hlen : P.length = x.length := by rw [hP.length_eq]; simp
  obtain ⟨z, h1, h2, h3, -⟩ := scatter_eq P x buffer hlen (hP.nodup_iff.mpr List.nodup_range)
    (fun p hp => by rw [hb]; exact List.mem_range.mp (hP.mem_iff.mp hp))
  refine ⟨z, by omega, ?_, ?_⟩
  · intro i h
    have hpi : P[i] < z.length := by
      rw [h2, hb]
      exact List.mem_range.mp (hP.mem_iff.mp (List.getElem_mem h))
    have := congrArg (fun l : List ℚ => l[i]?) h3
    simp only [List.getElem?_map, List.getElem?_eq_getElem h, Option.map_some] at this
    rw [← this, List.getD_eq_getElem?_getD, List.getElem?_eq_getElem hpi]
    rfl
  · unfold evaluateInverse
    rw [h1]
    rfl

/-- C50: permuting and then undoing the permutation evaluates the inner problem at the point itself. -/
theorem C50_inverse_of_forward (P : List Nat) (x buffer : List ℚ) (hP : P.Perm (List.range x.length))
    (hb : buffer.length = x.length) (best best' : ℚ) (inner : List ℚ → Res ℚ) :
    evaluateInverse P best' buffer (evaluate P best inner) x =
      ((inner x).bind (checked best)).bind (checked best') := by
  have hlen : P.length = x.length := by rw [hP.length_eq]; simp
  obtain ⟨z, h1, h2, h3, -⟩ := scatter_eq P x buffer hlen (hP.nodup_iff.mpr List.nodup_range)
    (fun p hp => by rw [hb]; exact List.mem_range.mp (hP.mem_iff.mp hp))
  unfold evaluateInverse
  rw [h1]
  simp only [Res.ok_bind]
  rw [C50_forward P z (by rw [h2, hb]; exact hP), h3]

/-- C50: undoing the permutation first and permuting afterwards does, too. -/
theorem C50_forward_of_inverse (P : List Nat) (x buffer : List ℚ) (hP : P.Perm (List.range x.length))
    (hb : buffer.length = x.length) (best best' : ℚ) (inner : List ℚ → Res ℚ) :
    evaluate P best' (evaluateInverse P best buffer inner) x =
      ((inner x).bind (checked best)).bind (checked best') := by
  have hlen : P.length = x.length := by rw [hP.length_eq]; simp
  rw [C50_forward P x hP]
  obtain ⟨z, h1, h2, h3, -⟩ := scatter_eq P (P.map fun p => x.getD p 0) buffer (by simp)
    (hP.nodup_iff.mpr List.nodup_range) (fun p hp => by rw [hb]; exact List.mem_range.mp (hP.mem_iff.mp hp))
  have hz : z = x := by
    apply List.ext_getElem (by omega)
    intro i hi1 hi2
    have hmem : i ∈ P := hP.mem_iff.mpr (List.mem_range.mpr hi2)
    have := List.map_inj_left.mp h3 i hmem
    simpa [List.getD_eq_getElem?_getD, List.getElem?_eq_getElem hi1, List.getElem?_eq_getElem hi2] using this
  unfold evaluateInverse
  rw [h1, hz]
  rfl

example : [2, 0, 1].Perm (List.range [(10 : ℚ), 20, 30].length) ∧
    gather [2, 0, 1] [10, 20, 30] = .ok [30, 10, 20] ∧
    scatter [2, 0, 1] [10, 20, 30] [7, 7, 7] = .ok [20, 30, 10] := by
  refine ⟨by decide, ?_, ?_⟩ <;> decide +kernel

end Permutation
