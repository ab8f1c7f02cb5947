import Verif.Model.Biobj
import Mathlib.Tactic.Linarith
import Mathlib.Tactic.NormNum
import Mathlib.Data.Nat.Find
import Mathlib.Data.Finset.Sort
import Mathlib.Algebra.Order.Floor.Ring

/-!
# Bi-objective problems: C59, C60, C61
-/

namespace Biobj

/-! ### Function numbers -/

namespace Spec

/-- The ten functions of the original suite. -/
def ten : List Nat := [1, 2, 6, 8, 13, 14, 15, 17, 20, 21]

/-- All pairs of an element with itself or a later one, in lexicographic order. -/
def pairs : List Nat → List (Nat × Nat)
  | [] => []
  | a :: as => (a :: as).map (fun b => (a, b)) ++ pairs as

/-- The group of a bbob function: 1-5, 6-9, 10-14, 15-19, 20-24. -/
def group (f : Nat) : Nat := if f ≤ 5 then 1 else if f ≤ 9 then 2 else if f ≤ 14 then 3 else if f ≤ 19 then 4 else 5

end Spec

theorem floor_sqrt {k m : Nat} (h0 : m * (m + 1) ≤ 2 * k) (h1 : 2 * k < (m + 1) * (m + 2)) :
    ⌊(-0.5 : ℝ) + Real.sqrt (0.25 + 2.0 * (k : ℝ))⌋ = m := by
  have h0' : (m : ℝ) * (m + 1) ≤ 2 * k := by exact_mod_cast h0
  have h1' : 2 * (k : ℝ) < (m + 1) * (m + 2) := by exact_mod_cast h1
  rw [Int.floor_eq_iff]
  push_cast
  constructor
  · have : (m : ℝ) + 0.5 ≤ Real.sqrt (0.25 + 2.0 * (k : ℝ)) := by
      apply Real.le_sqrt_of_sq_le
      nlinarith
    linarith
  · have : Real.sqrt (0.25 + 2.0 * (k : ℝ)) < (m : ℝ) + 1.5 := by
      rw [Real.sqrt_lt' (by positivity)]
      nlinarith
    linarith

/-- The largest `m` below `n` with `m (m + 1) ≤ 2 k`. -/
def tri (k : Nat) : Nat → Nat
  | 0 => 0
  | n + 1 => if (n + 1) * (n + 2) ≤ 2 * k then n + 1 else tri k n

theorem tri_bounds : ∀ idx < 55, tri (55 - idx - 1) 10 * (tri (55 - idx - 1) 10 + 1) ≤ 2 * (55 - idx - 1) ∧
    2 * (55 - idx - 1) < (tri (55 - idx - 1) 10 + 1) * (tri (55 - idx - 1) 10 + 2) := by decide +kernel

theorem formula1_eq {idx : Nat} (h : idx < 55) : formula1 idx = 10 - tri (55 - idx - 1) 10 - 1 := by
  unfold formula1
  rw [floor_sqrt (tri_bounds idx h).1 (tri_bounds idx h).2]
  rfl

/-- The formulas without the square root. -/
def functionsC (function : Nat) : Res (Nat × Nat) :=
  if function = 0 then .error
  else
    let idx := function - 1
    if idx < 55 then
      let f1 := 10 - tri (55 - idx - 1) 10 - 1
      (Res.readNat selected f1).bind fun a =>
      (Res.readNat selected (formula2 idx f1)).bind fun b => .ok (a, b)
    else
      match table[idx - 55]? with
      | some (f1, f2) => (Res.readNat all f1).bind fun a => (Res.readNat all f2).bind fun b => .ok (a, b)
      | none => .error

theorem functions_eq (function : Nat) : functions function = functionsC function := by
  unfold functions functionsC
  by_cases h0 : function = 0
  · rw [if_pos h0, if_pos h0]
  · rw [if_neg h0, if_neg h0]
    dsimp only
    by_cases h : function - 1 < 55
    · rw [if_pos h, if_pos h, formula1_eq h]
    · rw [if_neg h, if_neg h]
      generalize table[function - 1 - 55]? = t
      cases t <;> rfl

theorem first55 : ∀ k < 55, functionsC (k + 1) = .ok ((Spec.pairs Spec.ten).getD k (0, 0)) := by decide +kernel

theorem last37 : ∀ k < 37, ∃ p ∈ (table.map fun p => (p.1 + 1, p.2 + 1)), functionsC (k + 56) = .ok p ∧
    p = (table.map fun p => (p.1 + 1, p.2 + 1)).getD k (0, 0) := by decide +kernel

theorem table_facts : ∀ p ∈ (table.map fun p => (p.1 + 1, p.2 + 1)), 1 ≤ p.1 ∧ p.1 < p.2 ∧ p.2 ≤ 24 ∧
    Spec.group p.1 = Spec.group p.2 ∧ p ∉ Spec.pairs Spec.ten := by decide +kernel

theorem injective92 : ∀ k < 92, ∀ k' < 92, functionsC (k + 1) = functionsC (k' + 1) → k = k' := by decide +kernel

theorem numbered : ∀ j ∈ List.range 10, ∀ i ∈ List.range (j + 1), ∃ k ∈ List.range 55,
    functionsC (k + 1) = .ok (Spec.ten.getD i 0, Spec.ten.getD j 0) := by decide +kernel

/-- **C59** (numbers 1 to 55). They denote the pairs (with repetition, first not after second) of the ten selected functions
in lexicographic order; so every such pair has exactly one number. -/
theorem C59_original (k : Nat) (hk : k < 55) :
    ∃ h : k < (Spec.pairs Spec.ten).length, functions (k + 1) = .ok (Spec.pairs Spec.ten)[k] := by
  refine ⟨by have : (Spec.pairs Spec.ten).length = 55 := by decide +kernel
             omega, ?_⟩
  rw [functions_eq, first55 k hk, List.getD_eq_getElem?_getD, List.getElem?_eq_getElem]
  rfl

/-- **C59** (one number each). For all ten functions `a`, `b` at positions `i ≤ j` there is exactly one number from 1 to 55
that denotes them. -/
theorem C59_original_unique (i j : Nat) (hij : i ≤ j) (hj : j < 10) :
    ∃ k, (1 ≤ k ∧ k ≤ 55 ∧ functions k = .ok (Spec.ten.getD i 0, Spec.ten.getD j 0)) ∧
      ∀ k', 1 ≤ k' → k' ≤ 55 → functions k' = .ok (Spec.ten.getD i 0, Spec.ten.getD j 0) → k' = k := by
  obtain ⟨k, hk, h⟩ := numbered j (List.mem_range.mpr hj) i (List.mem_range.mpr (by omega))
  have hk := List.mem_range.mp hk
  refine ⟨k + 1, ⟨by omega, by omega, by rw [functions_eq, h]⟩, fun k' h0 h55 h' => ?_⟩
  have := injective92 (k' - 1) (by omega) k (by omega)
    (by rw [show k' - 1 + 1 = k' by omega, ← functions_eq, h', h])
  omega

/-- **C59** (numbers 56 to 92). They denote pairs of two different functions of one group, in increasing order, that are not
among the first 55. -/
theorem C59_extended (k : Nat) (h56 : 56 ≤ k) (h92 : k ≤ 92) :
    ∃ a b, functions k = .ok (a, b) ∧ 1 ≤ a ∧ a < b ∧ b ≤ 24 ∧ Spec.group a = Spec.group b ∧
      (a, b) ∉ Spec.pairs Spec.ten := by
  obtain ⟨p, hp, h, -⟩ := last37 (k - 56) (by omega)
  rw [show k - 56 + 56 = k by omega] at h
  obtain ⟨h1, h2, h3, h4, h5⟩ := table_facts p hp
  exact ⟨p.1, p.2, by rw [functions_eq, h], h1, h2, h3, h4, h5⟩

/-- **C59** (all numbers). Different numbers from 1 to 92 denote different pairs, and every other number stops the
process. -/
theorem C59_numbers : (∀ k k', 1 ≤ k → k ≤ 92 → 1 ≤ k' → k' ≤ 92 → functions k = functions k' → k = k') ∧
    (∀ k, k = 0 ∨ 92 < k → functions k = .error) := by
  constructor
  · intro k k' h1 h2 h3 h4 h
    rw [functions_eq, functions_eq] at h
    have := injective92 (k - 1) (by omega) (k' - 1) (by omega)
      (by rw [show k - 1 + 1 = k by omega, show k' - 1 + 1 = k' by omega, h])
    omega
  · intro k hk
    rw [functions_eq]
    unfold functionsC
    rcases hk with rfl | hk
    · rfl
    · rw [if_neg (by omega)]
      dsimp only
      rw [if_neg (by omega), List.getElem?_eq_none (by show 37 ≤ _; omega)]

/-! ### Instances -/

namespace Spec

/-- The second instance is appropriate: no check breaks the search, for any of the given dimensions (0 is no dimension), for
any two different bbob functions in their order and any of the ten functions with itself. -/
def Appropriate (breaks : Breaks) (dims : List Nat) (i1 i2 : Nat) : Prop :=
  ∀ d ∈ dims, d ≠ 0 →
    (∀ f1 f2, 1 ≤ f1 → f1 < f2 → f2 ≤ 24 → breaks d f1 i1 f2 i2 = .ok false) ∧
    (∀ f ∈ ten, breaks d f i1 f i2 = .ok false)

/-- No check with the first instance `i1` stops the process. -/
def Checkable (breaks : Breaks) (dims : List Nat) (i1 : Nat) : Prop :=
  ∀ d ∈ dims, d ≠ 0 → ∀ f1 f2 i2, 1 ≤ f1 → f1 ≤ f2 → f2 ≤ 24 → ∃ b, breaks d f1 i1 f2 i2 = .ok b

end Spec

theorem bind_false {r : Res Bool} {s : Res Bool} :
    (r.bind fun brk => if brk then .ok true else s) = .ok false ↔ r = .ok false ∧ s = .ok false := by
  cases r with
  | ok b => cases b <;> simp
  | error => simp
  | assertFail => simp
  | ub => simp

theorem bind_ok {r : Res Bool} {s : Res Bool} (hr : ∃ b, r = .ok b) (hs : ∃ b, s = .ok b) :
    ∃ b, (r.bind fun brk => if brk then .ok true else s) = .ok b := by
  obtain ⟨b, rfl⟩ := hr
  cases b
  · exact hs
  · exact ⟨true, rfl⟩

theorem overDimensions_iff (breaks : Breaks) (f1 i1 f2 i2 : Nat) (dims : List Nat) :
    overDimensions breaks f1 i1 f2 i2 dims = .ok false ↔ ∀ d ∈ dims, d ≠ 0 → breaks d f1 i1 f2 i2 = .ok false := by
  induction dims with
  | nil => simp [overDimensions]
  | cons d ds ih =>
    unfold overDimensions
    by_cases hd : d = 0
    · rw [if_pos hd, ih]; simp [hd]
    · rw [if_neg hd, bind_false, ih]; simp [hd]

theorem overDimensions_ok (breaks : Breaks) (f1 i1 f2 i2 : Nat) (dims : List Nat)
    (h : ∀ d ∈ dims, d ≠ 0 → ∃ b, breaks d f1 i1 f2 i2 = .ok b) :
    ∃ b, overDimensions breaks f1 i1 f2 i2 dims = .ok b := by
  induction dims with
  | nil => exact ⟨false, rfl⟩
  | cons d ds ih =>
    have ih := ih fun e he => h e (by simp [he])
    unfold overDimensions
    by_cases hd : d = 0
    · rw [if_pos hd]; exact ih
    · rw [if_neg hd]; exact bind_ok (h d (by simp) hd) ih

theorem overSecond_iff (breaks : Breaks) (dims : List Nat) (f1 i1 i2 : Nat) (l : List Nat) :
    overSecond breaks dims f1 i1 i2 l = .ok false ↔
      ∀ f2 ∈ l, ∀ d ∈ dims, d ≠ 0 → breaks d f1 i1 f2 i2 = .ok false := by
  induction l with
  | nil => simp [overSecond]
  | cons f fs ih => unfold overSecond; rw [bind_false, ih, overDimensions_iff]; simp

theorem overSecond_ok (breaks : Breaks) (dims : List Nat) (f1 i1 i2 : Nat) (l : List Nat)
    (h : ∀ f2 ∈ l, ∀ d ∈ dims, d ≠ 0 → ∃ b, breaks d f1 i1 f2 i2 = .ok b) :
    ∃ b, overSecond breaks dims f1 i1 i2 l = .ok b := by
  induction l with
  | nil => exact ⟨false, rfl⟩
  | cons f fs ih =>
    unfold overSecond
    exact bind_ok (overDimensions_ok _ _ _ _ _ _ (h f (by simp))) (ih fun g hg => h g (by simp [hg]))

theorem overSelected_iff (breaks : Breaks) (dims : List Nat) (i1 i2 : Nat) (l : List Nat) :
    overSelected breaks dims i1 i2 l = .ok false ↔
      ∀ f ∈ l, ∀ d ∈ dims, d ≠ 0 → breaks d f i1 f i2 = .ok false := by
  induction l with
  | nil => simp [overSelected]
  | cons f fs ih => unfold overSelected; rw [bind_false, ih, overDimensions_iff]; simp

theorem overSelected_ok (breaks : Breaks) (dims : List Nat) (i1 i2 : Nat) (l : List Nat)
    (h : ∀ f ∈ l, ∀ d ∈ dims, d ≠ 0 → ∃ b, breaks d f i1 f i2 = .ok b) :
    ∃ b, overSelected breaks dims i1 i2 l = .ok b := by
  induction l with
  | nil => exact ⟨false, rfl⟩
  | cons f fs ih =>
    unfold overSelected
    exact bind_ok (overDimensions_ok _ _ _ _ _ _ (h f (by simp))) (ih fun g hg => h g (by simp [hg]))

theorem overPairs_iff (breaks : Breaks) (dims : List Nat) (i1 i2 : Nat) (l : List Nat) :
    overPairs breaks dims i1 i2 l = .ok false ↔
      l.Pairwise fun f1 f2 => ∀ d ∈ dims, d ≠ 0 → breaks d f1 i1 f2 i2 = .ok false := by
  induction l with
  | nil => simp [overPairs]
  | cons f fs ih => unfold overPairs; rw [bind_false, ih, overSecond_iff, List.pairwise_cons]

theorem overPairs_ok (breaks : Breaks) (dims : List Nat) (i1 i2 : Nat) (l : List Nat)
    (h : l.Pairwise fun f1 f2 => ∀ d ∈ dims, d ≠ 0 → ∃ b, breaks d f1 i1 f2 i2 = .ok b) :
    ∃ b, overPairs breaks dims i1 i2 l = .ok b := by
  induction l with
  | nil => exact ⟨false, rfl⟩
  | cons f fs ih =>
    rw [List.pairwise_cons] at h
    unfold overPairs
    exact bind_ok (overSecond_ok _ _ _ _ _ _ h.1) (ih h.2)

theorem all_pairwise (R : Nat → Nat → Prop) : all.Pairwise R ↔ ∀ f1 f2, 1 ≤ f1 → f1 < f2 → f2 ≤ 24 → R f1 f2 := by
  rw [List.pairwise_iff_getElem]
  have hlen : all.length = 24 := rfl
  have hget : ∀ i (h : i < all.length), all[i] = i + 1 := by intro i h; simp [all]
  constructor
  · intro h f1 f2 h1 h2 h3
    have := h (f1 - 1) (f2 - 1) (by omega) (by omega) (by omega)
    rw [hget, hget] at this
    rwa [show f1 - 1 + 1 = f1 by omega, show f2 - 1 + 1 = f2 by omega] at this
  · intro h i j hi hj hij
    rw [hget, hget]
    exact h _ _ (by omega) (by omega) (by omega)

theorem appropriate_iff (breaks : Breaks) (dims : List Nat) (i1 i2 : Nat) :
    broken breaks dims i1 i2 = .ok false ↔ Spec.Appropriate breaks dims i1 i2 := by
  unfold broken
  rw [bind_false, overPairs_iff, overSelected_iff, all_pairwise]
  unfold Spec.Appropriate
  constructor
  · rintro ⟨h1, h2⟩ d hd h0
    exact ⟨fun f1 f2 a b c => h1 f1 f2 a b c d hd h0, fun f hf => h2 f hf d hd h0⟩
  · intro h
    exact ⟨fun f1 f2 a b c d hd h0 => (h d hd h0).1 f1 f2 a b c, fun f hf d hd h0 => (h d hd h0).2 f hf⟩

theorem broken_ok (breaks : Breaks) (dims : List Nat) (i1 : Nat) (h : Spec.Checkable breaks dims i1) (i2 : Nat) :
    ∃ b, broken breaks dims i1 i2 = .ok b := by
  refine bind_ok (overPairs_ok _ _ _ _ _ ((all_pairwise _).mpr ?_)) (overSelected_ok _ _ _ _ _ ?_)
  · intro f1 f2 a b c d hd h0
    exact h d hd h0 f1 f2 i2 a b.le c
  · intro f hf d hd h0
    have : 1 ≤ f ∧ f ≤ 24 := by
      revert f
      decide +kernel
    exact h d hd h0 f f i2 this.1 le_rfl this.2

theorem search_ok (breaks : Breaks) (dims : List Nat) (inst i1 : Nat) (rows : List (Nat × Nat × Nat))
    (hc : Spec.Checkable breaks dims i1) :
    ∀ fuel tries,
    (∀ t, t < fuel → (∀ s, s < t → ¬ Spec.Appropriate breaks dims i1 (i1 + (tries + s + 1))) →
      Spec.Appropriate breaks dims i1 (i1 + (tries + t + 1)) →
      search breaks dims inst i1 fuel tries rows =
        .ok (i1 + (tries + t + 1), save (inst, i1, i1 + (tries + t + 1)) rows)) ∧
    ((∀ t, t < fuel → ¬ Spec.Appropriate breaks dims i1 (i1 + (tries + t + 1))) →
      search breaks dims inst i1 fuel tries rows = .error)
  | 0, tries => ⟨fun t ht => absurd ht (by omega), fun _ => rfl⟩
  | fuel + 1, tries => by
    obtain ⟨ih1, ih2⟩ := search_ok breaks dims inst i1 rows hc fuel (tries + 1)
    have hiff := appropriate_iff breaks dims i1 (i1 + (tries + 1))
    have htrue : ¬ Spec.Appropriate breaks dims i1 (i1 + (tries + 1)) →
        broken breaks dims i1 (i1 + (tries + 1)) = .ok true := by
      intro h
      obtain ⟨b, hb⟩ := broken_ok breaks dims i1 hc (i1 + (tries + 1))
      cases b
      · exact absurd (hiff.mp hb) h
      · exact hb
    constructor
    · intro t ht hbefore happ
      unfold search
      dsimp only
      cases t with
      | zero =>
        rw [Nat.add_zero] at happ ⊢
        rw [hiff.mpr happ]
        rfl
      | succ t =>
        rw [htrue (hbefore 0 (by omega)), Res.ok_bind, if_pos rfl]
        have e : tries + (t + 1) + 1 = tries + 1 + t + 1 := by omega
        rw [e]
        rw [e] at happ
        exact ih1 t (by omega) (fun s hs => by
          have := hbefore (s + 1) (by omega)
          rwa [show tries + (s + 1) + 1 = tries + 1 + s + 1 by omega] at this) happ
    · intro hnone
      unfold search
      dsimp only
      rw [htrue (hnone 0 (by omega)), Res.ok_bind, if_pos rfl]
      exact ih2 fun t ht => by
        have := hnone (t + 1) (by omega)
        rwa [show tries + (t + 1) + 1 = tries + 1 + t + 1 by omega] at this

theorem search_found (breaks : Breaks) (dims : List Nat) (inst i1 : Nat) (rows : List (Nat × Nat × Nat)) (i2 : Nat)
    (l : List (Nat × Nat × Nat)) : ∀ fuel tries, search breaks dims inst i1 fuel tries rows = .ok (i2, l) →
    i1 + tries < i2 ∧ i2 ≤ i1 + tries + fuel ∧ Spec.Appropriate breaks dims i1 i2 ∧
      ∀ i, i1 + tries < i → i < i2 → ¬ Spec.Appropriate breaks dims i1 i
  | 0, tries, h => by simp [search] at h
  | fuel + 1, tries, h => by
    unfold search at h
    dsimp only at h
    cases hb : broken breaks dims i1 (i1 + (tries + 1)) with
    | ok b =>
      rw [hb, Res.ok_bind] at h
      cases b
      · rw [if_neg (by simp)] at h
        have := Prod.mk.inj (Res.ok.inj h)
        refine ⟨by omega, by omega, ?_, fun i h1 h2 => by omega⟩
        rw [← this.1]
        exact (appropriate_iff _ _ _ _).mp hb
      · rw [if_pos rfl] at h
        obtain ⟨a, b, c, d⟩ := search_found breaks dims inst i1 rows i2 l fuel (tries + 1) h
        refine ⟨by omega, by omega, c, fun i h1 h2 => ?_⟩
        by_cases hi : i = i1 + (tries + 1)
        · rw [hi, ← appropriate_iff, hb]
          simp
        · exact d i (by omega) h2
    | error => rw [hb] at h; simp at h
    | assertFail => rw [hb] at h; simp at h
    | ub => rw [hb] at h; simp at h

theorem known_none (inst : Nat) (hi : inst = 0 ∨ 15 < inst) : known.find? (·.1 = inst) = none := by
  rw [List.find?_eq_none]
  have : ∀ r ∈ known, 1 ≤ r.1 ∧ r.1 ≤ 15 := by decide +kernel
  intro r hr
  have := this r hr
  simp only [decide_eq_true_eq]
  omega

/-- **C60** For every instance number and every outcome of the checks (none of which stops the process), as the suites call it
(with a null pointer and at least one instance):

- instances 1 to 15 have the two tabulated instances;
- for any other instance `k` the first problem has the instance `2 k + 1` and the second has the smallest larger number,
  at most 1000 larger, that is appropriate;
- if there is none, the process stops, and only then. -/
theorem C60_instances (breaks : Breaks) (dims : List Nat) (count inst : Nat) (hc : 0 < count) :
    (∀ r ∈ known, r.1 = inst → instances breaks dims count inst .null = .ok (r.2, .null)) ∧
    (inst = 0 ∨ 15 < inst → Spec.Checkable breaks dims (2 * inst + 1) →
      (∀ i2, 2 * inst + 1 < i2 → i2 ≤ 2 * inst + 1 + 1000 → Spec.Appropriate breaks dims (2 * inst + 1) i2 →
        (∀ i, 2 * inst + 1 < i → i < i2 → ¬ Spec.Appropriate breaks dims (2 * inst + 1) i) →
        ∃ d, instances breaks dims count inst .null = .ok ((2 * inst + 1, i2), d)) ∧
      ((∀ i2, 2 * inst + 1 < i2 → i2 ≤ 2 * inst + 1 + 1000 → ¬ Spec.Appropriate breaks dims (2 * inst + 1) i2) →
        instances breaks dims count inst .null = .error)) := by
  constructor
  · intro r hr hri
    subst hri
    have hfind : known.find? (·.1 = r.1) = some r := by
      revert r
      decide +kernel
    unfold instances
    rw [hfind]
  · intro hi hch
    obtain ⟨h1, h2⟩ := search_ok breaks dims inst (2 * inst + 1) (List.replicate count (0, 0, 0)) hch 1000 0
    unfold instances
    rw [known_none inst hi]
    dsimp only
    rw [if_neg (by omega)]
    constructor
    · intro i2 hlt hle happ hmin
      have e : i2 = 2 * inst + 1 + (0 + (i2 - (2 * inst + 1) - 1) + 1) := by omega
      have := h1 (i2 - (2 * inst + 1) - 1) (by omega) (fun s hs => hmin _ (by omega) (by omega)) (by rwa [← e])
      rw [← e] at this
      rw [this, Res.ok_bind]
      exact ⟨_, rfl⟩
    · intro hnone
      rw [h2 fun t ht => hnone _ (by omega) (by omega)]
      rfl

/-- **C60** (also if checks stop the process). Whenever a pair of instances is delivered for an instance that is not tabulated,
the second is appropriate for the first, and no smaller one is. -/
theorem C60_delivered (breaks : Breaks) (dims : List Nat) (count inst : Nat) (hi : inst = 0 ∨ 15 < inst) (i1 i2 : Nat)
    (d : Data) (h : instances breaks dims count inst .null = .ok ((i1, i2), d)) :
    i1 = 2 * inst + 1 ∧ i1 < i2 ∧ i2 ≤ i1 + 1000 ∧ Spec.Appropriate breaks dims i1 i2 ∧
      ∀ i, i1 < i → i < i2 → ¬ Spec.Appropriate breaks dims i1 i := by
  unfold instances at h
  rw [known_none inst hi] at h
  dsimp only at h
  split_ifs at h
  cases hs : search breaks dims inst (2 * inst + 1) 1000 0 (List.replicate count (0, 0, 0)) with
  | ok a =>
    obtain ⟨j, l⟩ := a
    rw [hs, Res.ok_bind] at h
    have := Prod.mk.inj (Prod.mk.inj (Res.ok.inj h)).1
    obtain ⟨a, b, c, d⟩ := search_found _ _ _ _ _ _ _ _ _ hs
    rw [← this.1, ← this.2]
    exact ⟨rfl, by omega, by omega, c, fun i h1 h2 => d i (by omega) h2⟩
  | error => rw [hs] at h; simp at h
  | assertFail => rw [hs] at h; simp at h
  | ub => rw [hs] at h; simp at h

/-- The case of instance 16 where only the second candidate (35) is appropriate. -/
example : instances (fun _ _ _ _ i2 => .ok (i2 = 34)) [2, 3] 15 16 .null = .ok ((33, 35), .freed) := by decide +kernel

theorem save_rows (row : Nat × Nat × Nat) (filled : List (Nat × Nat × Nat)) (hf : ∀ r ∈ filled, r.1 ≠ 0) (k : Nat) :
    save row (filled ++ List.replicate (k + 1) (0, 0, 0)) = (filled ++ [row]) ++ List.replicate k (0, 0, 0) := by
  induction filled with
  | nil => simp [save, List.replicate_succ]
  | cons r rs ih =>
    rw [List.cons_append, save, if_neg (hf r (by simp)), ih (fun r' hr' => hf r' (by simp [hr']))]
    simp

theorem findRow_rows (inst : Nat) (hi : inst ≠ 0) (filled : List (Nat × Nat × Nat)) (hf : ∀ r ∈ filled, r.1 ≠ 0) (k : Nat) :
    findRow inst (filled ++ List.replicate k (0, 0, 0)) = (filled.find? (·.1 = inst)).map (·.2) := by
  induction filled with
  | nil => cases k <;> simp [findRow, List.replicate_succ]
  | cons r rs ih =>
    rw [List.cons_append, findRow, if_neg (hf r (by simp)), ih (fun r' hr' => hf r' (by simp [hr']))]
    by_cases h : r.1 = inst
    · rw [if_pos h, List.find?_cons_of_pos (by simpa using h)]; rfl
    · rw [if_neg h, List.find?_cons_of_neg (by simpa using h)]

theorem search_saves (breaks : Breaks) (dims : List Nat) (inst i1 : Nat) : ∀ (fuel tries : Nat) (l : List (Nat × Nat × Nat))
    (i2 : Nat) (l' : List (Nat × Nat × Nat)), search breaks dims inst i1 fuel tries l = .ok (i2, l') →
    l' = save (inst, i1, i2) l := by
  intro fuel
  induction fuel with
  | zero => intro tries l i2 l' h; cases h
  | succ fuel ih =>
    intro tries l i2 l' h
    unfold search at h
    dsimp only at h
    cases hb : broken breaks dims i1 (i1 + (tries + 1)) with
    | ok b =>
      rw [hb, Res.ok_bind] at h
      split_ifs at h
      · exact ih _ _ _ _ h
      · injection h with h
        obtain ⟨rfl, rfl⟩ := Prod.mk.inj h
        rfl
    | _ => rw [hb] at h; cases h

/-- **C60** (a caller that passes a table). With a table of saved instances that has a free row, a call for an instance that is not
tabulated leaves the rows saved before as they are; if the instance is among them, its saved pair is delivered, and otherwise
the new pair is saved in the next row. Any later call for that instance, whatever the consistency relation is, delivers
the same pair again. -/
theorem C60_saved (breaks : Breaks) (dims : List Nat) (count inst : Nat) (hi : 15 < inst)
    (filled : List (Nat × Nat × Nat)) (hf : ∀ r ∈ filled, r.1 ≠ 0) (k : Nat) (p : Nat × Nat) (d : Data)
    (h : instances breaks dims count inst (.rows (filled ++ List.replicate (k + 1) (0, 0, 0))) = .ok (p, d)) :
    (((inst, p) ∈ filled ∧ d = .rows (filled ++ List.replicate (k + 1) (0, 0, 0))) ∨
      ((∀ q, (inst, q) ∉ filled) ∧ d = .rows (filled ++ [(inst, p)] ++ List.replicate k (0, 0, 0)))) ∧
    ∀ breaks' dims' count', instances breaks' dims' count' inst d = .ok (p, d) := by
  have h0 : inst ≠ 0 := by omega
  unfold instances at h
  rw [known_none inst (Or.inr hi)] at h
  dsimp only at h
  rw [findRow_rows inst h0 filled hf] at h
  cases hfind : filled.find? (·.1 = inst) with
  | some r =>
    rw [hfind] at h
    injection h with h
    obtain ⟨rfl, rfl⟩ := Prod.mk.inj h
    have hr : r.1 = inst := by simpa using List.find?_some hfind
    refine ⟨Or.inl ⟨?_, rfl⟩, ?_⟩
    · have := List.mem_of_find?_eq_some hfind
      rw [← hr]; exact this
    · intro breaks' dims' count'
      unfold instances
      rw [known_none inst (Or.inr hi)]
      dsimp only
      rw [findRow_rows inst h0 filled hf, hfind]
      rfl
  | none =>
    rw [hfind] at h
    dsimp only [Option.map_none] at h
    cases hs : search breaks dims inst (2 * inst + 1) 1000 0 (filled ++ List.replicate (k + 1) (0, 0, 0)) with
    | ok a =>
      obtain ⟨i2, l⟩ := a
      rw [hs, Res.ok_bind] at h
      injection h with h
      obtain ⟨rfl, rfl⟩ := Prod.mk.inj h
      have hl := search_saves _ _ _ _ _ _ _ _ _ hs
      rw [save_rows _ filled hf] at hl
      subst hl
      have hnone := List.find?_eq_none.mp hfind
      refine ⟨Or.inr ⟨fun q hq => hnone _ hq (by simp), rfl⟩, ?_⟩
      intro breaks' dims' count'
      unfold instances
      rw [known_none inst (Or.inr hi)]
      dsimp only
      rw [findRow_rows inst h0 _ (by
        intro r hr
        rcases List.mem_append.mp hr with hr | hr
        · exact hf r hr
        · rw [List.mem_singleton] at hr; subst hr; exact h0)]
      rw [List.find?_append, hfind]
      simp
    | _ => rw [hs] at h; cases h

/-- Instance 16 is searched and saved after instance 17, and then found. -/
example :
    instances (fun _ _ _ _ i2 => .ok (i2 = 34)) [2, 3] 15 16 (.rows ([(17, 35, 36)] ++ List.replicate (1 + 1) (0, 0, 0))) =
      .ok ((33, 35), .rows [(17, 35, 36), (16, 33, 35), (0, 0, 0)]) ∧
    instances (fun _ _ _ _ _ => .ok true) [2, 3] 15 16 (.rows [(17, 35, 36), (16, 33, 35), (0, 0, 0)]) =
      .ok ((33, 35), .rows [(17, 35, 36), (16, 33, 35), (0, 0, 0)]) := by decide +kernel

/-- All later uses of the pointer that `coco_get_biobj_problem` leaves behind are undefined for new instances: a second call
with the same variable uses freed memory. The suites avoid it because their variable is local. -/
theorem C60_second_call_undefined (breaks : Breaks) (dims : List Nat) (count inst inst' : Nat) (hi : 15 < inst)
    (hi' : 15 < inst') (r : Nat × Nat) (d : Data) (h : instances breaks dims count inst .null = .ok (r, d)) :
    instances breaks dims count inst' d = .ub := by
  unfold instances at h
  rw [known_none inst (Or.inr hi)] at h
  dsimp only at h
  split_ifs at h
  generalize search breaks dims inst (2 * inst + 1) 1000 0 (List.replicate count (0, 0, 0)) = s at h
  cases s with
  | ok a =>
    rw [Res.ok_bind] at h
    injection h with h
    have hd : d = .freed := by rw [← (Prod.mk.inj h).2]
    subst hd
    unfold instances
    rw [known_none inst' (Or.inr hi')]
  | error => exact absurd h (by simp)
  | assertFail => exact absurd h (by simp)
  | ub => exact absurd h (by simp)

/-! ### Best known hypervolume values -/

theorem hypLoop_found {V : Type} (key : String) (v w : V) (pre post : List (String × V))
    (h : ∀ l ∈ pre, l.1 ≠ key) : hypLoop key (pre ++ (key, v) :: post) w = (v, false) := by
  induction pre generalizing w with
  | nil => simp [hypLoop]
  | cons l pre ih =>
    obtain ⟨k, u⟩ := l
    have hk : k ≠ key := h (k, u) (by simp)
    show (if k = key then _ else _) = _
    rw [if_neg hk]
    exact ih u fun l hl => h l (by simp [hl])

theorem hypLoop_missing {V : Type} (key : String) (w : V) (lines : List (String × V))
    (h : ∀ l ∈ lines, l.1 ≠ key) : hypLoop key lines w = ((lines.getLast?.map Prod.snd).getD w, true) := by
  induction lines generalizing w with
  | nil => rfl
  | cons l lines ih =>
    obtain ⟨k, u⟩ := l
    have hk : k ≠ key := h (k, u) (by simp)
    show (if k = key then _ else _) = _
    rw [if_neg hk, ih u fun l hl => h l (by simp [hl])]
    cases lines with
    | nil => rfl
    | cons l' ls => simp [List.getLast?_eq_some_getLast]

/-- **C61** For every table, default and key: a suite with known optima delivers the value in the first line with the key and
gives no warning; for a key that is not in the table it gives the warning and delivers the value of the LAST line of the table
(although the warning names the default value). So the fallback is the default value exactly for a table that is empty or
ends with it, as the shipped table does (`/repo/src/suite_biobj_best_values_hyp.c`, last line, 1.0). Without known optima the
default value is delivered. -/
theorem C61_best_value {V : Type} (default_ : V) (lines : List (String × V)) (key : String) :
    (∀ pre post v, lines = pre ++ (key, v) :: post → (∀ l ∈ pre, l.1 ≠ key) →
      bestHyp default_ lines true key = (v, false)) ∧
    ((∀ l ∈ lines, l.1 ≠ key) →
      (bestHyp default_ lines true key = (default_, true) ↔
        lines = [] ∨ ∃ init k, lines = init ++ [(k, default_)])) ∧
    bestHyp default_ lines false key = (default_, true) := by
  refine ⟨?_, ?_, rfl⟩
  · rintro pre post v rfl h
    exact hypLoop_found key v default_ pre post h
  · intro h
    show hypLoop key lines default_ = _ ↔ _
    rw [hypLoop_missing key default_ lines h]
    rcases List.eq_nil_or_concat lines with rfl | ⟨init, ⟨k, v⟩, rfl⟩
    · simp
    · rw [List.concat_eq_append]
      have hl : ((init ++ [(k, v)]).getLast?.map Prod.snd).getD default_ = v := by simp
      rw [hl]
      constructor
      · intro hv
        exact Or.inr ⟨init, k, by rw [(Prod.mk.inj hv).1]⟩
      · rintro (h' | ⟨init', k', h'⟩)
        · simp at h'
        · have := (List.append_inj' h' rfl).2
          simp at this
          rw [this.2]

/-- The value of the last line is delivered for an unknown key. -/
theorem C61_not_default : bestHyp (10 : Nat) [("bbob-biobj_f01_i01_d02", 7), ("bbob-biobj_f01_i01_d03", 8)] true
    "bbob-biobj_f01_i16_d02" = (8, true) := by decide +kernel

end Biobj
