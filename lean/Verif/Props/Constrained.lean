import Verif.Model.Constrained
import Mathlib.Tactic.Linarith
import Mathlib.Tactic.FieldSimp
import Mathlib.Tactic.Ring
import Mathlib.Tactic.IntervalCases
import Mathlib.Analysis.SpecialFunctions.Sqrt

/-!
# Constrained problems: C62, C63, C64, C65
-/

noncomputable section

namespace Constrained
open Classical
open Transform (Vec)

variable {n : Nat}

/-! ### Vectors -/

theorem phi_le (t : ℝ) : (if t > 1 / 10 ^ 11 ∨ t < 0 then t else 0) ≤ t := by
  by_cases h : t > 1 / 10 ^ 11 ∨ t < 0
  · rw [if_pos h]
  · rw [if_neg h]
    push Not at h
    exact h.2

theorem le_phi (t : ℝ) : t - 1 / 10 ^ 11 ≤ (if t > 1 / 10 ^ 11 ∨ t < 0 then t else 0) := by
  by_cases h : t > 1 / 10 ^ 11 ∨ t < 0
  · rw [if_pos h]
    have : (0 : ℝ) < 1 / 10 ^ 11 := by norm_num
    linarith
  · rw [if_neg h]
    push Not at h
    linarith [h.1]

theorem sumVariables_le (x : Vec n) : sumVariables x ≤ ∑ i, x i := Finset.sum_le_sum fun i _ => phi_le (x i)

theorem le_sumVariables (x : Vec n) : ∑ i, x i - n * (1 / 10 ^ 11) ≤ sumVariables x := by
  have : ∑ i, x i - n * (1 / 10 ^ 11) = ∑ i, (x i - 1 / 10 ^ 11) := by
    rw [Finset.sum_sub_distrib, Finset.sum_const, Finset.card_univ, Fintype.card_fin, nsmul_eq_mul]
  rw [this]
  exact Finset.sum_le_sum fun i _ => le_phi (x i)

theorem sumVariables_eq (x : Vec n) (h : ∀ i, x i ≤ 0 ∨ 1 / 10 ^ 11 < x i) : sumVariables x = ∑ i, x i := by
  apply Finset.sum_congr rfl
  intro i _
  rcases h i with h | h
  · by_cases h0 : x i < 0
    · rw [if_pos (Or.inr h0)]
    · have : x i = 0 := le_antisymm h (not_lt.mp h0)
      rw [this]
      simp
  · rw [if_pos (Or.inl h)]

theorem norm_nonneg (x : Vec n) : 0 ≤ norm x := Real.sqrt_nonneg _

theorem sum_sq_nonneg (x : Vec n) : 0 ≤ ∑ i, x i * x i := Finset.sum_nonneg fun i _ => mul_self_nonneg (x i)

theorem norm_mul_self (x : Vec n) : norm x * norm x = ∑ i, x i * x i := Real.mul_self_sqrt (sum_sq_nonneg x)

theorem norm_eq_zero (x : Vec n) : norm x = 0 ↔ x = 0 := by
  rw [show norm x = Real.sqrt (∑ i, x i * x i) from rfl, Real.sqrt_eq_zero (sum_sq_nonneg x),
    Finset.sum_eq_zero_iff_of_nonneg fun i _ => mul_self_nonneg (x i)]
  constructor
  · intro h
    funext i
    exact mul_self_eq_zero.mp (h i (Finset.mem_univ i))
  · rintro rfl i _
    simp

theorem norm_pos {x : Vec n} (h : x ≠ 0) : 0 < norm x :=
  lt_of_le_of_ne (norm_nonneg x) fun h' => h ((norm_eq_zero x).mp h'.symm)

theorem norm_neg (x : Vec n) : norm (fun i => x i * -1) = norm x := by
  unfold norm
  congr 1
  exact Finset.sum_congr rfl fun i _ => by ring

theorem norm_smul (r : ℝ) (x : Vec n) (hr : 0 ≤ r) : norm (fun i => x i * r) = r * norm x := by
  unfold norm
  rw [show (∑ i, x i * r * (x i * r)) = (r * r) * ∑ i, x i * x i by
    rw [Finset.mul_sum]; exact Finset.sum_congr rfl fun i _ => by ring]
  rw [Real.sqrt_mul (mul_self_nonneg r), Real.sqrt_mul_self hr]

/-! ### Specification -/

namespace Spec

/-- The random numbers are what the generators deliver: uniform numbers from 0 to 1 and no zero vectors; the direction is
not zero and there is at least one active constraint. -/
structure Valid (P : Params n) : Prop where
  fd : P.fd ≠ 0
  active : 0 < P.active
  u1 : ∀ k, 0 ≤ P.u1 k ∧ P.u1 k ≤ 1
  u2 : ∀ k, 0 ≤ P.u2 k ∧ P.u2 k ≤ 1
  normals : ∀ k, P.normals k ≠ 0

/-- The random gradient of constraint number `k`. -/
def random (P : Params n) (k : Nat) : Vec n := fun i =>
  (100 * (10 : ℝ) ^ (P.u1 0)) * P.normals k i * (100 : ℝ) ^ (P.own k) / Real.sqrt n

/-- The gradient against the feasible direction, with the length for constraint number `k`. -/
def against (P : Params n) (k : Nat) : Vec n := fun i =>
  -(P.fd i * ((100 * (10 : ℝ) ^ (P.u1 0)) * (100 : ℝ) ^ (P.own k) / Constrained.norm P.fd))

/-- The gradient, turned if the feasible direction does not satisfy the constraint. -/
def oriented (P : Params n) (g : Vec n) : Vec n :=
  if 0 < sumVariables (fun i => g i * P.fd i) then fun i => -g i else g

/-- The gradient of the active constraint number `k` (from 1): one of them, depending on the instance, is against the feasible
direction, the others are random. -/
def activeGradient (P : Params n) (k : Nat) : Vec n :=
  if (k - 1 + P.instance_) % P.active = 0 then against P k else oriented P (random P k)

/-- No product that is added up lies in the interval in which it is neglected. -/
def Away (P : Params n) : Prop := ∀ k i, random P k i * P.fd i = 0 ∨ 1 / 10 ^ 11 < |random P k i * P.fd i|

/-- Karush-Kuhn-Tucker condition at the origin for an objective with the gradient `p` (up to a positive factor): with
multipliers that are not negative and vanish for the shifted (inactive) constraints, the weighted gradients of the constraints
add up to minus `p`. -/
def KKT (p : Vec n) (cs : List (Constraint n)) : Prop :=
  ∃ m : Fin cs.length → ℝ, (∀ k, 0 ≤ m k) ∧ (∀ k, cs[k].shift ≠ 0 → m k = 0) ∧
    ∀ j, p j + ∑ k, m k * cs[k].gradient j = 0

end Spec

/-! ### One constraint -/

theorem factor1_pos (P : Params n) : 0 < factor1 P := by
  unfold factor1
  positivity

theorem dim_pos {P : Params n} (h : Spec.Valid P) : 0 < n := by
  rcases Nat.eq_zero_or_pos n with rfl | h0
  · exact absurd (funext fun i => i.elim0) h.fd
  · exact h0

theorem random_ne_zero {P : Params n} (h : Spec.Valid P) (k : Nat) : Spec.random P k ≠ 0 := by
  intro h0
  apply h.normals k
  funext i
  have := congrFun h0 i
  have hn : (0 : ℝ) < Real.sqrt n := Real.sqrt_pos.mpr (by exact_mod_cast dim_pos h)
  have h1 : (0 : ℝ) < 100 * (10 : ℝ) ^ (P.u1 0) := by positivity
  have h2 : (0 : ℝ) < (100 : ℝ) ^ (P.own k) := by positivity
  simp only [Spec.random, Pi.zero_apply] at this ⊢
  rw [div_eq_zero_iff] at this
  rcases this with this | this
  · rcases mul_eq_zero.mp this with this | this
    · rcases mul_eq_zero.mp this with this | this
      · exact absurd this h1.ne'
      · exact this
    · exact absurd this h2.ne'
  · exact absurd this hn.ne'

theorem against_ne_zero {P : Params n} (h : Spec.Valid P) (k : Nat) : Spec.against P k ≠ 0 := by
  intro h0
  apply h.fd
  funext i
  have := congrFun h0 i
  have h1 : (0 : ℝ) < (100 * (10 : ℝ) ^ (P.u1 0)) * (100 : ℝ) ^ (P.own k) / Constrained.norm P.fd :=
    div_pos (by positivity) (norm_pos h.fd)
  simp only [Spec.against, Pi.zero_apply, neg_eq_zero] at this ⊢
  rcases mul_eq_zero.mp this with this | this
  · exact this
  · exact absurd this h1.ne'

/-- What the construction guarantees for each constraint. -/
structure Good (P : Params n) (c : Constraint n) : Prop where
  norm_pos : 0 < c.norm
  norm_eq : norm c.gradient = c.norm
  shift : c.shift = 0 ∨ 0.01 ≤ c.shift
  feasible : value c P.fd ≤ 0

theorem value_active (c : Constraint n) (h : c.shift = 0) (x : Vec n) :
    value c x = sumVariables fun i => c.gradient i * x i := by
  unfold value
  rw [h]
  congr 1
  funext i
  ring

theorem value_le (c : Constraint n) (x : Vec n) :
    value c x ≤ dot c.gradient x - c.shift / c.norm * (norm c.gradient * norm c.gradient) := by
  refine (sumVariables_le _).trans (le_of_eq ?_)
  rw [norm_mul_self, Finset.mul_sum, show dot c.gradient x = ∑ i, c.gradient i * x i from rfl,
    ← Finset.sum_sub_distrib]
  exact Finset.sum_congr rfl fun i _ => by ring

theorem guarantee_feasible (c : Constraint n) (fd : Vec n) (h0 : 0 < c.norm) (hs : 0 ≤ c.shift) :
    value (guarantee c fd) fd ≤ 0 := by
  unfold guarantee
  by_cases h : value c fd > 0
  · rw [if_pos h]
    have h1 := value_le c fd
    have h2 := value_le { c with gradient := fun i => c.gradient i * -1 } fd
    have hq : 0 ≤ c.shift / c.norm * (norm c.gradient * norm c.gradient) :=
      mul_nonneg (div_nonneg hs h0.le) (mul_self_nonneg _)
    have hd : dot (fun i => c.gradient i * -1) fd = -dot c.gradient fd := by
      unfold dot
      rw [← Finset.sum_neg_distrib]
      exact Finset.sum_congr rfl fun i _ => by ring
    dsimp only at h2
    rw [norm_neg, hd] at h2
    linarith
  · rw [if_neg h]
    exact not_lt.mp h

theorem guarantee_gradient (c : Constraint n) (fd : Vec n) :
    (guarantee c fd).gradient = c.gradient ∨ (guarantee c fd).gradient = fun i => -c.gradient i := by
  unfold guarantee
  by_cases h : value c fd > 0
  · rw [if_pos h]
    exact Or.inr (funext fun i => by ring)
  · rw [if_neg h]
    exact Or.inl rfl

theorem guarantee_shift (c : Constraint n) (fd : Vec n) : (guarantee c fd).shift = c.shift := by
  unfold guarantee
  split_ifs <;> rfl

theorem guarantee_norm (c : Constraint n) (fd : Vec n) : (guarantee c fd).norm = c.norm := by
  unfold guarantee
  split_ifs <;> rfl

theorem guarantee_norm_gradient (c : Constraint n) (fd : Vec n) : norm (guarantee c fd).gradient = norm c.gradient := by
  unfold guarantee
  by_cases h : value c fd > 0
  · rw [if_pos h]
    exact norm_neg _
  · rw [if_neg h]

theorem guarantee_active (P : Params n) (c : Constraint n) (h : c.shift = 0) :
    (guarantee c P.fd).gradient = Spec.oriented P c.gradient := by
  unfold guarantee Spec.oriented
  rw [value_active c h]
  by_cases h : 0 < sumVariables (fun i => c.gradient i * P.fd i)
  · rw [if_pos h, if_pos h]
    funext i
    ring
  · rw [if_neg h, if_neg h]

/-- The raw gradient before a constraint is turned. -/
theorem single_ok {P : Params n} (h : Spec.Valid P) (k : Nat) (against_ : Bool) (shift : ℝ)
    (hs : shift = 0 ∨ 0.01 ≤ shift) :
    ∃ c, single P k (if against_ then some (gradientC1 P) else none) shift = .ok c ∧ Good P c ∧ c.shift = shift ∧
      (c.gradient = (if against_ then Spec.against P k else Spec.random P k) ∨
        c.gradient = fun i => -(if against_ then Spec.against P k else Spec.random P k) i) ∧
      (shift = 0 → c.gradient = Spec.oriented P (if against_ then Spec.against P k else Spec.random P k)) := by
  have hs0 : 0 ≤ shift := by rcases hs with hs | hs <;> linarith
  have key : ∀ g : Vec n, g ≠ 0 →
      ∃ c, ((linearTransform g shift).bind fun c => .ok (guarantee c P.fd)) = .ok c ∧ Good P c ∧ c.shift = shift ∧
        (c.gradient = g ∨ c.gradient = fun i => -g i) ∧ (shift = 0 → c.gradient = Spec.oriented P g) := by
    intro g hg
    unfold linearTransform
    rw [if_neg (not_le.mpr (norm_pos hg)), Res.ok_bind]
    refine ⟨_, rfl, ⟨?_, ?_, ?_, ?_⟩, guarantee_shift _ _, guarantee_gradient _ _, fun h0 => ?_⟩
    · rw [guarantee_norm]; exact norm_pos hg
    · rw [guarantee_norm, guarantee_norm_gradient]
    · rw [guarantee_shift]; exact hs
    · exact guarantee_feasible _ _ (norm_pos hg) hs0
    · exact guarantee_active P _ h0
  cases against_
  · exact key (Spec.random P k) (random_ne_zero h k)
  · have e : scale (gradientC1 P) (factor1 P * (100 : ℝ) ^ (P.own k)) (norm (gradientC1 P)) = Spec.against P k := by
      have hn : norm (gradientC1 P) = norm P.fd := by
        rw [← norm_neg P.fd]
        congr 1
        funext i
        unfold gradientC1
        ring
      unfold scale
      rw [hn, if_pos (norm_pos h.fd).ne']
      funext i
      unfold gradientC1 Spec.against factor1
      ring
    have := key (Spec.against P k) (against_ne_zero h k)
    unfold single
    simp only [if_true]
    rw [e]
    exact this

theorem against_feasible {P : Params n} (k : Nat) : Spec.oriented P (Spec.against P k) = Spec.against P k := by
  unfold Spec.oriented
  rw [if_neg]
  apply not_lt.mpr
  refine (sumVariables_le _).trans ?_
  apply Finset.sum_nonpos
  intro i _
  have : 0 ≤ (100 * (10 : ℝ) ^ (P.u1 0)) * (100 : ℝ) ^ (P.own k) / Constrained.norm P.fd :=
    div_nonneg (by positivity) (norm_nonneg _)
  unfold Spec.against
  have := mul_nonneg this (mul_self_nonneg (P.fd i))
  nlinarith

/-! ### The loop -/

/-- The gradient at a position of a list. -/
def grad (cs : List (Constraint n)) (k : Nat) : Vec n := ((cs[k]?).map (·.gradient)).getD 0

structure Inv (P : Params n) (s : State n) : Prop where
  le : s.i ≤ P.active
  left : s.left ≤ inactive P
  len : s.cs.length = s.i + (inactive P - s.left)
  actives : (s.cs.filter fun c => c.shift = 0).map (·.gradient) =
    (List.range s.i).map fun k => Spec.activeGradient P (k + 1)
  good : ∀ c ∈ s.cs, Good P c
  inactives : ∀ c ∈ s.cs, c.shift ≠ 0 → ∃ k, 1 ≤ k ∧ k ≤ P.active ∧
    (c.gradient = Spec.random P k ∨ c.gradient = fun i => -Spec.random P k i)
  first1 : ∀ k, s.first = some k → ∃ c r, s.cs[k]? = some c ∧ c.shift = 0 ∧ 0 < r ∧ c.gradient = fun j => -(r * P.fd j)
  first2 : ∀ a, 1 ≤ a → a ≤ s.i → (a - 1 + P.instance_) % P.active = 0 → s.first.isSome = true
  lin : ∃ w : Nat → ℝ, (∀ k, 0 ≤ w k) ∧ (∀ k, s.first = some k → w k = 0) ∧
    (∀ k c, s.cs[k]? = some c → w k ≠ 0 → c.shift = 0 ∧
      ∃ a, c.gradient = Spec.random P a ∨ c.gradient = fun i => -Spec.random P a i) ∧
    ∀ j, s.lin j = ∑ k ∈ Finset.range s.cs.length, w k * grad s.cs k j

theorem grad_append (cs : List (Constraint n)) (c : Constraint n) {k : Nat} (h : k < cs.length) :
    grad (cs ++ [c]) k = grad cs k := by
  unfold grad
  rw [List.getElem?_append_left h]

theorem grad_last (cs : List (Constraint n)) (c : Constraint n) : grad (cs ++ [c]) cs.length = c.gradient := by
  unfold grad
  simp

theorem getElem?_snoc {cs : List (Constraint n)} {c d : Constraint n} {k : Nat} (h : (cs ++ [c])[k]? = some d) :
    (k < cs.length ∧ cs[k]? = some d) ∨ (k = cs.length ∧ d = c) := by
  rcases Nat.lt_trichotomy k cs.length with hk | hk | hk
  · rw [List.getElem?_append_left hk] at h
    exact Or.inl ⟨hk, h⟩
  · subst hk
    simp at h
    exact Or.inr ⟨rfl, h.symm⟩
  · rw [List.getElem?_eq_none (by simp; omega)] at h
    exact absurd h (by simp)

theorem lt_of_getElem? {cs : List (Constraint n)} {c : Constraint n} {k : Nat} (h : cs[k]? = some c) : k < cs.length := by
  by_contra hn
  rw [List.getElem?_eq_none (by omega)] at h
  exact absurd h (by simp)

theorem active_inv {P : Params n} (hP : Spec.Valid P) {s : State n} (h : Inv P s) (hi : s.i < P.active) :
    ∃ s', addActive P s = .ok s' ∧ Inv P s' ∧ s'.i = s.i + 1 ∧ s'.left = s.left := by
  have hnum : number P { s with i := s.i + 1 } = s.i + 1 := if_pos (show s.i + 1 ≤ P.active by omega)
  unfold addActive
  dsimp only
  rw [hnum]
  by_cases hg : (s.i + 1 - 1 + P.instance_) % P.active = 0
  · obtain ⟨c, hc, hgood, hshift, -, hgrad⟩ := single_ok hP (s.i + 1) true 0 (Or.inl rfl)
    have hgrad := hgrad rfl
    simp only [if_true] at hc hgrad
    rw [against_feasible] at hgrad
    rw [if_neg (by simpa using hg)]
    unfold add
    rw [hc, Res.ok_bind, if_pos rfl]
    refine ⟨_, rfl, ⟨?_, h.left, ?_, ?_, ?_, ?_, ?_, ?_, ?_⟩, rfl, rfl⟩
    · exact hi
    · have := h.len
      simp only [List.length_append, List.length_singleton]
      omega
    · dsimp only
      rw [List.filter_append, List.map_append, h.actives, List.range_succ, List.map_append]
      congr 1
      simp only [List.map_cons, List.map_nil, Spec.activeGradient]
      rw [if_pos hg, List.filter_cons_of_pos (by simpa using hshift)]
      simp [hgrad]
    · intro d hd
      rcases List.mem_append.mp hd with hd | hd
      · exact h.good d hd
      · rw [List.mem_singleton.mp hd]; exact hgood
    · intro d hd hd0
      rcases List.mem_append.mp hd with hd | hd
      · exact h.inactives d hd hd0
      · rw [List.mem_singleton.mp hd] at hd0; exact absurd hshift hd0
    · intro k hk
      have hk : k = s.cs.length := (Option.some.inj hk).symm
      subst hk
      refine ⟨c, (100 * (10 : ℝ) ^ (P.u1 0)) * (100 : ℝ) ^ (P.own (s.i + 1)) / Constrained.norm P.fd, by simp, hshift,
        div_pos (by positivity) (norm_pos hP.fd), ?_⟩
      rw [hgrad]
      unfold Spec.against
      funext j
      ring
    · intro a _ _ _
      rfl
    · obtain ⟨w, hw0, -, hw2, hw3⟩ := h.lin
      refine ⟨fun k => if k = s.cs.length then 0 else w k, ?_, ?_, ?_, ?_⟩
      · intro k
        dsimp only
        split_ifs
        · exact le_refl 0
        · exact hw0 k
      · intro k hk
        have hk : k = s.cs.length := (Option.some.inj hk).symm
        exact if_pos hk
      · intro k d hd hwk
        rcases getElem?_snoc hd with ⟨hlt, hd⟩ | ⟨rfl, rfl⟩
        · have hlt : k < s.cs.length := hlt
          dsimp only at hwk
          rw [if_neg (by omega)] at hwk
          exact hw2 k d hd hwk
        · exact absurd (if_pos rfl) hwk
      · intro j
        dsimp only
        rw [List.length_append, List.length_singleton, Finset.sum_range_succ, if_pos rfl, zero_mul, add_zero, hw3 j]
        apply Finset.sum_congr rfl
        intro k hk
        have hk := Finset.mem_range.mp hk
        rw [if_neg (by omega), grad_append _ _ hk]
  · obtain ⟨c, hc, hgood, hshift, hor, hgrad⟩ := single_ok hP (s.i + 1) false 0 (Or.inl rfl)
    have hgrad := hgrad rfl
    simp only [Bool.false_eq_true, if_false] at hc hgrad hor
    rw [if_pos (by simpa using hg)]
    unfold add
    rw [hc, Res.ok_bind, if_pos rfl]
    refine ⟨_, rfl, ⟨?_, h.left, ?_, ?_, ?_, ?_, ?_, ?_, ?_⟩, rfl, rfl⟩
    · exact hi
    · have := h.len
      simp only [List.length_append, List.length_singleton]
      omega
    · dsimp only
      rw [List.filter_append, List.map_append, h.actives, List.range_succ, List.map_append]
      congr 1
      simp only [List.map_cons, List.map_nil, Spec.activeGradient]
      rw [if_neg hg, List.filter_cons_of_pos (by simpa using hshift)]
      simp [hgrad]
    · intro d hd
      rcases List.mem_append.mp hd with hd | hd
      · exact h.good d hd
      · rw [List.mem_singleton.mp hd]; exact hgood
    · intro d hd hd0
      rcases List.mem_append.mp hd with hd | hd
      · exact h.inactives d hd hd0
      · rw [List.mem_singleton.mp hd] at hd0; exact absurd hshift hd0
    · intro k hk
      obtain ⟨d, r, hd, h1, h2, h3⟩ := h.first1 k hk
      exact ⟨d, r, by dsimp only; rw [List.getElem?_append_left (lt_of_getElem? hd)]; exact hd, h1, h2, h3⟩
    · intro a h1 h2 h3
      dsimp only at h2
      rcases Nat.lt_or_ge s.i a with h4 | h4
      · rw [show a = s.i + 1 by omega] at h3
        exact absurd h3 hg
      · exact h.first2 a h1 h4 h3
    · obtain ⟨w, hw0, hw1, hw2, hw3⟩ := h.lin
      refine ⟨fun k => if k = s.cs.length then P.u2 s.p2 else w k, ?_, ?_, ?_, ?_⟩
      · intro k
        dsimp only
        split_ifs
        · exact (hP.u2 _).1
        · exact hw0 k
      · intro k hk
        obtain ⟨d, r, hd, -⟩ := h.first1 k hk
        have := lt_of_getElem? hd
        dsimp only
        rw [if_neg (by omega)]
        exact hw1 k hk
      · intro k d hd hwk
        rcases getElem?_snoc hd with ⟨hlt, hd⟩ | ⟨rfl, rfl⟩
        · have hlt : k < s.cs.length := hlt
          dsimp only at hwk
          rw [if_neg (by omega)] at hwk
          exact hw2 k d hd hwk
        · exact ⟨hshift, s.i + 1, hor⟩
      · intro j
        dsimp only
        rw [List.length_append, List.length_singleton, Finset.sum_range_succ, if_pos rfl, grad_last, hw3 j]
        congr 1
        apply Finset.sum_congr rfl
        intro k hk
        have hk := Finset.mem_range.mp hk
        rw [if_neg (by omega), grad_append _ _ hk]

theorem inactive_inv {P : Params n} (hP : Spec.Valid P) {s : State n} (h : Inv P s) (hi : 1 ≤ s.i) (hl : s.left ≠ 0) :
    ∃ s', addInactive P s = .ok s' ∧ Inv P s' ∧ s'.i = s.i ∧ s'.left = s.left - 1 := by
  have hle := h.le
  have hnum : number P { s with left := s.left - 1, p1 := s.p1 + 1 } = s.i := if_pos hle
  have hu := (hP.u1 s.p1).1
  unfold addInactive
  rw [if_neg hl]
  dsimp only
  rw [hnum]
  obtain ⟨c, hc, hgood, hshift, hor, -⟩ := single_ok hP s.i false (0.01 + 2 * P.u1 s.p1) (Or.inr (by linarith))
  simp only [Bool.false_eq_true, if_false] at hc hor
  have hne : (0.01 : ℝ) + 2 * P.u1 s.p1 ≠ 0 := by
    have : (0 : ℝ) < 0.01 := by norm_num
    linarith
  have hcne : c.shift ≠ 0 := by rw [hshift]; exact hne
  unfold add
  rw [hc, Res.ok_bind, if_neg hne]
  refine ⟨_, rfl, ⟨hle, ?_, ?_, ?_, ?_, ?_, ?_, h.first2, ?_⟩, rfl, rfl⟩
  · have := h.left
    show s.left - 1 ≤ _
    omega
  · have := h.len
    have := h.left
    simp only [List.length_append, List.length_singleton]
    omega
  · dsimp only
    rw [List.filter_append, List.map_append, h.actives]
    simp [hcne]
  · intro d hd
    rcases List.mem_append.mp hd with hd | hd
    · exact h.good d hd
    · rw [List.mem_singleton.mp hd]; exact hgood
  · intro d hd hd0
    rcases List.mem_append.mp hd with hd | hd
    · exact h.inactives d hd hd0
    · rw [List.mem_singleton.mp hd]
      exact ⟨s.i, hi, hle, hor⟩
  · intro k hk
    obtain ⟨d, r, hd, h1, h2, h3⟩ := h.first1 k hk
    exact ⟨d, r, by dsimp only; rw [List.getElem?_append_left (lt_of_getElem? hd)]; exact hd, h1, h2, h3⟩
  · obtain ⟨w, hw0, hw1, hw2, hw3⟩ := h.lin
    refine ⟨fun k => if k = s.cs.length then 0 else w k, ?_, ?_, ?_, ?_⟩
    · intro k
      dsimp only
      split_ifs
      · exact le_refl 0
      · exact hw0 k
    · intro k hk
      obtain ⟨d, r, hd, -⟩ := h.first1 k hk
      have := lt_of_getElem? hd
      dsimp only
      rw [if_neg (by omega)]
      exact hw1 k hk
    · intro k d hd hwk
      rcases getElem?_snoc hd with ⟨hlt, hd⟩ | ⟨rfl, rfl⟩
      · have hlt : k < s.cs.length := hlt
        dsimp only at hwk
        rw [if_neg (by omega)] at hwk
        exact hw2 k d hd hwk
      · exact absurd (if_pos rfl) hwk
    · intro j
      dsimp only
      rw [List.length_append, List.length_singleton, Finset.sum_range_succ, if_pos rfl, zero_mul, add_zero, hw3 j]
      apply Finset.sum_congr rfl
      intro k hk
      have hk := Finset.mem_range.mp hk
      rw [if_neg (by omega), grad_append _ _ hk]

theorem inv_p1 {P : Params n} {s : State n} (h : Inv P s) (k : Nat) : Inv P { s with p1 := k } :=
  ⟨h.le, h.left, h.len, h.actives, h.good, h.inactives, h.first1, h.first2, h.lin⟩

theorem step_inv {P : Params n} (hP : Spec.Valid P) {s : State n} (h : Inv P s) (hi : 1 ≤ s.i)
    (hl : s.cs.length < total P) :
    ∃ s', step P s = .ok s' ∧ Inv P s' ∧ 1 ≤ s'.i ∧ s'.cs.length = s.cs.length + 1 := by
  have hlen := h.len
  have hleft := h.left
  have hle := h.le
  have hlt : s.cs.length < P.active + inactive P := hl
  have fin : ∀ s' : State n, Inv P s' → (s'.i = s.i + 1 ∧ s'.left = s.left ∨ s'.i = s.i ∧ s'.left = s.left - 1 ∧ s.left ≠ 0) →
      1 ≤ s'.i ∧ s'.cs.length = s.cs.length + 1 := by
    intro s' h' hor
    have := h'.len
    have := h'.left
    omega
  unfold step
  by_cases hact : s.i < P.active
  · rw [if_pos hact]
    dsimp only
    by_cases hu : P.u1 s.p1 + 1 / 10 ^ 23 > (s.left : ℝ) / (total P : ℝ)
    · rw [if_pos hu]
      obtain ⟨s', h1, h2, h3, h4⟩ := active_inv hP (inv_p1 h (s.p1 + 1)) hact
      exact ⟨s', h1, h2, fin s' h2 (Or.inl ⟨h3, h4⟩)⟩
    · rw [if_neg hu]
      have hl0 : s.left ≠ 0 := by
        intro h0
        apply hu
        rw [h0, Nat.cast_zero, zero_div]
        have := (hP.u1 s.p1).1
        have : (0 : ℝ) < 1 / 10 ^ 23 := by norm_num
        linarith
      obtain ⟨s', h1, h2, h3, h4⟩ := inactive_inv hP (inv_p1 h (s.p1 + 1)) hi hl0
      exact ⟨s', h1, h2, fin s' h2 (Or.inr ⟨h3, h4, hl0⟩)⟩
  · rw [if_neg hact]
    have hl0 : s.left ≠ 0 := by omega
    obtain ⟨s', h1, h2, h3, h4⟩ := inactive_inv hP h hi hl0
    exact ⟨s', h1, h2, fin s' h2 (Or.inr ⟨h3, h4, hl0⟩)⟩

theorem loop_inv {P : Params n} (hP : Spec.Valid P) : ∀ (m : Nat) (s : State n), Inv P s → 1 ≤ s.i →
    s.cs.length + m = total P → ∃ s', loop P m s = .ok s' ∧ Inv P s' ∧ s'.cs.length = total P
  | 0, s, h, _, hl => ⟨s, rfl, h, hl⟩
  | m + 1, s, h, hi, hl => by
    obtain ⟨s', h1, h2, h3, h4⟩ := step_inv hP h hi (by omega)
    obtain ⟨s'', h5, h6⟩ := loop_inv hP m s' h2 h3 (by omega)
    refine ⟨s'', ?_, h6⟩
    show (step P s).bind _ = _
    rw [h1]
    exact h5

/-- Before the first constraint is replaced. -/
theorem before {P : Params n} (hP : Spec.Valid P) :
    ∃ s, build P = disguiseFirst P s ∧ Inv P s ∧ s.i = P.active ∧ s.left = 0 := by
  have h0 : Inv P ⟨0, inactive P, 1, 0, fun _ => 0, none, []⟩ := by
    refine ⟨Nat.zero_le _, le_refl _, by simp, by simp, by simp, by simp, by simp, ?_, ?_⟩
    · intro a h1 h2
      simp only at h2
      omega
    · exact ⟨fun _ => 0, fun _ => le_refl 0, by simp, by simp, by simp⟩
  obtain ⟨s1, h1, h2, h3, h4⟩ := active_inv hP h0 hP.active
  have hlen1 : s1.cs.length = 1 := by have := h2.len; have := h2.left; simp only at h3 h4; omega
  have hact := hP.active
  obtain ⟨s2, h5, h6, h7⟩ := loop_inv hP (total P - 1) s1 h2 (by omega) (by unfold total; omega)
  have hlen := h6.len
  have hleft := h6.left
  have hle := h6.le
  have htot : total P = P.active + inactive P := rfl
  refine ⟨s2, ?_, h6, by omega, by omega⟩
  unfold build
  rw [if_neg (by omega)]
  have hfirst : add P ⟨1, inactive P, 1, 0, fun _ => 0, none, []⟩ 1
      (if P.instance_ % P.active ≠ 0 then none else some (gradientC1 P)) 0 = .ok s1 := by
    rw [← h1]
    unfold addActive
    have hnum : number P (⟨1, inactive P, 1, 0, fun _ => 0, none, []⟩ : State n) = 1 := if_pos hact
    dsimp only
    rw [show (0 + 1 - 1 + P.instance_) = P.instance_ by omega, show (0 : Nat) + 1 = 1 from rfl, hnum]
  rw [hfirst, Res.ok_bind, h5, Res.ok_bind]

/-! ### The result -/

theorem exists_index {P : Params n} (hP : Spec.Valid P) :
    ∃ a, 1 ≤ a ∧ a ≤ P.active ∧ (a - 1 + P.instance_) % P.active = 0 := by
  have h0 := hP.active
  have h1 := Nat.mod_lt P.instance_ h0
  rcases Nat.eq_zero_or_pos (P.instance_ % P.active) with h | h
  · exact ⟨1, le_refl _, h0, by rw [show 1 - 1 + P.instance_ = P.instance_ by omega, h]⟩
  · refine ⟨P.active - P.instance_ % P.active + 1, by omega, by omega, ?_⟩
    rw [show P.active - P.instance_ % P.active + 1 - 1 + P.instance_ =
      P.active + (P.instance_ - P.instance_ % P.active) by have := Nat.mod_le P.instance_ P.active; omega]
    have : P.instance_ - P.instance_ % P.active = P.active * (P.instance_ / P.active) := by
      have := Nat.div_add_mod P.instance_ P.active
      omega
    rw [this, Nat.add_mul_mod_self_left, Nat.mod_self]

theorem first_some {P : Params n} (hP : Spec.Valid P) {s : State n} (h : Inv P s) (hi : s.i = P.active) :
    ∃ f c r, s.first = some f ∧ s.cs[f]? = some c ∧ c.shift = 0 ∧ 0 < r ∧ c.gradient = fun j => -(r * P.fd j) := by
  obtain ⟨a, h1, h2, h3⟩ := exists_index hP
  have := h.first2 a h1 (by omega) h3
  obtain ⟨f, hf⟩ := Option.isSome_iff_exists.mp this
  obtain ⟨c, r, h4⟩ := h.first1 f hf
  exact ⟨f, c, r, hf, h4⟩

/-- The factor in line 430-431 of the code. -/
def fac (P : Params n) (s : State n) (c : Constraint n) : ℝ :=
  (if dot s.lin c.gradient ≤ 0 then (n : ℝ) else min (n : ℝ) (c.norm * c.norm / dot s.lin c.gradient)) *
    ((1 + P.u2 s.p2) / (2 + 1 / (n : ℝ)))

/-- The disguised gradient before it is scaled. -/
def mixed (P : Params n) (s : State n) (c : Constraint n) : Vec n := fun i => c.gradient i - fac P s c * s.lin i

theorem dot_mixed {P : Params n} (hP : Spec.Valid P) {s : State n} {c : Constraint n} {r : ℝ} (hr : 0 < r)
    (hc : c.gradient = fun j => -(r * P.fd j)) (hgood : Good P c) (hfac : 0 ≤ dot s.lin c.gradient) :
    0 ≤ fac P s c ∧ dot (mixed P s c) P.fd < 0 := by
  have hn : (0 : ℝ) < n := by exact_mod_cast dim_pos hP
  have hu := hP.u2 s.p2
  have hden : (2 : ℝ) < 2 + 1 / (n : ℝ) := by
    have : (0 : ℝ) < 1 / (n : ℝ) := by positivity
    linarith
  have hth0 : 0 ≤ (1 + P.u2 s.p2) / (2 + 1 / (n : ℝ)) := div_nonneg (by linarith) (by linarith)
  have hth1 : (1 + P.u2 s.p2) / (2 + 1 / (n : ℝ)) < 1 := by
    rw [div_lt_one (by linarith)]
    linarith
  have hN : c.norm * c.norm = r * r * (norm P.fd * norm P.fd) := by
    rw [← hgood.norm_eq, norm_mul_self, norm_mul_self, hc, Finset.mul_sum]
    exact Finset.sum_congr rfl fun i _ => by ring
  have hfd : 0 < norm P.fd * norm P.fd := mul_pos (norm_pos hP.fd) (norm_pos hP.fd)
  have hF : dot s.lin c.gradient = -(r * dot s.lin P.fd) := by
    unfold dot
    rw [hc, Finset.mul_sum, ← Finset.sum_neg_distrib]
    exact Finset.sum_congr rfl fun i _ => by ring
  have hdot : dot (mixed P s c) P.fd = -(r * (norm P.fd * norm P.fd)) - fac P s c * dot s.lin P.fd := by
    rw [norm_mul_self]
    unfold dot mixed
    rw [hc, Finset.mul_sum, Finset.mul_sum, ← Finset.sum_neg_distrib, ← Finset.sum_sub_distrib]
    exact Finset.sum_congr rfl fun i _ => by ring
  rw [hdot]
  by_cases h0 : dot s.lin c.gradient ≤ 0
  · have hz : dot s.lin P.fd = 0 := by
      have h1 : r * dot s.lin P.fd = 0 := by linarith
      rcases mul_eq_zero.mp h1 with h | h
      · exact absurd h hr.ne'
      · exact h
    refine ⟨?_, ?_⟩
    · unfold fac
      rw [if_pos h0]
      exact mul_nonneg hn.le hth0
    · rw [hz, mul_zero, sub_zero]
      have := mul_pos hr hfd
      linarith
  · have hpos := not_le.mp h0
    have hq : 0 ≤ c.norm * c.norm / dot s.lin c.gradient := div_nonneg (mul_self_nonneg _) hpos.le
    have hmin0 : 0 ≤ min (n : ℝ) (c.norm * c.norm / dot s.lin c.gradient) := le_min hn.le hq
    have hmin1 := min_le_right (n : ℝ) (c.norm * c.norm / dot s.lin c.gradient)
    have hfe : fac P s c = min (n : ℝ) (c.norm * c.norm / dot s.lin c.gradient) *
        ((1 + P.u2 s.p2) / (2 + 1 / (n : ℝ))) := by
      unfold fac
      rw [if_neg h0]
    rw [hfe]
    generalize (1 + P.u2 s.p2) / (2 + 1 / (n : ℝ)) = th at hth0 hth1 ⊢
    refine ⟨mul_nonneg hmin0 hth0, ?_⟩
    have h1 : min (n : ℝ) (c.norm * c.norm / dot s.lin c.gradient) * dot s.lin c.gradient ≤ c.norm * c.norm := by
      calc _ ≤ c.norm * c.norm / dot s.lin c.gradient * dot s.lin c.gradient :=
            mul_le_mul_of_nonneg_right hmin1 hpos.le
        _ = c.norm * c.norm := div_mul_cancel₀ _ hpos.ne'
    generalize min (n : ℝ) (c.norm * c.norm / dot s.lin c.gradient) = m at hmin0 h1 ⊢
    rw [hN] at h1
    rw [hF] at h1
    generalize dot s.lin P.fd = q at h1 ⊢
    generalize norm P.fd * norm P.fd = N at hfd h1 ⊢
    have h2 : -(m * q) ≤ r * N := by
      have : r * -(m * q) ≤ r * (r * N) := by nlinarith
      exact le_of_mul_le_mul_left this hr
    have h3 : 0 < r * N := mul_pos hr hfd
    have h4 : th * -(m * q) ≤ th * (r * N) := mul_le_mul_of_nonneg_left h2 hth0
    nlinarith

theorem disguise_cases {P : Params n} (hP : Spec.Valid P) {s : State n} (h : Inv P s) (hi : s.i = P.active) :
    (¬ (P.active > 1 ∧ P.disguise = true) ∧ disguiseFirst P s = .ok s.cs) ∨
    (P.disguise = true ∧ ∃ f c r, s.first = some f ∧ s.cs[f]? = some c ∧ c.shift = 0 ∧ 0 < r ∧
      (c.gradient = fun j => -(r * P.fd j)) ∧
      ((dot s.lin c.gradient < 0 ∧ disguiseFirst P s = .error) ∨
       (0 ≤ dot s.lin c.gradient ∧ norm (mixed P s c) ≠ 0 ∧
        disguiseFirst P s = .ok (s.cs.set f { c with gradient := scale (mixed P s c) c.norm (norm (mixed P s c)) })))) := by
  by_cases hd : P.active > 1 ∧ P.disguise = true
  · right
    obtain ⟨f, c, r, h1, h2, h3, h4, h5⟩ := first_some hP h hi
    refine ⟨hd.2, f, c, r, h1, h2, h3, h4, h5, ?_⟩
    unfold disguiseFirst
    rw [if_pos hd, h1]
    dsimp only
    rw [h2]
    dsimp only
    by_cases hF : dot s.lin c.gradient < 0
    · left
      exact ⟨hF, by rw [if_pos hF]⟩
    · right
      have hF' := not_lt.mp hF
      have hne : norm (mixed P s c) ≠ 0 := by
        intro h0
        have := (dot_mixed hP h4 h5 (h.good c (List.mem_of_getElem? h2)) hF').2
        rw [(norm_eq_zero _).mp h0] at this
        unfold dot at this
        simp at this
      refine ⟨hF', hne, ?_⟩
      rw [if_neg hF]
      exact if_neg hne
  · left
    refine ⟨hd, ?_⟩
    unfold disguiseFirst
    rw [if_neg hd]

theorem counts {P : Params n} {s : State n} (h : Inv P s) (hi : s.i = P.active) (hl : s.left = 0) :
    (s.cs.filter fun c => c.shift = 0).length = P.active ∧
    (s.cs.filter fun c => 0.01 ≤ c.shift).length = inactive P := by
  have h1 : (s.cs.filter fun c => c.shift = 0).length = P.active := by
    have := congrArg List.length h.actives
    simp only [List.length_map, List.length_range] at this
    omega
  refine ⟨h1, ?_⟩
  have h2 : (s.cs.filter fun c => 0.01 ≤ c.shift) = s.cs.filter fun c => !decide (c.shift = 0) := by
    apply List.filter_congr
    intro c hc
    rcases (h.good c hc).shift with h0 | h0
    · rw [h0]
      have : ¬ (0.01 : ℝ) ≤ 0 := by norm_num
      simp [this]
    · have : c.shift ≠ 0 := by
        have : (0 : ℝ) < 0.01 := by norm_num
        linarith
      simp [h0, this]
  have h3 := List.length_eq_length_filter_add (l := s.cs) (fun c => decide (c.shift = 0))
  have := h.len
  rw [h2]
  omega

theorem counts_set {cs : List (Constraint n)} {f : Nat} {c : Constraint n} (g : Vec n) (p : ℝ → Bool)
    (h : cs[f]? = some c) :
    ((cs.set f { c with gradient := g }).filter fun c => p c.shift).length = (cs.filter fun c => p c.shift).length := by
  have e : (cs.set f { c with gradient := g }).map (·.shift) = cs.map (·.shift) := by
    rw [List.map_set]
    apply List.ext_getElem?
    intro k
    rw [List.getElem?_set]
    split_ifs with h1 h2
    · subst h1
      rw [List.getElem?_map, h]
      rfl
    · rw [List.getElem?_eq_none (by omega)]
    · rfl
  have key : ∀ l : List (Constraint n), (l.filter fun c => p c.shift).length = ((l.map (·.shift)).filter p).length := by
    intro l
    rw [List.filter_map, List.length_map]
    rfl
  rw [key, key, e]

/-- With products outside the neglected interval the combination does not point with the direction. -/
theorem dot_lin_nonpos {P : Params n} (ha : Spec.Away P) {s : State n} (h : Inv P s) : dot s.lin P.fd ≤ 0 := by
  obtain ⟨w, hw0, -, hw2, hw3⟩ := h.lin
  have e : dot s.lin P.fd = ∑ k ∈ Finset.range s.cs.length, w k * dot (grad s.cs k) P.fd := by
    unfold dot
    simp only [hw3, Finset.sum_mul, Finset.mul_sum]
    rw [Finset.sum_comm]
    exact Finset.sum_congr rfl fun k _ => Finset.sum_congr rfl fun j _ => by ring
  rw [e]
  apply Finset.sum_nonpos
  intro k hk
  have hk := Finset.mem_range.mp hk
  by_cases hwk : w k = 0
  · rw [hwk, zero_mul]
  · have hc : s.cs[k]? = some s.cs[k] := List.getElem?_eq_getElem hk
    obtain ⟨h0, a, hor⟩ := hw2 k _ hc hwk
    have hg : grad s.cs k = s.cs[k].gradient := by unfold grad; rw [hc]; rfl
    have hf := (h.good _ (List.getElem_mem hk)).feasible
    rw [value_active _ h0] at hf
    rw [sumVariables_eq] at hf
    · rw [hg]
      exact mul_nonpos_of_nonneg_of_nonpos (hw0 k) hf
    · intro i
      have hai := ha a i
      rcases hor with hor | hor
      · rw [hor]
        rcases hai with h | h
        · exact Or.inl h.le
        · rcases le_or_gt 0 (Spec.random P a i * P.fd i) with h' | h'
          · rw [abs_of_nonneg h'] at h; exact Or.inr h
          · exact Or.inl h'.le
      · rw [hor]
        dsimp only
        rw [neg_mul]
        rcases hai with h | h
        · exact Or.inl (by linarith)
        · rcases le_or_gt 0 (Spec.random P a i * P.fd i) with h' | h'
          · exact Or.inl (by linarith)
          · rw [abs_of_neg h'] at h; exact Or.inr h

/-- **C62** For all random numbers, directions, instances and numbers of active constraints the construction succeeds with
exactly that many active constraints and half as many (rounded down) inactive ones, none if only active ones are wanted. For the
suite with a disguised first constraint it is required that no product of a gradient and the direction lies in the interval
(0, 1e-11] that is neglected in constraint values (else see `C62_internal_error`). -/
theorem C62_counts (P : Params n) (hP : Spec.Valid P) (hd : P.disguise = false ∨ Spec.Away P) :
    ∃ cs, build P = .ok cs ∧ (cs.filter fun c => c.shift = 0).length = P.active ∧
      (cs.filter fun c => 0.01 ≤ c.shift).length = (if P.activeOnly then 0 else P.active / 2) ∧
      cs.length = P.active + (if P.activeOnly then 0 else P.active / 2) := by
  obtain ⟨s, hb, h, hi, hl⟩ := before hP
  obtain ⟨hc1, hc2⟩ := counts h hi hl
  have hlen := h.len
  rw [hb]
  rcases disguise_cases hP h hi with ⟨-, he⟩ | ⟨hdis, f, c, r, h1, h2, h3, h4, h5, ⟨hF, -⟩ | ⟨-, -, he⟩⟩
  · exact ⟨_, he, hc1, hc2, by rw [hlen, hi, hl]; rfl⟩
  · rcases hd with hd | hd
    · rw [hdis] at hd; exact absurd hd (by simp)
    · have hle := dot_lin_nonpos hd h
      have : dot s.lin c.gradient = -(r * dot s.lin P.fd) := by
        unfold dot
        rw [h5, Finset.mul_sum, ← Finset.sum_neg_distrib]
        exact Finset.sum_congr rfl fun i _ => by ring
      have := mul_nonneg h4.le (neg_nonneg.mpr hle)
      exfalso
      linarith
  · refine ⟨_, he, ?_, ?_, ?_⟩
    · rw [counts_set _ (fun x => decide (x = 0)) h2]; exact hc1
    · rw [counts_set _ (fun x => decide (0.01 ≤ x)) h2]; exact hc2
    · rw [List.length_set, hlen, hi, hl]; rfl

/-- **C62** (gradients). Without disguise the active constraints are, in their order, the random ones turned to admit the
feasible direction and the one against the feasible direction at the place that the instance determines; exactly one place is
determined. Every inactive constraint has, up to sign, the random gradient of one of the active numbers (the code intends
numbers of its own for them, but the choice in line 396 of `/repo/src/c_linear.c` always takes the active number). -/
theorem C62_gradients (P : Params n) (hP : Spec.Valid P) (hd : P.disguise = false) :
    (∃ cs, build P = .ok cs ∧
      (cs.filter fun c => c.shift = 0).map (·.gradient) =
        (List.range P.active).map (fun k => Spec.activeGradient P (k + 1)) ∧
      ∀ c ∈ cs, c.shift ≠ 0 → ∃ k, 1 ≤ k ∧ k ≤ P.active ∧
        (c.gradient = Spec.random P k ∨ c.gradient = fun i => -Spec.random P k i)) ∧
    (∃ k, (1 ≤ k ∧ k ≤ P.active ∧ (k - 1 + P.instance_) % P.active = 0) ∧
      ∀ k', 1 ≤ k' → k' ≤ P.active → (k' - 1 + P.instance_) % P.active = 0 → k' = k) := by
  constructor
  · obtain ⟨s, hb, h, hi, hl⟩ := before hP
    rcases disguise_cases hP h hi with ⟨-, he⟩ | ⟨hdis, -⟩
    · refine ⟨s.cs, by rw [hb, he], ?_, h.inactives⟩
      rw [h.actives, hi]
    · rw [hd] at hdis; exact absurd hdis (by simp)
  · obtain ⟨a, h1, h2, h3⟩ := exists_index hP
    refine ⟨a, ⟨h1, h2, h3⟩, fun b h4 h5 h6 => ?_⟩
    have hmod : (b - 1 + P.instance_) ≡ (a - 1 + P.instance_) [MOD P.active] := by
      unfold Nat.ModEq; rw [h3, h6]
    have := Nat.ModEq.add_right_cancel' _ hmod
    unfold Nat.ModEq at this
    rw [Nat.mod_eq_of_lt (by omega), Nat.mod_eq_of_lt (by omega)] at this
    omega

/-- **C62** (documented numbers). The number of active constraints depends only on the position of the function in its group of
six and is positive. -/
theorem C62_number (f : Nat) (p : Nat) (hp : p < 6) (dimension : Nat) :
    numberOfConstraints (6 * f + p + 1) dimension =
      [1, 2, 6, 6 + dimension / 2, 6 + dimension, 6 + 3 * dimension].getD p 0 ∧
    0 < numberOfConstraints (6 * f + p + 1) dimension := by
  have e : (((6 * f + p + 1 : Nat) : Int) - 1).tmod 6 + 1 = p + 1 := by
    rw [show ((6 * f + p + 1 : Nat) : Int) - 1 = ((6 * f + p : Nat) : Int) by push_cast; ring]
    rw [Int.tmod_eq_emod_of_nonneg (by omega)]
    omega
  unfold numberOfConstraints
  rw [e]
  interval_cases p <;> simp

/-- **C63** For all random numbers: every constraint of a constructed problem is satisfied by the feasible direction, is zero
at the origin if active and negative there if inactive. -/
theorem C63_feasible (P : Params n) (hP : Spec.Valid P) (cs : List (Constraint n)) (hcs : build P = .ok cs) :
    ∀ c ∈ cs, value c P.fd ≤ 0 ∧ (c.shift = 0 → value c 0 = 0) ∧ (c.shift ≠ 0 → value c 0 < 0) := by
  have origin : ∀ c : Constraint n, c.shift = 0 → value c 0 = 0 := by
    intro c h0
    rw [value_active _ h0]
    unfold sumVariables
    simp
  have plain : ∀ c : Constraint n, Good P c → c.shift ≠ 0 → value c 0 < 0 := by
    intro c hg h0
    have h1 := value_le c 0
    rw [hg.norm_eq] at h1
    have h2 : c.shift / c.norm * (c.norm * c.norm) = c.shift * c.norm := by
      have := hg.norm_pos.ne'
      field_simp
    have h3 : dot c.gradient 0 = 0 := by unfold dot; simp
    have h4 : 0 < c.shift := by
      rcases hg.shift with h | h
      · exact absurd h h0
      · have : (0 : ℝ) < 0.01 := by norm_num
        linarith
    have := mul_pos h4 hg.norm_pos
    rw [h2, h3] at h1
    linarith
  obtain ⟨s, hb, h, hi, hl⟩ := before hP
  rw [hb] at hcs
  rcases disguise_cases hP h hi with ⟨-, he⟩ | ⟨hdis, f, c, r, h1, h2, h3, h4, h5, ⟨-, he⟩ | ⟨hF, hne, he⟩⟩
  · rw [he] at hcs
    injection hcs with hcs
    subst hcs
    exact fun c hc => ⟨(h.good c hc).feasible, origin c, plain c (h.good c hc)⟩
  · rw [he] at hcs; exact absurd hcs (by simp)
  · rw [he] at hcs
    injection hcs with hcs
    subst hcs
    intro d hd
    rcases List.mem_or_eq_of_mem_set hd with hd | hd
    · exact ⟨(h.good d hd).feasible, origin d, plain d (h.good d hd)⟩
    · subst hd
      refine ⟨?_, origin _, fun h0 => absurd h3 h0⟩
      have hgood := h.good c (List.mem_of_getElem? h2)
      have hm := (dot_mixed hP h4 h5 hgood hF).2
      have hpos : 0 < norm (mixed P s c) := lt_of_le_of_ne (norm_nonneg _) (Ne.symm hne)
      refine (value_le _ _).trans ?_
      dsimp only
      rw [h3, zero_div, zero_mul, sub_zero]
      have : dot (scale (mixed P s c) c.norm (norm (mixed P s c))) P.fd =
          c.norm / norm (mixed P s c) * dot (mixed P s c) P.fd := by
        unfold dot scale
        rw [if_pos hne, Finset.mul_sum]
        exact Finset.sum_congr rfl fun i _ => by ring
      rw [this]
      exact mul_nonpos_of_nonneg_of_nonpos (div_nonneg hgood.norm_pos.le hpos.le) hm.le

theorem grad_eq {cs : List (Constraint n)} (k : Fin cs.length) : grad cs k = cs[k].gradient := by
  unfold grad
  rw [List.getElem?_eq_getElem k.2]
  rfl

/-- **C64** For all random numbers: the constraints of a constructed problem, disguised or not, satisfy the
Karush-Kuhn-Tucker condition at the origin for every objective whose gradient there is along the feasible direction. -/
theorem C64_kkt (P : Params n) (hP : Spec.Valid P) (cs : List (Constraint n)) (hcs : build P = .ok cs) :
    Spec.KKT P.fd cs := by
  obtain ⟨s, hb, h, hi, hl⟩ := before hP
  rw [hb] at hcs
  rcases disguise_cases hP h hi with ⟨-, he⟩ | ⟨hdis, f, c, r, h1, h2, h3, h4, h5, ⟨-, he⟩ | ⟨hF, hne, he⟩⟩
  · rw [he] at hcs
    injection hcs with hcs
    subst hcs
    obtain ⟨f, c, r, h1, h2, h3, h4, h5⟩ := first_some hP h hi
    have hf := lt_of_getElem? h2
    have hcf : s.cs[f] = c := by rw [List.getElem?_eq_getElem hf] at h2; exact Option.some.inj h2
    refine ⟨fun k => if k = ⟨f, hf⟩ then 1 / r else 0, ?_, ?_, ?_⟩
    · intro k
      dsimp only
      split_ifs
      · positivity
      · exact le_refl 0
    · intro k hk
      dsimp only
      rw [if_neg]
      rintro rfl
      exact hk (by show s.cs[f].shift = 0; rw [hcf]; exact h3)
    · intro j
      simp only [ite_mul, zero_mul, Finset.sum_ite_eq', Finset.mem_univ, if_true]
      show P.fd j + 1 / r * s.cs[f].gradient j = 0
      rw [hcf, h5]
      field_simp
      ring
  · rw [he] at hcs; exact absurd hcs (by simp)
  · rw [he] at hcs
    injection hcs with hcs
    have hf := lt_of_getElem? h2
    have hgood := h.good c (List.mem_of_getElem? h2)
    have hpos : 0 < norm (mixed P s c) := lt_of_le_of_ne (norm_nonneg _) (Ne.symm hne)
    obtain ⟨hfac, -⟩ := dot_mixed hP h4 h5 hgood hF
    obtain ⟨w, hw0, hw1, hw2, hw3⟩ := h.lin
    have hcn := hgood.norm_pos
    have hlen : cs.length = s.cs.length := by rw [← hcs, List.length_set]
    have hget : ∀ k, cs[k]? = if f = k then some { c with gradient := scale (mixed P s c) c.norm (norm (mixed P s c)) }
        else s.cs[k]? := by
      intro k
      rw [← hcs, List.getElem?_set]
      by_cases hk : f = k
      · rw [if_pos hk, if_pos hk, if_pos (by omega)]
      · rw [if_neg hk, if_neg hk]
    have hgrad : ∀ k, grad cs k = if f = k then scale (mixed P s c) c.norm (norm (mixed P s c)) else grad s.cs k := by
      intro k
      unfold grad
      rw [hget k]
      split_ifs <;> rfl
    refine ⟨fun k => if f = k.1 then norm (mixed P s c) / (c.norm * r) else fac P s c * w k.1 / r, ?_, ?_, ?_⟩
    · intro k
      dsimp only
      split_ifs
      · exact div_nonneg hpos.le (mul_pos hcn h4).le
      · exact div_nonneg (mul_nonneg hfac (hw0 _)) h4.le
    · intro k hk
      have hk' : cs[k.1]? = some cs[k] := List.getElem?_eq_getElem k.2
      dsimp only
      by_cases hfk : f = k.1
      · exfalso
        rw [hget, if_pos hfk] at hk'
        have := Option.some.inj hk'
        apply hk
        rw [← this]
        exact h3
      · rw [if_neg hfk]
        rw [hget, if_neg hfk] at hk'
        have : w k.1 = 0 := by
          by_contra hwk
          exact hk (hw2 _ _ hk' hwk).1
        rw [this, mul_zero, zero_div]
    · intro j
      have e1 : ∑ k : Fin cs.length, (if f = k.1 then norm (mixed P s c) / (c.norm * r) else fac P s c * w k.1 / r) *
          cs[k].gradient j =
          ∑ k ∈ Finset.range cs.length, (if f = k then norm (mixed P s c) / (c.norm * r) else fac P s c * w k / r) *
            grad cs k j := by
        rw [Finset.sum_range]
        exact Finset.sum_congr rfl fun k _ => by rw [grad_eq]
      rw [e1, hlen]
      have e2 : ∀ k ∈ Finset.range s.cs.length,
          (if f = k then norm (mixed P s c) / (c.norm * r) else fac P s c * w k / r) * grad cs k j =
          fac P s c / r * (w k * grad s.cs k j) +
            if f = k then norm (mixed P s c) / (c.norm * r) * scale (mixed P s c) c.norm (norm (mixed P s c)) j else 0 := by
        intro k _
        rw [hgrad k]
        by_cases hfk : f = k
        · subst hfk
          rw [if_pos rfl, if_pos rfl, if_pos rfl, hw1 f h1]
          ring
        · rw [if_neg hfk, if_neg hfk, if_neg hfk]
          ring
      rw [Finset.sum_congr rfl e2, Finset.sum_add_distrib, ← Finset.mul_sum, ← hw3 j,
        Finset.sum_ite_eq, if_pos (Finset.mem_range.mpr hf)]
      unfold scale
      rw [if_pos hne]
      unfold mixed
      rw [h5]
      unfold mixed at hpos
      rw [h5] at hpos
      have := hpos.ne'
      field_simp
      ring

theorem kkt_bound {p : Vec n} {cs : List (Constraint n)} {m : Fin cs.length → ℝ} (hm : ∀ k, 0 ≤ m k)
    (h0 : ∀ k, cs[k].shift ≠ 0 → m k = 0) (hp : ∀ j, p j + ∑ k, m k * cs[k].gradient j = 0) (x : Vec n) (e : ℝ)
    (hx : ∀ k : Fin cs.length, cs[k].shift = 0 → dot cs[k].gradient x ≤ e) :
    -((∑ k, m k) * e) ≤ dot p x := by
  have h1 : dot p x = -∑ k, m k * dot cs[k].gradient x := by
    have hpj : ∀ j, p j = -∑ k, m k * cs[k].gradient j := fun j => by linarith [hp j]
    unfold dot
    simp only [hpj, Finset.mul_sum, neg_mul, Finset.sum_neg_distrib, Finset.sum_mul]
    rw [Finset.sum_comm]
    congr 1
    exact Finset.sum_congr rfl fun k _ => Finset.sum_congr rfl fun j _ => by ring
  rw [h1, Finset.sum_mul]
  apply neg_le_neg
  apply Finset.sum_le_sum
  intro k _
  by_cases hk : cs[k].shift = 0
  · exact mul_le_mul_of_nonneg_left (hx k hk) (hm k)
  · rw [h0 k hk, zero_mul, zero_mul]

/-- **C64** (optimum). For all random numbers, and every objective that lies above its tangent at the origin (for example a
convex one) with its gradient there along the feasible direction:

- every point that satisfies the constraints, and has no product of gradient and coordinate in the neglected interval
  (0, 1e-11], is not better than the origin;
- every point that satisfies the constraints is better by at most 1e-11 times the dimension and the sum of the multipliers. -/
theorem C64_optimal (P : Params n) (hP : Spec.Valid P) (cs : List (Constraint n)) (hcs : build P = .ok cs)
    (f : Vec n → ℝ) (slope : ℝ) (hslope : 0 ≤ slope) (hf : ∀ x, f 0 + slope * dot P.fd x ≤ f x) :
    (∀ x, (∀ c ∈ cs, value c x ≤ 0) →
      (∀ c ∈ cs, ∀ i, c.gradient i * x i ≤ 0 ∨ 1 / 10 ^ 11 < c.gradient i * x i) → f 0 ≤ f x) ∧
    ∃ m : Fin cs.length → ℝ, ((∀ k, 0 ≤ m k) ∧ ∀ j, P.fd j + ∑ k, m k * cs[k].gradient j = 0) ∧
      ∀ x, (∀ c ∈ cs, value c x ≤ 0) → f 0 - slope * ((∑ k, m k) * (n * (1 / 10 ^ 11))) ≤ f x := by
  obtain ⟨m, hm, h0, hp⟩ := C64_kkt P hP cs hcs
  constructor
  · intro x hx haway
    have := kkt_bound hm h0 hp x 0 fun k hk => by
      have hv := hx cs[k] (List.getElem_mem _)
      rw [value_active _ hk, sumVariables_eq _ (haway cs[k] (List.getElem_mem _))] at hv
      exact hv
    have h2 := mul_nonneg hslope (show 0 ≤ dot P.fd x by linarith)
    have := hf x
    linarith
  · refine ⟨m, ⟨hm, hp⟩, fun x hx => ?_⟩
    have := kkt_bound hm h0 hp x (n * (1 / 10 ^ 11)) fun k hk => by
      have hv := hx cs[k] (List.getElem_mem _)
      rw [value_active _ hk] at hv
      have := le_sumVariables fun i => cs[k].gradient i * x i
      show ∑ i, cs[k].gradient i * x i ≤ _
      linarith
    have h2 := mul_le_mul_of_nonneg_left this hslope
    have := hf x
    linarith

/-! ### Concrete cases -/

/-- One dimension, one active constraint. -/
def one : Params 1 where
  fd := fun _ => 1
  instance_ := 3
  active := 1
  activeOnly := false
  disguise := true
  u1 := fun _ => 0
  u2 := fun _ => 0
  own := fun _ => 0
  normals := fun _ _ => 1

theorem one_valid : Spec.Valid one :=
  ⟨fun h => by have := congrFun h 0; simp [one] at this, by decide, by simp [one], by simp [one],
    fun k h => by have := congrFun h 0; simp [one] at this⟩

/-- The values in the neglected interval make a difference: in the one-dimensional problem with the single constraint that the
origin is the smallest feasible point, a negative point satisfies it. -/
theorem C64_neglected : ∃ cs, build one = .ok cs ∧ ∃ x : Vec 1, (∀ c ∈ cs, value c x ≤ 0) ∧ dot one.fd x < 0 := by
  obtain ⟨s, hb, h, hi, hl⟩ := before one_valid
  have hcs : disguiseFirst one s = .ok s.cs := by
    unfold disguiseFirst
    rw [if_neg]
    simp [one]
  refine ⟨s.cs, by rw [hb, hcs], fun _ => -1 / 10 ^ 14, ?_, ?_⟩
  · have hlen : s.cs.length = 1 := by
      have := h.len
      rw [hi, hl] at this
      exact this
    have hg : norm one.fd = 1 := by
      unfold norm
      simp [one]
    have hact := h.actives
    rw [hi] at hact
    have hc1 := (counts h hi hl).1
    intro c hc
    have hmem : c.shift = 0 := by
      have : (s.cs.filter fun c => c.shift = 0).length = s.cs.length := by rw [hc1, hlen]; rfl
      have := List.length_filter_eq_length_iff.mp this c hc
      simpa using this
    have hgrad : c.gradient = fun _ => -100 := by
      have : c.gradient ∈ (s.cs.filter fun c => c.shift = 0).map (·.gradient) :=
        List.mem_map.mpr ⟨c, List.mem_filter.mpr ⟨hc, by simpa using hmem⟩, rfl⟩
      rw [hact] at this
      have : c.gradient = Spec.activeGradient one 1 := by simpa [one] using this
      rw [this]
      unfold Spec.activeGradient
      rw [if_pos (by decide)]
      unfold Spec.against
      rw [hg]
      funext j
      simp [one]
    rw [value_active _ hmem, hgrad]
    unfold sumVariables
    simp only [Finset.univ_unique, Finset.sum_singleton]
    rw [if_neg]
    norm_num
  · unfold dot
    simp only [Finset.univ_unique, Finset.sum_singleton, one]
    norm_num

/-- Two dimensions, two active constraints, an even instance. -/
def two (a b : ℝ) : Params 2 where
  fd := fun _ => 1
  instance_ := 2
  active := 2
  activeOnly := true
  disguise := true
  u1 := fun _ => 0
  u2 := fun _ => 1
  own := fun _ => 0
  normals := fun _ => ![a * Real.sqrt 2, b * Real.sqrt 2]

theorem two_valid {a b : ℝ} (ha : a ≠ 0) : Spec.Valid (two a b) :=
  ⟨fun h => by have := congrFun h 0; simp [two] at this, by simp [two], by simp [two], by simp [two],
    fun k h => by
      have := congrFun h 0
      simp [two, ha] at this⟩

theorem two_random (a b : ℝ) (k : Nat) : Spec.random (two a b) k = ![100 * a, 100 * b] := by
  have : Real.sqrt 2 ≠ 0 := by positivity
  funext i
  unfold Spec.random
  fin_cases i
  · simp [two]
    field_simp
  · simp [two]
    field_simp

/-- A case that meets the conditions of C62, C63 and C64: the gradient (100, -200) admits the direction (1, 1). -/
example : Spec.Valid (two 1 (-2)) ∧ Spec.Away (two 1 (-2)) := by
  refine ⟨two_valid one_ne_zero, fun k i => Or.inr ?_⟩
  rw [two_random]
  fin_cases i
  · simp [two]
    norm_num
  · simp [two]
    norm_num

/-- The internal error of the disguise can be reached: the products 5e-12 and -1e-12 of gradient and direction add up to a
positive number, but the first is neglected, so the constraint is not turned and its gradient points with the direction. -/
theorem C62_internal_error : Spec.Valid (two (5 / 10 ^ 14) (-1 / 10 ^ 14)) ∧
    build (two (5 / 10 ^ 14) (-1 / 10 ^ 14)) = .error := by
  have hv : Spec.Valid (two (5 / 10 ^ 14) (-1 / 10 ^ 14)) := two_valid (by norm_num)
  refine ⟨hv, ?_⟩
  generalize hQ : two (5 / 10 ^ 14) (-1 / 10 ^ 14) = Q at hv
  have hr : ∀ k, Spec.random Q k = ![5 / 10 ^ 12, -1 / 10 ^ 12] := by
    intro k
    rw [← hQ, two_random]
    norm_num
  have hfd : Q.fd = fun _ => 1 := by rw [← hQ]; rfl
  have hact : Q.active = 2 := by rw [← hQ]; rfl
  have hinst : Q.instance_ = 2 := by rw [← hQ]; rfl
  have honly : inactive Q = 0 := by rw [← hQ]; rfl
  have htot : total Q = 2 := by unfold total; rw [hact, honly]
  obtain ⟨c1, hc1, hgood1, hs1, -, hg1⟩ := single_ok hv 1 true 0 (Or.inl rfl)
  obtain ⟨c2, hc2, hgood2, hs2, -, hg2⟩ := single_ok hv 2 false 0 (Or.inl rfl)
  have hg1 := hg1 rfl
  have hg2 := hg2 rfl
  simp only [if_true] at hc1 hg1
  simp only [Bool.false_eq_true, if_false] at hc2 hg2
  rw [against_feasible] at hg1
  have hg2' : c2.gradient = ![5 / 10 ^ 12, -1 / 10 ^ 12] := by
    rw [hg2, hr]
    unfold Spec.oriented
    rw [if_neg]
    unfold sumVariables
    rw [Fin.sum_univ_two, hfd]
    simp only [Matrix.cons_val_zero, Matrix.cons_val_one, mul_one]
    norm_num
  have hfirst : add Q ⟨1, 0, 1, 0, fun _ => 0, none, []⟩ 1 (some (gradientC1 Q)) 0 =
      .ok ⟨1, 0, 1, 0, fun _ => 0, some 0, [c1]⟩ := by
    unfold add
    rw [hc1, Res.ok_bind, if_pos rfl]
    rfl
  have hsecond : step Q ⟨1, 0, 1, 0, fun _ => 0, some 0, [c1]⟩ =
      .ok ⟨2, 0, 2, 1, fun j => 0 + Q.u2 0 * c2.gradient j, some 0, [c1, c2]⟩ := by
    unfold step
    rw [if_pos (by show 1 < Q.active; omega)]
    dsimp only
    rw [if_pos]
    · unfold addActive
      have hnum : number Q ({ i := 1 + 1, left := 0, p1 := 1 + 1, p2 := 0, lin := fun _ => 0, first := some 0, cs := [c1] } :
          State 2) = 2 := if_pos (by show 1 + 1 ≤ Q.active; omega)
      dsimp only
      rw [hnum, hact, hinst, if_pos (by decide)]
      unfold add
      rw [hc2, Res.ok_bind, if_pos rfl]
      rfl
    · rw [Nat.cast_zero, zero_div]
      have := (hv.u1 1).1
      have : (0 : ℝ) < 1 / 10 ^ 23 := by norm_num
      linarith
  unfold build
  rw [if_neg (by omega), honly, hact, hinst, htot]
  rw [if_neg (by decide), hfirst, Res.ok_bind]
  have hloop : loop Q (2 - 1) ⟨1, 0, 1, 0, fun _ => 0, some 0, [c1]⟩ =
      .ok ⟨2, 0, 2, 1, fun j => 0 + Q.u2 0 * c2.gradient j, some 0, [c1, c2]⟩ := by
    show (step Q _).bind _ = _
    rw [hsecond]
    rfl
  rw [hloop, Res.ok_bind]
  unfold disguiseFirst
  rw [if_pos ⟨by omega, by rw [← hQ]; rfl⟩]
  dsimp only
  show (if dot _ c1.gradient < 0 then _ else _) = _
  rw [if_pos]
  rw [hg1, hg2']
  have hu : Q.u2 0 = 1 := by rw [← hQ]; rfl
  have hpos : 0 < (100 * (10 : ℝ) ^ (Q.u1 0)) * (100 : ℝ) ^ (Q.own 1) / Constrained.norm Q.fd :=
    div_pos (by positivity) (norm_pos hv.fd)
  unfold dot Spec.against
  rw [Fin.sum_univ_two, hu, hfd]
  rw [hfd] at hpos
  generalize (100 * (10 : ℝ) ^ (Q.u1 0)) * (100 : ℝ) ^ (Q.own 1) / Constrained.norm (fun _ => 1) = q at hpos ⊢
  simp only [Matrix.cons_val_zero, Matrix.cons_val_one]
  nlinarith

/-! ### The length of the direction -/

theorem maxima_spec (l : List (ℝ × ℝ)) : ∀ m : ℝ × ℝ,
    let f := fun (m : ℝ × ℝ) (p : ℝ × ℝ) => (max m.1 |p.2|, max (max m.2 (p.1 / (5 - p.2))) (p.1 / (-5 - p.2)))
    (m.2 ≤ (l.foldl f m).2 ∧ ∀ p ∈ l, p.1 / (5 - p.2) ≤ (l.foldl f m).2 ∧ p.1 / (-5 - p.2) ≤ (l.foldl f m).2) ∧
    ((l.foldl f m).2 = m.2 ∨ ∃ p ∈ l, (l.foldl f m).2 = p.1 / (5 - p.2) ∨ (l.foldl f m).2 = p.1 / (-5 - p.2)) ∧
    ((l.foldl f m).1 = m.1 ∨ ∃ p ∈ l, (l.foldl f m).1 = |p.2|) := by
  induction l with
  | nil => intro m; simp
  | cons a as ih =>
    intro m f
    obtain ⟨⟨h1, h2⟩, h3, h4⟩ := ih (f m a)
    have hfa : (f m a).2 = max (max m.2 (a.1 / (5 - a.2))) (a.1 / (-5 - a.2)) := rfl
    have hfb : (f m a).1 = max m.1 |a.2| := rfl
    rw [List.foldl_cons]
    refine ⟨⟨?_, ?_⟩, ?_, ?_⟩
    · rw [hfa] at h1
      exact (le_trans (le_max_left _ _) (le_max_left _ _)).trans h1
    · intro p hp
      rcases List.mem_cons.mp hp with rfl | hp
      · rw [hfa] at h1
        exact ⟨(le_trans (le_max_right _ _) (le_max_left _ _)).trans h1, (le_max_right _ _).trans h1⟩
      · exact h2 p hp
    · rcases h3 with h3 | ⟨p, hp, h3⟩
      · rw [hfa] at h3
        rcases max_choice (max m.2 (a.1 / (5 - a.2))) (a.1 / (-5 - a.2)) with hm | hm
        · rw [hm] at h3
          rcases max_choice m.2 (a.1 / (5 - a.2)) with hm' | hm'
          · rw [hm'] at h3; exact Or.inl h3
          · rw [hm'] at h3; exact Or.inr ⟨a, by simp, Or.inl h3⟩
        · rw [hm] at h3; exact Or.inr ⟨a, by simp, Or.inr h3⟩
      · exact Or.inr ⟨p, by simp [hp], h3⟩
    · rcases h4 with h4 | ⟨p, hp, h4⟩
      · rw [hfb] at h4
        rcases max_choice m.1 |a.2| with hm | hm
        · rw [hm] at h4; exact Or.inl h4
        · rw [hm] at h4; exact Or.inr ⟨a, by simp, h4⟩
      · exact Or.inr ⟨p, by simp [hp], h4⟩

/-- **C65** For every optimum strictly inside the region of interest, every direction that is not zero and every random number
the direction is scaled by a positive factor, such that the optimum plus the direction is in [-5, 5] in every coordinate; with
the random shrinking (between 0.75 and 1) undone a coordinate is exactly on the boundary. -/
theorem C65_length (fd xopt : Vec n) (r : ℝ) (hx : ∀ i, |xopt i| < 5) (hfd : fd ≠ 0) (hr : 0 ≤ r ∧ r ≤ 1) :
    ∃ q, setLength fd xopt r = .ok q ∧ (∃ t, 0 < t ∧ ∀ i, q i = t * fd i) ∧
      (∀ i, -5 ≤ xopt i + q i ∧ xopt i + q i ≤ 5) ∧
      ∃ s, 0.75 ≤ s ∧ s ≤ 1 ∧ ∃ i, |xopt i + q i / s| = 5 := by
  obtain ⟨⟨h1, h2⟩, h3, h4⟩ := maxima_spec (List.ofFn fun i => (fd i, xopt i)) (0, 0)
  change 0 ≤ (maxima (List.ofFn fun i => (fd i, xopt i))).2 at h1
  change ∀ p : ℝ × ℝ, p ∈ _ → p.1 / (5 - p.2) ≤ (maxima (List.ofFn fun i => (fd i, xopt i))).2 ∧
    p.1 / (-5 - p.2) ≤ (maxima (List.ofFn fun i => (fd i, xopt i))).2 at h2
  change (maxima (List.ofFn fun i => (fd i, xopt i))).2 = 0 ∨ ∃ p : ℝ × ℝ, p ∈ _ ∧ ((maxima (List.ofFn fun i => (fd i, xopt i))).2 = p.1 / (5 - p.2) ∨
    (maxima (List.ofFn fun i => (fd i, xopt i))).2 = p.1 / (-5 - p.2)) at h3
  change (maxima (List.ofFn fun i => (fd i, xopt i))).1 = 0 ∨ ∃ p : ℝ × ℝ, p ∈ _ ∧ (maxima (List.ofFn fun i => (fd i, xopt i))).1 = |p.2| at h4
  unfold setLength
  dsimp only
  generalize maxima (List.ofFn fun i => (fd i, xopt i)) = m at h1 h2 h3 h4
  have hb : ∀ i, 0 < 5 - xopt i ∧ 0 < 5 + xopt i := fun i => by
    have := abs_lt.mp (hx i)
    exact ⟨by linarith, by linarith⟩
  have h2' : ∀ i, fd i ≤ m.2 * (5 - xopt i) ∧ -fd i ≤ m.2 * (5 + xopt i) := by
    intro i
    have := h2 (fd i, xopt i) (List.mem_ofFn.mpr ⟨i, rfl⟩)
    obtain ⟨p1, p2⟩ := hb i
    refine ⟨(div_le_iff₀ p1).mp this.1, ?_⟩
    have h := this.2
    dsimp only at h
    rw [show fd i / (-5 - xopt i) = -fd i / (5 + xopt i) by
      rw [show (-5 - xopt i) = -(5 + xopt i) by ring, div_neg, neg_div], div_le_iff₀ p2] at h
    exact h
  have hm1 : ¬ m.1 > 5 := by
    rcases h4 with h | ⟨p, hp, h⟩
    · rw [h]; norm_num
    · obtain ⟨i, rfl⟩ := List.mem_ofFn.mp hp
      rw [h]
      exact not_lt.mpr (hx i).le
  have hm2 : 0 < m.2 := by
    rcases lt_or_eq_of_le h1 with h | h
    · exact h
    · exfalso
      apply hfd
      funext i
      have := h2' i
      rw [← h, zero_mul, zero_mul] at this
      show fd i = 0
      linarith
  rw [if_neg hm1]
  have hs0 : 0.75 ≤ 0.75 + r * (1 - 0.75) := by
    have : 0 ≤ r * (1 - 0.75) := mul_nonneg hr.1 (by norm_num)
    linarith
  have hs1 : 0.75 + r * (1 - 0.75) ≤ 1 := by
    have : r * (1 - 0.75) ≤ 1 * (1 - 0.75) := mul_le_mul_of_nonneg_right hr.2 (by norm_num)
    linarith
  refine ⟨_, rfl, ⟨(0.75 + r * (1 - 0.75)) / m.2, ?_, ?_⟩, ?_, 0.75 + r * (1 - 0.75), hs0, hs1, ?_⟩
  · exact div_pos (by linarith) hm2
  · intro i
    unfold scale
    rw [if_pos hm2.ne', mul_comm]
  · intro i
    obtain ⟨p1, p2⟩ := hb i
    obtain ⟨q1, q2⟩ := h2' i
    have e : scale fd (0.75 + r * (1 - 0.75)) m.2 i = (0.75 + r * (1 - 0.75)) * (fd i / m.2) := by
      unfold scale
      rw [if_pos hm2.ne']
      ring
    rw [e]
    generalize 0.75 + r * (1 - 0.75) = s at hs0 hs1
    have a1 : fd i / m.2 ≤ 5 - xopt i := by rw [div_le_iff₀ hm2, mul_comm]; exact q1
    have a2 : -(5 + xopt i) ≤ fd i / m.2 := by rw [le_div_iff₀ hm2, mul_comm]; linarith
    have hs : 0 ≤ s := by linarith
    constructor <;> nlinarith
  · generalize hs : 0.75 + r * (1 - 0.75) = s at hs0 hs1
    have hsne : s ≠ 0 := by linarith
    have e : ∀ i, scale fd s m.2 i / s = fd i / m.2 := by
      intro i
      unfold scale
      rw [if_pos hm2.ne']
      field_simp
    rcases h3 with h | ⟨p, hp, h⟩
    · exact absurd h hm2.ne'
    · obtain ⟨i, rfl⟩ := List.mem_ofFn.mp hp
      obtain ⟨p1, p2⟩ := hb i
      refine ⟨i, ?_⟩
      rw [e]
      dsimp only at h
      rcases h with h | h
      · have hf : fd i = m.2 * (5 - xopt i) := by rw [h, div_mul_cancel₀ _ p1.ne']
        rw [hf, mul_div_cancel_left₀ _ hm2.ne']
        rw [show xopt i + (5 - xopt i) = 5 by ring]
        norm_num
      · have hne : (-5 - xopt i) ≠ 0 := by intro h0; linarith
        have hf : fd i = m.2 * (-5 - xopt i) := by rw [h, div_mul_cancel₀ _ hne]
        rw [hf, mul_div_cancel_left₀ _ hm2.ne']
        rw [show xopt i + (-5 - xopt i) = -5 by ring]
        norm_num

/-- Optimum (1, -2), direction (1, 1): three units are possible in the first coordinate. -/
example : (∀ i, |(![1, -2] : Vec 2) i| < 5) ∧ (fun _ => 1 : Vec 2) ≠ 0 :=
  ⟨fun i => by fin_cases i <;> norm_num [abs_of_neg], fun h => by have := congrFun h 0; simp at this⟩

end Constrained
