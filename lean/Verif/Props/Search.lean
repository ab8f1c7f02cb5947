import Mathlib.Tactic
import Mathlib.Analysis.SpecialFunctions.Pow.Real
import Verif.Model.Search

/-!
# The search algorithms of the example experiment (C119)
-/

namespace Search

/-! ### Specification -/

/-- The coordinates of a grid point: for an integer variable with the values 0 to `hi` one of them, for a continuous variable
`lo + (hi - lo) * n / m` for some `n` from 0 to `m`. -/
def Spec.OnAxis (int : Bool) (m : Nat) (b : Bounds) (x : ℝ) : Prop :=
  if int then ∃ n : Nat, x = n ∧ (n : ℝ) ≤ b.hi else ∃ n : Nat, n ≤ m ∧ x = b.lo + (b.hi - b.lo) * n / m

/-- A point of the grid with `m` intervals for each continuous variable; the first `ni` variables are integer variables. -/
def Spec.OnGrid (m : Nat) : Nat → List Bounds → List ℝ → Prop
  | _, [], [] => True
  | 0, b :: bs, x :: xs => Spec.OnAxis false m b x ∧ Spec.OnGrid m 0 bs xs
  | ni + 1, b :: bs, x :: xs => Spec.OnAxis true m b x ∧ Spec.OnGrid m ni bs xs
  | _, _, _ => False

/-- Bounds as in the suites: integer variables have the values 0, 1, ..., `hi` with an integer `hi` of at least 1, continuous
variables an interval. -/
def Spec.Valid : Nat → List Bounds → Prop
  | _, [] => True
  | 0, b :: bs => b.lo < b.hi ∧ Spec.Valid 0 bs
  | ni + 1, b :: bs => (b.lo = 0 ∧ ∃ h : Nat, 0 < h ∧ b.hi = h) ∧ Spec.Valid ni bs

/-- The number of intervals for each continuous variable. -/
def Spec.intervals (root : Int) : Nat := max 1 (root - 1).toNat

/-! ### Mixed radix numbers -/

/-- The digits of `k` to the bases `m + 1`, the lowest first. -/
def digits : List Nat → Nat → List Nat
  | [], _ => []
  | m :: ms, k => k % (m + 1) :: digits ms (k / (m + 1))

/-- The number of nodes. -/
def total : List Nat → Nat
  | [] => 1
  | m :: ms => (m + 1) * total ms

theorem total_pos (ms : List Nat) : 0 < total ms := by
  induction ms with
  | nil => simp [total]
  | cons m ms ih => exact Nat.mul_pos (Nat.succ_pos _) ih

theorem digits_zero (ms : List Nat) : digits ms 0 = ms.map fun _ => 0 := by
  induction ms with
  | nil => rfl
  | cons m ms ih => simp [digits, ih]

theorem digits_length (ms : List Nat) (k : Nat) : (digits ms k).length = ms.length := by
  induction ms generalizing k with
  | nil => rfl
  | cons m ms ih => simp [digits, ih]

theorem succ_split (m k : Nat) :
    (k % (m + 1) < m ∧ (k + 1) % (m + 1) = k % (m + 1) + 1 ∧ (k + 1) / (m + 1) = k / (m + 1)) ∨
      (k % (m + 1) = m ∧ (k + 1) % (m + 1) = 0 ∧ (k + 1) / (m + 1) = k / (m + 1) + 1) := by
  have h := Nat.div_add_mod k (m + 1)
  have hl : k % (m + 1) < m + 1 := Nat.mod_lt k (Nat.succ_pos m)
  rcases Nat.lt_or_ge (k % (m + 1)) m with hk | hk
  · left
    have e : k + 1 = (k % (m + 1) + 1) + (m + 1) * (k / (m + 1)) := by omega
    refine ⟨hk, ?_, ?_⟩
    · conv_lhs => rw [e]
      rw [Nat.add_mul_mod_self_left, Nat.mod_eq_of_lt (by omega)]
    · conv_lhs => rw [e]
      rw [Nat.add_mul_div_left _ _ (Nat.succ_pos m), Nat.div_eq_of_lt (by omega), Nat.zero_add]
  · right
    have hm : k % (m + 1) = m := by omega
    have e : k + 1 = 0 + (m + 1) * (k / (m + 1) + 1) := by rw [Nat.mul_add]; omega
    refine ⟨hm, ?_, ?_⟩
    · conv_lhs => rw [e]
      rw [Nat.add_mul_mod_self_left, Nat.zero_mod]
    · conv_lhs => rw [e]
      rw [Nat.add_mul_div_left _ _ (Nat.succ_pos m), Nat.zero_div, Nat.zero_add]

theorem bump_digits (ms : List Nat) : ∀ k, k < total ms →
    bump ms (digits ms k) = if k + 1 < total ms then some (digits ms (k + 1)) else none := by
  induction ms with
  | nil => intro k hk; simp [total] at hk; subst hk; simp [bump, total]
  | cons m ms ih =>
    intro k hk
    have hq : k / (m + 1) < total ms := Nat.div_lt_of_lt_mul hk
    have h := Nat.div_add_mod k (m + 1)
    rcases succ_split m k with ⟨h1, h2, h3⟩ | ⟨h1, h2, h3⟩
    · have : k + 1 < total (m :: ms) := by
        have : (m + 1) * (k / (m + 1) + 1) ≤ (m + 1) * total ms := Nat.mul_le_mul_left _ hq
        rw [Nat.mul_add] at this
        show k + 1 < (m + 1) * total ms
        omega
      rw [if_pos this]
      simp [bump, digits, h1, h2, h3]
    · have hb : bump (m :: ms) (digits (m :: ms) k) = (bump ms (digits ms (k / (m + 1)))).map (0 :: ·) := by
        simp [bump, digits, h1]
      rw [hb, ih _ hq]
      have hi : (k + 1 < total (m :: ms)) ↔ (k / (m + 1) + 1 < total ms) := by
        have e : k + 1 = (m + 1) * (k / (m + 1) + 1) := by rw [Nat.mul_add]; omega
        rw [e]
        exact Nat.mul_lt_mul_left (Nat.succ_pos m)
      by_cases hc : k / (m + 1) + 1 < total ms
      · rw [if_pos hc, if_pos (hi.2 hc)]
        simp [digits, h2, h3]
      · rw [if_neg hc, if_neg fun h => hc (hi.1 h)]
        rfl

theorem digits_last (ms : List Nat) : digits ms (total ms - 1) = ms := by
  induction ms with
  | nil => rfl
  | cons m ms ih =>
    have ht := total_pos ms
    have e : (m + 1) * total ms - 1 = m + (m + 1) * (total ms - 1) := by
      obtain ⟨t, ht⟩ := Nat.exists_eq_succ_of_ne_zero (Nat.pos_iff_ne_zero.1 ht)
      rw [ht]
      simp only [Nat.succ_eq_add_one, Nat.mul_add, Nat.add_sub_cancel]
      omega
    rw [digits, total, e, Nat.add_mul_mod_self_left, Nat.mod_eq_of_lt (Nat.lt_succ_self m),
      Nat.add_mul_div_left _ _ (Nat.succ_pos m), Nat.div_eq_of_lt (Nat.lt_succ_self m), Nat.zero_add, ih]

theorem advance_digits (m : Nat) (ms : List Nat) (hm : 0 < m) (k : Nat) (hk : k < total (m :: ms)) :
    advance (m :: ms) (digits (m :: ms) k) =
      if k + 1 < total (m :: ms) then some (digits (m :: ms) (k + 1)) else none := by
  have hb := bump_digits (m :: ms) k hk
  by_cases hc : k + 1 < total (m :: ms)
  · rw [if_pos hc] at hb ⊢
    rw [digits] at hb ⊢
    simp only [bump, advance] at hb ⊢
    by_cases h : k % (m + 1) < m
    · rw [if_pos h] at hb ⊢; exact hb
    · rw [if_neg h] at hb ⊢
      rw [if_pos hm]
      cases hx : bump ms (digits ms (k / (m + 1))) with
      | none => rw [hx] at hb; simp at hb
      | some y => rw [hx] at hb; simpa using hb
  · rw [if_neg hc] at hb ⊢
    have he : k = total (m :: ms) - 1 := by omega
    have hl : digits (m :: ms) k = m :: ms := by rw [he]; exact digits_last _
    rw [hl] at hb ⊢
    simp only [bump, advance, lt_irrefl, if_false, hm, if_true] at hb ⊢
    cases hx : bump ms ms with
    | none => simp
    | some y => rw [hx] at hb; simp at hb

theorem visit_eq (ai : Bool) (nodes : Nat) (m : Nat) (ms : List Nat) (hm : 0 < m) (left : Nat) :
    ∀ e, e < total (m :: ms) → visit ai nodes (m :: ms) left e (digits (m :: ms) e) =
      (List.range' e (min left ((if ai then min nodes (total (m :: ms)) else total (m :: ms)) - e))).map
        (digits (m :: ms)) := by
  induction left with
  | zero => intro e _; simp [visit]
  | succ left ih =>
    intro e he
    rw [visit]
    by_cases hs : ai = true ∧ nodes ≤ e
    · rw [if_pos hs, if_pos hs.1]
      have : min nodes (total (m :: ms)) - e = 0 := by omega
      simp [this]
    · rw [if_neg hs, advance_digits m ms hm e he]
      generalize hlim : (if ai then min nodes (total (m :: ms)) else total (m :: ms)) = lim at ih ⊢
      have hle : e < lim := by
        rw [← hlim]
        split_ifs with h
        · have : ¬ nodes ≤ e := fun x => hs ⟨h, x⟩
          omega
        · exact he
      have hlt : lim ≤ total (m :: ms) := by rw [← hlim]; split_ifs <;> omega
      have hn : min (left + 1) (lim - e) = min left (lim - (e + 1)) + 1 := by omega
      rw [hn, List.range'_succ, List.map_cons]
      congr 1
      by_cases hc : e + 1 < total (m :: ms)
      · rw [if_pos hc]
        exact ih (e + 1) hc
      · rw [if_neg hc]
        have : lim - (e + 1) = 0 := by omega
        simp [this]

theorem digits_inj (ms : List Nat) : ∀ j k, j < total ms → k < total ms → digits ms j = digits ms k → j = k := by
  induction ms with
  | nil => intro j k hj hk _; simp [total] at hj hk; omega
  | cons m ms ih =>
    intro j k hj hk h
    simp only [digits, List.cons.injEq] at h
    have := ih _ _ (Nat.div_lt_of_lt_mul hj) (Nat.div_lt_of_lt_mul hk) h.2
    rw [← Nat.div_add_mod j (m + 1), ← Nat.div_add_mod k (m + 1), this, h.1]

theorem digits_surj (ms : List Nat) : ∀ ns, List.Forall₂ (· ≤ ·) ns ms → ∃ k, k < total ms ∧ digits ms k = ns := by
  induction ms with
  | nil => intro ns h; cases h; exact ⟨0, by simp [total], rfl⟩
  | cons m ms ih =>
    intro ns h
    cases h with
    | cons h1 h2 =>
      rename_i n ns
      obtain ⟨k, hk, he⟩ := ih _ h2
      refine ⟨n + (m + 1) * k, ?_, ?_⟩
      · have : (m + 1) * (k + 1) ≤ (m + 1) * total ms := Nat.mul_le_mul_left _ hk
        rw [Nat.mul_add] at this
        show _ < (m + 1) * total ms
        omega
      · rw [digits, Nat.add_mul_mod_self_left, Nat.mod_eq_of_lt (by omega), Nat.add_mul_div_left _ _ (Nat.succ_pos m),
          Nat.div_eq_of_lt (by omega), Nat.zero_add, he]

theorem digits_le (ms : List Nat) : ∀ k, List.Forall₂ (· ≤ ·) (digits ms k) ms := by
  induction ms with
  | nil => intro k; exact .nil
  | cons m ms ih => intro k; exact .cons (Nat.lt_succ_iff.1 (Nat.mod_lt k (Nat.succ_pos m))) (ih _)

/-! ### The axes -/

theorem continuous_axis (root : Int) (b : Bounds) :
    continuousAxis root b = ((b.hi - b.lo) / (Spec.intervals root : ℝ), Spec.intervals root) := by
  unfold continuousAxis Spec.intervals
  by_cases h : root - 1 < 1
  · have : max 1 (root - 1).toNat = 1 := by omega
    simp only [if_pos h, this]
    norm_num
  · have : max 1 (root - 1).toNat = (root - 1).toNat := by omega
    simp only [if_neg h, this]
    have h2 : ((root - 1).toNat : Int) = root - 1 := Int.toNat_of_nonneg (by omega)
    have h3 : (((root - 1).toNat : Nat) : ℝ) = ((root - 1 : Int) : ℝ) := by
      rw [← h2]; simp
    rw [h3]

theorem integer_axis (b : Bounds) (h : Nat) (h0 : 0 < h) (hl : b.lo = 0) (hh : b.hi = h) :
    integerAxis b = .ok (1, h) := by
  unfold integerAxis
  have hf : ⌊(h : ℝ) + 0.5⌋ = (h : Int) := by
    rw [Int.floor_eq_iff]
    constructor
    · push_cast; norm_num
    · push_cast; norm_num
  rw [hl, hh, hf]
  rw [if_pos ⟨by norm_num, by exact_mod_cast h0⟩]
  simp

/-- What the loop over the variables yields for valid bounds. -/
theorem axes_valid (root : Int) : ∀ (ni : Nat) (bs : List Bounds), Spec.Valid ni bs → ∃ as nodes,
    axes root ni bs = .ok (as, nodes) ∧ as.length = bs.length ∧ (∀ a ∈ as, 0 < a.2 ∧ 0 < a.1) ∧
      nodes ≤ total (as.map (·.2)) ∧
      (∀ ns, List.Forall₂ (· ≤ ·) ns (as.map (·.2)) → Spec.OnGrid (Spec.intervals root) ni bs (point bs as ns)) ∧
      (∀ xs, Spec.OnGrid (Spec.intervals root) ni bs xs →
        ∃ ns, List.Forall₂ (· ≤ ·) ns (as.map (·.2)) ∧ point bs as ns = xs) ∧
      (ni = 0 → nodes = 1 ∧ total (as.map (·.2)) = (Spec.intervals root + 1) ^ bs.length) := by
  intro ni bs
  induction bs generalizing ni with
  | nil =>
    intro _
    refine ⟨[], 1, by cases ni <;> rfl, rfl, by simp, by simp [total], ?_, ?_, by simp [total]⟩
    · intro ns h
      cases h
      cases ni <;> exact trivial
    · intro xs h
      cases xs with
      | nil => exact ⟨[], .nil, rfl⟩
      | cons x xs => cases ni <;> exact absurd h (by simp [Spec.OnGrid])
  | cons b bs ih =>
    intro hv
    cases ni with
    | zero =>
      obtain ⟨as, nodes, h1, h2, h3, h4, h5, h6, h7⟩ := ih 0 hv.2
      have hi : 0 < Spec.intervals root := by unfold Spec.intervals; omega
      have hi' : (0 : ℝ) < Spec.intervals root := by exact_mod_cast hi
      refine ⟨continuousAxis root b :: as, nodes, by simp [axes, h1], by simp [h2], ?_, ?_, ?_, ?_, ?_⟩
      · intro a ha
        rcases List.mem_cons.1 ha with rfl | ha
        · rw [continuous_axis]
          exact ⟨hi, div_pos (sub_pos.2 hv.1) hi'⟩
        · exact h3 a ha
      · calc nodes ≤ total (as.map (·.2)) := h4
          _ ≤ _ := Nat.le_mul_of_pos_left _ (Nat.succ_pos _)
      · intro ns hns
        cases hns with
        | cons ha hb =>
          rename_i n ns
          rw [continuous_axis] at ha ⊢
          refine ⟨?_, h5 _ hb⟩
          show Spec.OnAxis false _ _ _
          refine ⟨n, ha, ?_⟩
          show b.lo + (b.hi - b.lo) / _ * _ = _
          ring
      · intro xs hxs
        cases xs with
        | nil => exact absurd hxs (by simp [Spec.OnGrid])
        | cons x xs =>
          obtain ⟨⟨n, hn, hx⟩, ht⟩ := hxs
          obtain ⟨ns, hns, hp⟩ := h6 xs ht
          refine ⟨n :: ns, ?_, ?_⟩
          · rw [continuous_axis]; exact .cons hn hns
          · rw [continuous_axis]
            show (b.lo + (b.hi - b.lo) / _ * _) :: point bs as ns = _
            rw [hp, hx]
            congr 1
            ring
      · intro _
        obtain ⟨h71, h72⟩ := h7 rfl
        refine ⟨h71, ?_⟩
        rw [continuous_axis]
        simp only [List.map_cons, total, List.length_cons, h72, pow_succ]
        ring
    | succ ni =>
      obtain ⟨⟨hl, h, h0, hh⟩, hv2⟩ := hv
      obtain ⟨as, nodes, h1, h2, h3, h4, h5, h6, -⟩ := ih ni hv2
      refine ⟨(1, h) :: as, h * nodes, by simp [axes, integer_axis b h h0 hl hh, h1], by simp [h2], ?_, ?_, ?_, ?_,
        fun e => by omega⟩
      · intro a ha
        rcases List.mem_cons.1 ha with rfl | ha
        · exact ⟨h0, one_pos⟩
        · exact h3 a ha
      · exact Nat.mul_le_mul (Nat.le_succ h) h4
      · intro ns hns
        cases hns with
        | cons ha hb =>
          rename_i n ns
          refine ⟨?_, h5 _ hb⟩
          show Spec.OnAxis true _ _ _
          refine ⟨n, ?_, ?_⟩
          · show b.lo + 1 * (n : ℝ) = n
            rw [hl]; ring
          · rw [hh]; exact_mod_cast ha
      · intro xs hxs
        cases xs with
        | nil => exact absurd hxs (by simp [Spec.OnGrid])
        | cons x xs =>
          obtain ⟨⟨n, hx, hn⟩, ht⟩ := hxs
          obtain ⟨ns, hns, hp⟩ := h6 xs ht
          refine ⟨n :: ns, .cons (by rw [hh] at hn; exact_mod_cast hn) hns, ?_⟩
          show (b.lo + 1 * (n : ℝ)) :: point bs as ns = _
          rw [hp, hx, hl]
          congr 1
          ring

theorem point_inj : ∀ (bs : List Bounds) (as : List (ℝ × Nat)), as.length = bs.length → (∀ a ∈ as, 0 < a.1) →
    ∀ ns ks, ns.length = as.length → ks.length = as.length → point bs as ns = point bs as ks → ns = ks := by
  intro bs as
  induction as generalizing bs with
  | nil =>
    intro _ _ ns ks hn hk _
    rw [List.length_eq_zero_iff.1 hn, List.length_eq_zero_iff.1 hk]
  | cons a as ih =>
    intro hl hp ns ks hn hk he
    cases bs with
    | nil => simp at hl
    | cons b bs =>
      cases ns with
      | nil => simp at hn
      | cons n ns =>
        cases ks with
        | nil => simp at hk
        | cons k ks =>
          simp only [point, List.cons.injEq] at he
          have h1 : (n : ℝ) = k := by
            have := add_left_cancel he.1
            exact mul_left_cancel₀ (ne_of_gt (hp a (by simp))) this
          have h2 := ih bs (by simpa using hl) (fun a ha => hp a (by simp [ha])) ns ks (by simpa using hn)
            (by simpa using hk) he.2
          rw [Nat.cast_inj.1 h1, h2]

/-- The points evaluated are those of the first nodes. -/
theorem grid_eq (root : Int) (ni : Nat) (b : Bounds) (bs : List Bounds) (budget : Nat) (hv : Spec.Valid ni (b :: bs)) :
    ∃ as nodes, axes root ni (b :: bs) = .ok (as, nodes) ∧ as.length = (b :: bs).length ∧
      grid root ni (b :: bs) budget = .ok ((List.range (min budget (if ni = (b :: bs).length then nodes else
        total (as.map (·.2))))).map fun k => point (b :: bs) as (digits (as.map (·.2)) k)) := by
  obtain ⟨as, nodes, h1, h2, h3, h4, -⟩ := axes_valid root ni (b :: bs) hv
  refine ⟨as, nodes, h1, h2, ?_⟩
  unfold grid
  rw [h1]
  cases as with
  | nil => simp at h2
  | cons a as =>
    have hz : ((b :: bs).map fun _ => 0) = digits ((a :: as).map (·.2)) 0 := by
      rw [digits_zero, List.map_const', List.map_const']
      simp [h2]
      simpa using h2.symm
    have hvis := visit_eq (ni == (b :: bs).length) nodes a.2 (as.map (·.2)) (h3 a (by simp)).1 budget 0 (total_pos _)
    show Res.ok _ = _
    rw [hz]
    simp only [List.map_cons] at hvis h4 ⊢
    rw [hvis, List.map_map, ← List.range_eq_range', Nat.sub_zero]
    congr 2
    by_cases hc : ni = (b :: bs).length
    · simp only [hc, beq_self_eq_true, if_true]
      rw [Nat.min_eq_left h4]
    · have : (ni == (b :: bs).length) = false := by simpa using hc
      simp only [this, hc, if_false]
      rfl

/-! ### C119 -/

/-- **C119** (partial). For all bounds as in the suites, any number of integer variables and any budget, the grid search
evaluates at most as many points as the budget says, no point twice, and only points of the grid with
`Spec.intervals root` intervals per continuous variable (whatever value `root` the C library computes for the
root of the budget). (That it evaluates all of them is only proved without integer variables: `C119_complete`.) -/
theorem C119_grid_partial (root : Int) (ni : Nat) (bs : List Bounds) (hb : bs ≠ []) (budget : Nat)
    (hv : Spec.Valid ni bs) :
    ∃ pts, grid root ni bs budget = .ok pts ∧ pts.length ≤ budget ∧ pts.Nodup ∧
      ∀ x ∈ pts, Spec.OnGrid (Spec.intervals root) ni bs x := by
  obtain ⟨b, bs, rfl⟩ := List.exists_cons_of_ne_nil hb
  obtain ⟨as, nodes, h1, h2, hg⟩ := grid_eq root ni b bs budget hv
  obtain ⟨as', nodes', h1', -, h3, h4, h5, -⟩ := axes_valid root ni (b :: bs) hv
  rw [h1] at h1'
  injection h1' with h1'
  injection h1' with ha hn
  subst ha hn
  refine ⟨_, hg, by simp, ?_, ?_⟩
  · refine (List.nodup_map_iff_inj_on List.nodup_range).2 ?_
    intro j hj k hk he
    rw [List.mem_range] at hj hk
    have hlim : min budget (if ni = (b :: bs).length then nodes else total (as.map (·.2))) ≤ total (as.map (·.2)) := by
      split_ifs <;> omega
    refine digits_inj (as.map (·.2)) j k (by omega) (by omega) ?_
    exact point_inj (b :: bs) as h2 (fun a ha => (h3 a ha).2) _ _ (by rw [digits_length]; simp)
      (by rw [digits_length]; simp) he
  · intro x hx
    obtain ⟨k, -, rfl⟩ := List.mem_map.1 hx
    exact h5 _ (digits_le _ k)

/-- **C119** (complete without integer variables). If the budget suffices for the smallest grid, that is for `2 ^ n` points, and
the root of the budget is computed exactly, then all points of the grid are evaluated. -/
theorem C119_complete (bs : List Bounds) (hb : bs ≠ []) (budget : Nat) (hv : Spec.Valid 0 bs) (root : Int)
    (hr : root = ⌊(budget : ℝ) ^ ((1 : ℝ) / (bs.length : ℝ))⌋) (h2 : 2 ^ bs.length ≤ budget) :
    ∃ pts, grid root 0 bs budget = .ok pts ∧ ∀ x, x ∈ pts ↔ Spec.OnGrid (root.toNat - 1) 0 bs x := by
  obtain ⟨b, bs, rfl⟩ := List.exists_cons_of_ne_nil hb
  obtain ⟨as, nodes, h1, hlen, hg⟩ := grid_eq root 0 b bs budget hv
  obtain ⟨as', nodes', h1', -, h3, h4, h5, h6, h7⟩ := axes_valid root 0 (b :: bs) hv
  rw [h1] at h1'
  injection h1' with h1'
  injection h1' with ha hn
  subst ha hn
  obtain ⟨-, h7⟩ := h7 rfl
  have hn0 : ((b :: bs).length : ℝ) ≠ 0 := by
    rw [List.length_cons]
    exact_mod_cast Nat.succ_ne_zero bs.length
  have hpow : ∀ y : ℝ, 0 ≤ y → (y ^ ((1 : ℝ) / ((b :: bs).length : ℝ))) ^ (b :: bs).length = y := by
    intro y hy
    rw [← Real.rpow_natCast, ← Real.rpow_mul hy, one_div, inv_mul_cancel₀ hn0, Real.rpow_one]
  have hroot2 : 2 ≤ root := by
    rw [hr, Int.le_floor]
    have : ((2 : ℝ) ^ (b :: bs).length) ^ ((1 : ℝ) / ((b :: bs).length : ℝ)) ≤
        (budget : ℝ) ^ ((1 : ℝ) / ((b :: bs).length : ℝ)) :=
      Real.rpow_le_rpow (by positivity) (by exact_mod_cast h2) (by positivity)
    rw [← Real.rpow_natCast, ← Real.rpow_mul (by norm_num), one_div, mul_inv_cancel₀ hn0, Real.rpow_one] at this
    rw [one_div]
    exact_mod_cast this
  have hint : Spec.intervals root = root.toNat - 1 := by unfold Spec.intervals; omega
  have htot : total (as.map (·.2)) ≤ budget := by
    rw [h7, hint, show root.toNat - 1 + 1 = root.toNat by omega]
    have hle : ((root.toNat : Nat) : ℝ) ≤ (budget : ℝ) ^ ((1 : ℝ) / ((b :: bs).length : ℝ)) := by
      have h8 : ((root.toNat : Int) : ℝ) = ((root : Int) : ℝ) := by rw [Int.toNat_of_nonneg (by omega)]
      have h9 : ((root.toNat : Nat) : ℝ) = ((root : Int) : ℝ) := by
        rw [← h8, Int.cast_natCast]
      rw [h9, hr]
      exact Int.floor_le _
    have := pow_le_pow_left₀ (Nat.cast_nonneg _) hle (b :: bs).length
    rw [hpow _ (Nat.cast_nonneg _)] at this
    exact_mod_cast this
  refine ⟨_, hg, fun x => ?_⟩
  rw [← hint]
  rw [if_neg (by simp), Nat.min_eq_right htot]
  constructor
  · intro hx
    obtain ⟨k, -, rfl⟩ := List.mem_map.1 hx
    exact h5 _ (digits_le _ k)
  · intro hx
    obtain ⟨ns, hns, hp⟩ := h6 x hx
    obtain ⟨k, hk, hd⟩ := digits_surj _ ns hns
    exact List.mem_map.2 ⟨k, List.mem_range.2 hk, by rw [hd, hp]⟩

/-- **C119** (integer variables only). The full statement is false with integer variables: the number of nodes is computed as
the product of the largest nodes, one too small for each variable. On a problem with `n` variables 0 or 1 the
grid search evaluates a single point, whatever the budget. -/
theorem C119_binary (root : Int) (n budget : Nat) (hn : 0 < n) (hb : 0 < budget) :
    grid root n (List.replicate n ⟨0, 1⟩) budget = .ok [List.replicate n 0] := by
  have hax : ∀ n, axes root n (List.replicate n ⟨0, 1⟩) = .ok (List.replicate n (1, 1), 1) := by
    intro n
    induction n with
    | zero => rfl
    | succ n ih =>
      have : integerAxis ⟨0, 1⟩ = .ok (1, 1) := integer_axis ⟨0, 1⟩ 1 one_pos rfl (by norm_num)
      simp [List.replicate_succ, axes, this, ih]
  have hp : ∀ n, point (List.replicate n ⟨0, 1⟩) (List.replicate n (1, 1)) (List.replicate n 0) = List.replicate n 0 := by
    intro n
    induction n with
    | zero => rfl
    | succ n ih => simp only [List.replicate_succ, point, ih]; simp
  obtain ⟨n, rfl⟩ := Nat.exists_eq_succ_of_ne_zero (Nat.pos_iff_ne_zero.1 hn)
  obtain ⟨budget, rfl⟩ := Nat.exists_eq_succ_of_ne_zero (Nat.pos_iff_ne_zero.1 hb)
  have hv : visit true 1 (List.replicate (n + 1) 1) (budget + 1) 0 (List.replicate (n + 1) 0) =
      [List.replicate (n + 1) 0] := by
    rw [visit, if_neg (by simp)]
    congr 1
    cases advance (List.replicate (n + 1) 1) (List.replicate (n + 1) 0) with
    | none => rfl
    | some ns => cases budget <;> simp [visit]
  unfold grid
  rw [hax]
  show Res.ok _ = _
  simp only [List.length_replicate, beq_self_eq_true, List.map_replicate, Nat.succ_eq_add_one] at hv ⊢
  rw [hv]
  simp only [List.map_cons, List.map_nil, hp]

/-- **C119** (an integer and a continuous variable). With the budget 4, sufficient for the smallest grid, on a problem with an
integer variable 0 or 1 and a continuous variable between 0 and 3 the grid has 8 points, and the evaluations end at
a third of the continuous variable. -/
theorem C119_mixed : (4 : Int) = ⌊((4 : ℝ) / 1) ^ ((1 : ℝ) / 1)⌋ ∧
    grid 4 1 [⟨0, 1⟩, ⟨0, 3⟩] 4 = .ok [[0, 0], [1, 0], [0, 1], [1, 1]] ∧
    Spec.OnGrid (Spec.intervals 4) 1 [⟨0, 1⟩, ⟨0, 3⟩] [1, 3] := by
  have hax : axes 4 1 [⟨0, 1⟩, ⟨0, 3⟩] = .ok ([(1, 1), (1, 3)], 1) := by
    have h1 : integerAxis ⟨0, 1⟩ = .ok (1, 1) := integer_axis ⟨0, 1⟩ 1 one_pos rfl (by norm_num)
    have h2 : continuousAxis 4 ⟨0, 3⟩ = (1, 3) := by
      rw [continuous_axis, show Spec.intervals 4 = 3 from rfl]
      norm_num
    simp [axes, h1, h2]
  refine ⟨?_, ?_, ?_⟩
  · norm_num
  · unfold grid
    rw [hax]
    show Res.ok _ = _
    have hv : visit ((1 : Nat) == 2) 1 [1, 3] 4 0 [0, 0] = [[0, 0], [1, 0], [0, 1], [1, 1]] := by decide
    have : (visit ((1 : Nat) == [(⟨0, 1⟩ : Bounds), ⟨0, 3⟩].length) 1 (List.map (·.2) [((1 : ℝ), 1), (1, 3)]) 4 0
        (List.map (fun _ => 0) [(⟨0, 1⟩ : Bounds), ⟨0, 3⟩])) = [[0, 0], [1, 0], [0, 1], [1, 1]] := hv
    rw [this]
    simp [point]
  · refine ⟨⟨1, by norm_num, by norm_num⟩, ⟨3, by decide, ?_⟩, trivial⟩
    rw [show Spec.intervals 4 = 3 from rfl]
    norm_num

/-- **C119** (random search). Each coordinate of a random point lies between the bounds, and is an integer for an integer
variable whose bounds are integers, for every random number from 0 to 1 (C43). -/
theorem C119_random_in_box (b : Bounds) (hb : b.lo ≤ b.hi) (u : ℝ) (h0 : 0 ≤ u) (h1 : u ≤ 1) :
    (b.lo ≤ coordinate b false u ∧ coordinate b false u ≤ b.hi) ∧
      ∀ l h : Int, b.lo = l → b.hi = h →
        ∃ n : Int, coordinate b true u = n ∧ b.lo ≤ coordinate b true u ∧ coordinate b true u ≤ b.hi := by
  have hx0 : b.lo ≤ b.lo + u * (b.hi - b.lo) := by nlinarith
  have hx1 : b.lo + u * (b.hi - b.lo) ≤ b.hi := by nlinarith
  refine ⟨⟨hx0, hx1⟩, fun l h hl hh => ⟨_, rfl, ?_, ?_⟩⟩
  · show b.lo ≤ ((⌊b.lo + u * (b.hi - b.lo) + 0.5⌋ : Int) : ℝ)
    rw [hl] at hx0 ⊢
    exact_mod_cast Int.le_floor.2 (by linarith)
  · show ((⌊b.lo + u * (b.hi - b.lo) + 0.5⌋ : Int) : ℝ) ≤ b.hi
    rw [hh] at hx1 ⊢
    have : ⌊b.lo + u * ((h : ℝ) - b.lo) + 0.5⌋ < h + 1 := by
      rw [Int.floor_lt]
      push_cast
      linarith
    exact_mod_cast Int.lt_add_one_iff.1 this

/-! ### Cases that meet the hypotheses -/

/-- Three variables as in the suite bbob-mixint (two and four values, and one continuous), and two as in bbob. -/
example : Spec.Valid 2 [⟨0, 1⟩, ⟨0, 3⟩, ⟨-5, 5⟩] ∧ Spec.Valid 0 [⟨-5, 5⟩, ⟨-5, 5⟩] :=
  ⟨⟨⟨rfl, 1, one_pos, by norm_num⟩, ⟨rfl, 3, by norm_num, by norm_num⟩, by norm_num, trivial⟩,
    by norm_num, by norm_num, trivial⟩

example : ∃ pts, grid 3 0 [⟨-5, 5⟩, ⟨-5, 5⟩] 9 = .ok pts ∧ [0, -5] ∈ pts ∧ [5, 5] ∈ pts := by
  obtain ⟨pts, h, hp⟩ := C119_complete [⟨-5, 5⟩, ⟨-5, 5⟩] (by simp) 9 ⟨by norm_num, by norm_num, trivial⟩ 3
    (by
      have : ((9 : Nat) : ℝ) ^ ((1 : ℝ) / (([(⟨-5, 5⟩ : Bounds), ⟨-5, 5⟩].length : Nat) : ℝ)) = 3 := by
        rw [show ((9 : Nat) : ℝ) = 3 ^ (2 : ℝ) by norm_num, ← Real.rpow_mul (by norm_num)]
        norm_num
      rw [this]
      norm_num) (by norm_num)
  refine ⟨pts, h, (hp _).2 ⟨⟨1, by decide, ?_⟩, ⟨0, by decide, ?_⟩, trivial⟩, (hp _).2 ⟨⟨2, by decide, ?_⟩, ⟨2, by decide, ?_⟩, trivial⟩⟩ <;>
    rw [show Int.toNat 3 - 1 = 2 from rfl] <;> norm_num

example : visit false 1 [1, 2] 10 0 [0, 0] = [[0, 0], [1, 0], [0, 1], [1, 1], [0, 2], [1, 2]] ∧
    visit false 1 [1, 2] 4 0 [0, 0] = [[0, 0], [1, 0], [0, 1], [1, 1]] := by
  decide

end Search
