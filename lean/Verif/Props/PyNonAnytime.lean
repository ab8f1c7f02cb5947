import Mathlib.Tactic
import Verif.Model.PyNonAnytime

/-!
# Benchmarking algorithms with a budget parameter in Python (C123)
-/

namespace PyNonAnytime

variable {X : Type}

/-! ### Specification -/

/-- The smallest value among points is `v`. -/
def Spec.Smallest (f : X → ℝ) (xs : List X) (v : ℝ) : Prop := (∃ x ∈ xs, f x = v) ∧ ∀ x ∈ xs, v ≤ f x

open Classical in
/-- What is to be recorded: of each run the evaluations beyond the number recorded so far, and then the solution delivered
unless its value is the smallest recorded one. -/
noncomputable def Spec.record (f : X → ℝ) : List X → List (List X × X) → List X
  | o, [] => o
  | o, (xs, d) :: rs =>
    let o' := o ++ xs.drop o.length
    Spec.record f (if Spec.Smallest f o' (f d) then o' else o' ++ [d]) rs

/-- Each run makes more evaluations than the one before, the first at least one. -/
def Spec.Increasing : Nat → List (List X × X) → Prop
  | _, [] => True
  | n, (xs, _) :: rs => n < xs.length ∧ Spec.Increasing xs.length rs

/-! ### Proofs -/

theorem foldl_min (f : X → ℝ) (xs : List X) (b : ℝ) :
    let v := xs.foldl (fun b y => if f y < b then f y else b) b
    (v = b ∨ ∃ x ∈ xs, f x = v) ∧ v ≤ b ∧ ∀ x ∈ xs, v ≤ f x := by
  induction xs generalizing b with
  | nil => simp
  | cons y ys ih =>
    obtain ⟨h1, h2, h3⟩ := ih (if f y < b then f y else b)
    simp only [List.foldl_cons]
    have hle : (if f y < b then f y else b) ≤ b ∧ (if f y < b then f y else b) ≤ f y := by
      split_ifs with h
      · exact ⟨h.le, le_refl _⟩
      · exact ⟨le_refl _, not_lt.1 h⟩
    refine ⟨?_, h2.trans hle.1, ?_⟩
    · rcases h1 with h1 | ⟨x, hx, h1⟩
      · rw [h1]
        split_ifs with h
        · exact .inr ⟨y, by simp, rfl⟩
        · exact .inl rfl
      · exact .inr ⟨x, by simp [hx], h1⟩
    · intro x hx
      rcases List.mem_cons.1 hx with rfl | hx
      · exact h2.trans hle.2
      · exact h3 x hx

theorem best_iff (f : X → ℝ) (xs : List X) (v : ℝ) : best f xs = some v ↔ Spec.Smallest f xs v := by
  cases xs with
  | nil => simp [best, Spec.Smallest]
  | cons x xs =>
    obtain ⟨h1, h2, h3⟩ := foldl_min f xs (f x)
    simp only [best, Option.some.injEq]
    set w := xs.foldl (fun b y => if f y < b then f y else b) (f x)
    have hw : Spec.Smallest f (x :: xs) w := by
      refine ⟨?_, ?_⟩
      · rcases h1 with h1 | ⟨y, hy, h1⟩
        · exact ⟨x, by simp, h1.symm⟩
        · exact ⟨y, by simp [hy], h1⟩
      · intro y hy
        rcases List.mem_cons.1 hy with rfl | hy
        · exact h2
        · exact h3 y hy
    constructor
    · rintro rfl; exact hw
    · rintro ⟨⟨y, hy, rfl⟩, hle⟩
      obtain ⟨z, hz, hzw⟩ := hw.1
      exact le_antisymm (hw.2 y hy) (by rw [← hzw]; exact hle z hz)

/-- Evaluations once the observed problem is in use. -/
theorem calls_observed (f : X → ℝ) (xs : List X) : ∀ (s : State X), s.evaluations = s.observed.length →
    calls f s xs = some (xs.map f, ⟨s.observed ++ xs, s.unobserved, s.evaluations + xs.length,
      if xs = [] then s.useObserved else true⟩) := by
  induction xs with
  | nil => intro s _; simp [calls]
  | cons x xs ih =>
    intro s hs
    have : call f s x = some (f x, ⟨s.observed ++ [x], s.unobserved, s.evaluations + 1, true⟩) := by
      simp [call, hs]
    rw [calls, this]
    simp only [Option.bind_eq_bind, Option.bind_some]
    rw [ih _ (by simp [hs])]
    simp [Nat.add_comm, Nat.add_left_comm]

/-- A run that begins with the unobserved problem. -/
theorem calls_reset (f : X → ℝ) (xs : List X) : ∀ (s : State X), s.useObserved = false → s.evaluations ≤ s.observed.length →
    ∃ u b, calls f s xs = some (xs.map f,
      ⟨s.observed ++ xs.drop (s.observed.length - s.evaluations), u, s.evaluations + xs.length, b⟩) := by
  induction xs with
  | nil => intro s _ _; exact ⟨s.unobserved, s.useObserved, by simp [calls]⟩
  | cons x xs ih =>
    intro s hu hs
    rcases Nat.lt_or_ge s.evaluations s.observed.length with h | h
    · have : call f s x = some (f x, ⟨s.observed, s.unobserved + 1, s.evaluations + 1, false⟩) := by
        simp [call, Nat.not_lt.2 hs, Nat.not_le.2 h, hu]
      obtain ⟨u, b, he⟩ := ih ⟨s.observed, s.unobserved + 1, s.evaluations + 1, false⟩ rfl (by simpa using h)
      refine ⟨u, b, ?_⟩
      rw [calls, this]
      simp only [Option.bind_eq_bind, Option.bind_some]
      rw [he]
      have e : s.observed.length - s.evaluations = (s.observed.length - (s.evaluations + 1)) + 1 := by omega
      rw [e, List.drop_succ_cons]
      simp [Nat.add_comm, Nat.add_left_comm]
    · have e : s.evaluations = s.observed.length := le_antisymm hs h
      refine ⟨s.unobserved, true, (calls_observed f (x :: xs) s e).trans ?_⟩
      simp [e]

theorem run_ok (f : X → ℝ) (xs : List X) (d : X) (s : State X) (hx : s.observed.length ≤ xs.length)
    (hs : s.evaluations = 0) (hu : s.useObserved = false ∨ s.observed = []) :
    ∃ s1 s2, calls f s xs = some (xs.map f, s1) ∧ delivered f s1 d = some s2 ∧
      s2.observed = Spec.record f s.observed [(xs, d)] ∧ s2.evaluations = 0 ∧ s2.useObserved = false ∧
      (s.observed ++ xs.drop s.observed.length).length = xs.length := by
  classical
  obtain ⟨u, b, hc⟩ : ∃ u b, calls f s xs = some (xs.map f, ⟨s.observed ++ xs.drop s.observed.length, u, xs.length, b⟩) := by
    rcases hu with hu | hu
    · obtain ⟨u, b, h⟩ := calls_reset f xs s hu (by omega)
      exact ⟨u, b, by rw [h]; simp [hs]⟩
    · exact ⟨s.unobserved, if xs = [] then s.useObserved else true,
        (calls_observed f xs s (by simp [hs, hu])).trans (by simp [hs, hu])⟩
  have hlen : (s.observed ++ xs.drop s.observed.length).length = xs.length := by simp; omega
  refine ⟨_, reset (if Spec.Smallest f (s.observed ++ xs.drop s.observed.length) (f d)
      then ⟨s.observed ++ xs.drop s.observed.length, u + 1, xs.length, b⟩
      else ⟨s.observed ++ xs.drop s.observed.length ++ [d], u + 1, xs.length, b⟩), hc, ?_, ?_, ?_, ?_, hlen⟩
  · unfold delivered
    simp only
    rw [if_neg (by omega)]
    by_cases h : Spec.Smallest f (s.observed ++ xs.drop s.observed.length) (f d)
    · have := (best_iff f _ _).2 h
      simp [this, h]
    · have : some (f d) ≠ best f (s.observed ++ xs.drop s.observed.length) := fun e => h ((best_iff f _ _).1 e.symm)
      rw [if_pos this, if_neg h]
  · simp only [Spec.record]
    split_ifs <;> rfl
  · split_ifs <;> rfl
  · split_ifs <;> rfl

theorem record_append (f : X → ℝ) (o : List X) (r : List X × X) (rs : List (List X × X)) :
    Spec.record f o (r :: rs) = Spec.record f (Spec.record f o [r]) rs := rfl

theorem record_length (f : X → ℝ) (o xs : List X) (d : X) (h : o.length ≤ xs.length) :
    xs.length ≤ (Spec.record f o [(xs, d)]).length ∧ (Spec.record f o [(xs, d)]).length ≤ xs.length + 1 := by
  classical
  simp only [Spec.record]
  split_ifs <;> simp <;> omega

theorem runs_ok (f : X → ℝ) (rs : List (List X × X)) : ∀ (n : Nat) (s : State X), Spec.Increasing n rs →
    s.observed.length ≤ n + 1 → s.evaluations = 0 → (s.useObserved = false ∨ s.observed = []) →
    ∃ s', runs f s rs = some (rs.map fun r => r.1.map f, s') ∧ s'.observed = Spec.record f s.observed rs := by
  induction rs with
  | nil => intro n s _ _ _ _; exact ⟨s, rfl, rfl⟩
  | cons r rs ih =>
    intro n s hi hl hs hu
    obtain ⟨xs, d⟩ := r
    have hx : s.observed.length ≤ xs.length := by have := hi.1; omega
    obtain ⟨s1, s2, h1, h2, h3, h4, h5, -⟩ := run_ok f xs d s hx hs hu
    obtain ⟨s', h6, h7⟩ := ih xs.length s2 hi.2 (by rw [h3]; exact (record_length f _ xs d hx).2) h4 (.inl h5)
    refine ⟨s', ?_, ?_⟩
    · rw [runs, h1]
      simp only [Option.bind_eq_bind, Option.bind_some, h2, h6]
      rfl
    · rw [h7, h3, ← record_append]

/-! ### C123 -/

/-- **C123**. For every objective function and every sequence of runs with increasing numbers of evaluations, no exception is raised,
each run receives the values of the function, and what is recorded is: of each run the evaluations beyond those recorded so far,
followed by the solution delivered, unless its value is the smallest one recorded. -/
theorem C123_record (f : X → ℝ) (rs : List (List X × X)) (hi : Spec.Increasing 0 rs) :
    ∃ s, runs f init rs = some (rs.map fun r => r.1.map f, s) ∧ s.observed = Spec.record f [] rs :=
  runs_ok f rs 0 init hi (by simp [init]) rfl (.inr rfl)

/-- **C123** (numbers). After each run as many evaluations are recorded as the run made, or one more; all solutions delivered
are recorded, at least by an equal value, and everything recorded before stays. -/
theorem C123_delivered (f : X → ℝ) (rs : List (List X × X)) (r : List X × X) (hi : Spec.Increasing 0 (rs ++ [r])) :
    ∃ s s', runs f init rs = some (rs.map fun r => r.1.map f, s) ∧
      runs f init (rs ++ [r]) = some ((rs ++ [r]).map fun r => r.1.map f, s') ∧
      s.observed <+: s'.observed ∧ r.1.length ≤ s'.observed.length ∧ s'.observed.length ≤ r.1.length + 1 ∧
      ∃ x ∈ s'.observed, f x = f r.2 := by
  classical
  have hi1 : ∀ (n : Nat) (rs : List (List X × X)), Spec.Increasing n (rs ++ [r]) → Spec.Increasing n rs := by
    intro n rs
    induction rs generalizing n with
    | nil => intro _; trivial
    | cons q qs ih => intro h; exact ⟨h.1, ih _ h.2⟩
  obtain ⟨s, h1, h2⟩ := C123_record f rs (hi1 0 rs hi)
  obtain ⟨s', h3, h4⟩ := C123_record f (rs ++ [r]) hi
  have hrec : ∀ (o : List X) (rs : List (List X × X)), Spec.record f o (rs ++ [r]) = Spec.record f (Spec.record f o rs) [r] := by
    intro o rs
    induction rs generalizing o with
    | nil => rfl
    | cons q qs ih => rw [List.cons_append, record_append, ih, ← record_append]
  have hlen : ∀ (n : Nat) (o : List X) (rs : List (List X × X)), Spec.Increasing n (rs ++ [r]) → o.length ≤ n + 1 →
      (Spec.record f o rs).length ≤ r.1.length := by
    intro n o rs
    induction rs generalizing n o with
    | nil => intro h ho; have := h.1; simp only [Spec.record]; omega
    | cons q qs ih =>
      intro h ho
      rw [record_append]
      have hq : o.length ≤ q.1.length := by have := h.1; omega
      exact ih q.1.length _ h.2 (record_length f o q.1 q.2 hq).2
  have hle := hlen 0 [] rs hi (by simp)
  rw [hrec, ← h2] at h4
  rw [← h2] at hle
  refine ⟨s, s', h1, h3, ?_, ?_, ?_, ?_⟩
  · rw [h4]
    simp only [Spec.record]
    split_ifs
    · exact List.prefix_append _ _
    · rw [List.append_assoc]; exact List.prefix_append _ _
  · rw [h4]; exact (record_length f _ r.1 r.2 hle).1
  · rw [h4]; exact (record_length f _ r.1 r.2 hle).2
  · rw [h4]
    simp only [Spec.record]
    split_ifs with h
    · exact h.1
    · exact ⟨r.2, by simp, rfl⟩

/-- **C123** (equal budgets). Runs with increasing numbers of evaluations are needed: after a run that delivers a solution which is
not the best recorded one, a run with the same number of evaluations ends with an exception. -/
theorem C123_equal_budget (f : X → ℝ) (xs ys : List X) (d e : X) (h : ¬ Spec.Smallest f xs (f d)) (hl : ys.length = xs.length) :
    runs f init [(xs, d), (ys, e)] = none := by
  classical
  obtain ⟨s1, s2, h1, h2, h3, h4, h5, -⟩ := run_ok f xs d init (by simp [init]) rfl (.inr rfl)
  have ho : s2.observed = xs ++ [d] := by
    rw [h3]
    simp only [Spec.record, init, List.nil_append, List.length_nil, List.drop_zero]
    rw [if_neg h]
  obtain ⟨u, b, h6⟩ := calls_reset f ys s2 h5 (by omega)
  rw [runs, h1]
  simp only [Option.bind_eq_bind, Option.bind_some, h2]
  rw [runs, h6]
  simp only [Option.bind_eq_bind, Option.bind_some]
  have : delivered f ⟨s2.observed ++ ys.drop (s2.observed.length - s2.evaluations), u, s2.evaluations + ys.length, b⟩ e = none := by
    unfold delivered
    simp only
    rw [if_pos]
    simp [ho, h4, hl]
  rw [this]
  rfl

/-! ### Cases that meet the hypotheses -/

example : Spec.Increasing 0 [([3, 1], 2), ([3, 1, 0], 0), ([5, 4, 3, 2, 1], 0)] := by
  simp [Spec.Increasing]

/-- The first run delivers a worse solution, which is recorded; the second then records nothing but the solution delivered. -/
example : Spec.record (fun x : ℝ => x) [] [([3, 1], 2), ([7, 7, 7], 0)] = [3, 1, 2, 0] := by
  classical
  have h1 : ¬ Spec.Smallest (fun x : ℝ => x) [3, 1] 2 := by simp [Spec.Smallest]
  have h2 : ¬ Spec.Smallest (fun x : ℝ => x) [3, 1, 2] 0 := by simp [Spec.Smallest]
  simp [Spec.record, h1, h2]

end PyNonAnytime
