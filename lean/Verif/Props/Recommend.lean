import Verif.Props.LoggerBiobj

/-!
# The recommendation file of the bi-objective logger (C80)
-/

namespace LoggerBiobj

variable {T : Type}

/-- The solutions given so far and the expected lines of the recommendation file after one more call: a
recommended solution is recorded with its values and the evaluation number of the last solution given before. -/
def Spec.recStep (dim : Nat) (s : List Spec.Sol × List (Nat × ℚ × ℚ × List ℚ × List ℚ)) (op : Op) :
    List Spec.Sol × List (Nat × ℚ × ℚ × List ℚ × List ℚ) :=
  match op with
  | .recommend x y1 y2 cons => (s.1, s.2 ++ [(Spec.lastEv s.1, y1, y2, cons, x)])
  | op => (Spec.addOp dim s.1 op, s.2)

/-- The expected lines of the recommendation file. -/
def Spec.recs (dim : Nat) (h : List Op) : List (Nat × ℚ × ℚ × List ℚ × List ℚ) :=
  (h.foldl (Spec.recStep dim) ([], [])).2

theorem recs_fst (dim : Nat) (h : List Op) : (h.foldl (Spec.recStep dim) ([], [])).1 = Spec.sols dim h := by
  induction h using List.reverseRecOn with
  | nil => rfl
  | append_singleton h op ih =>
    rw [List.foldl_append, List.foldl_cons, List.foldl_nil, sols_append, ← ih]
    cases op <;> rfl

theorem bind_ok_inv {α β : Type} {x : Res α} {f : α → Res β} {b : β} (h : x.bind f = .ok b) :
    ∃ a, x = .ok a ∧ f a = .ok b := by
  cases x with
  | ok a => exact ⟨a, rfl, h⟩
  | error => cases h
  | assertFail => cases h
  | ub => cases h

theorem output_mdat {P : Params T} {s s' : State T} {p : Bool} {n : Option Item} (h : output P s p n = .ok s') :
    s'.mdat = s.mdat := by
  unfold output at h
  by_cases hc : P.ci = true
  · rw [if_pos hc] at h
    obtain ⟨i, _, h⟩ := bind_ok_inv h
    obtain ⟨j, _, h⟩ := bind_ok_inv h
    obtain ⟨k, _, h⟩ := bind_ok_inv h
    cases h
    rfl
  · rw [if_neg hc] at h
    cases h
    rfl

theorem evaluate_mdat {P : Params T} {s s' : State T} {x : List ℚ} {y1 y2 : ℚ} {cons : List ℚ}
    (h : evaluate P s x y1 y2 cons = .ok s') : s'.mdat = s.mdat := by
  unfold evaluate at h
  obtain ⟨it, _, h⟩ := bind_ok_inv h
  obtain ⟨⟨a, p, n⟩, _, h⟩ := bind_ok_inv h
  obtain ⟨s1, h1, h⟩ := bind_ok_inv h
  rw [output_mdat h]
  split_ifs at h1 with hc
  · obtain ⟨ls, _, h1⟩ := bind_ok_inv h1
    cases h1
    rfl
  · cases h1
    rfl

theorem feed_mdat {P : Params T} {dim : Nat} {s s' : State T} {ev : Nat} {y1 y2 : ℚ} {b : Bool}
    (h : feed P dim s ev y1 y2 = .ok (s', b)) : s'.mdat = s.mdat := by
  unfold feed at h
  obtain ⟨_, _, h⟩ := bind_ok_inv h
  dsimp only at h
  split_ifs at h with hc
  obtain ⟨it, _, h⟩ := bind_ok_inv h
  obtain ⟨⟨a, p, n⟩, _, h⟩ := bind_ok_inv h
  obtain ⟨s1, h1, h⟩ := bind_ok_inv h
  cases h
  rw [output_mdat h1]

theorem finish_mdat {P : Params T} {s s' : State T} (h : finish P s = .ok s') : s'.mdat = s.mdat := by
  unfold finish at h
  obtain ⟨s1, h1, h⟩ := bind_ok_inv h
  have e : s1.mdat = s.mdat := by
    split_ifs at h1 with hc
    · obtain ⟨t, _, h1⟩ := bind_ok_inv h1
      obtain ⟨ls, _, h1⟩ := bind_ok_inv h1
      cases h1
      rfl
    · cases h1
      rfl
  rw [← e]
  dsimp only at h
  split_ifs at h <;> cases h <;> rfl

/-- **C80.** After any sequence of calls, and also after the logger is freed, the recommendation file holds exactly
one line for each recommended solution, in the order of the recommendations: the evaluation number of the last
solution evaluated or fed before, the objective values, the constraint values and the solution. -/
theorem C80_recommendations (P : Params T) (base : List Nat) (dim : Nat) (hP : Spec.Setup P base dim) (t0 : T)
    (h : List Op) (hl : Spec.Legal P.mode dim h) :
    ∃ s, run P dim (init t0 base dim) h = .ok s ∧ s.mdat = Spec.recs dim h ∧
      ∀ s', finish P s = .ok s' → s'.mdat = Spec.recs dim h := by
  obtain ⟨s, e, -⟩ := run_inv hP t0 h hl
  have key : s.mdat = Spec.recs dim h := by
    induction h using List.reverseRecOn generalizing s with
    | nil => cases e; rfl
    | append_singleton h op ih =>
      obtain ⟨s0, e0, iv⟩ := run_inv hP t0 h (legal_prefix hl)
      have i0 := ih (legal_prefix hl) s0 e0
      rw [run_append, e0, Res.ok_bind] at e
      obtain ⟨s1, h1, h2⟩ := bind_ok_inv e
      cases h2
      have f := recs_fst dim h
      unfold Spec.recs at i0 ⊢
      rw [List.foldl_append, List.foldl_cons, List.foldl_nil]
      cases op with
      | evaluate x y1 y2 cons => rw [evaluate_mdat h1]; exact i0
      | feed ev y1 y2 =>
        obtain ⟨⟨s2, b⟩, h3, h4⟩ := bind_ok_inv h1
        cases h4
        rw [feed_mdat h3]
        exact i0
      | restart =>
        cases h1
        unfold restart
        split_ifs <;> exact i0
      | recommend x y1 y2 cons =>
        cases h1
        simp only [recommend, Spec.recStep, i0, f, iv.evals]
  exact ⟨s, e, key, fun s' hs => by rw [finish_mdat hs, key]⟩

/-- The state with another recommendation file. -/
def withMdat (m : List (Nat × ℚ × ℚ × List ℚ × List ℚ)) (s : State T) : State T := { s with mdat := m }

theorem output_with (P : Params T) (s : State T) (p : Bool) (n : Option Item)
    (m : List (Nat × ℚ × ℚ × List ℚ × List ℚ)) :
    output P (withMdat m s) p n = (output P s p n).bind fun s => .ok (withMdat m s) := by
  unfold output withMdat
  by_cases hc : P.ci = true
  · rw [if_pos hc, if_pos hc]
    dsimp only
    cases updateValue P s.arch.cur s.evals p n s.ind with
    | ok i =>
      simp only [Res.ok_bind]
      generalize (if P.mode = .read then _ else Res.ok (logDat P s.evals i) : Res (Ind T)) = r
      cases r with
      | ok j =>
        simp only [Res.ok_bind]
        cases logTdat s.evals j <;> rfl
      | error => rfl
      | assertFail => rfl
      | ub => rfl
    | error => rfl
    | assertFail => rfl
    | ub => rfl
  · rw [if_neg hc, if_neg hc]
    rfl

theorem evaluate_with (P : Params T) (s : State T) (x : List ℚ) (y1 y2 : ℚ) (cons : List ℚ)
    (m : List (Nat × ℚ × ℚ × List ℚ × List ℚ)) :
    evaluate P (withMdat m s) x y1 y2 cons = (evaluate P s x y1 y2 cons).bind fun s => .ok (withMdat m s) := by
  unfold evaluate
  dsimp only
  have e1 : (withMdat m s).evals = s.evals := rfl
  have e2 : (withMdat m s).arch = s.arch := rfl
  rw [e1, e2]
  cases createItem P.i1 P.i2 P.n1 P.n2 (s.evals + 1) x y1 y2 cons with
  | ok it =>
    simp only [Res.ok_bind]
    cases treeUpdate P.ci s.arch it with
    | ok r =>
      obtain ⟨a, p, n⟩ := r
      simp only [Res.ok_bind]
      split_ifs with hc
      · cases treeOutput a a.buffer.items with
        | ok ls =>
          simp only [Res.ok_bind]
          rw [← output_with]
          rfl
        | error => rfl
        | assertFail => rfl
        | ub => rfl
      · simp only [Res.ok_bind]
        rw [← output_with]
        rfl
    | error => rfl
    | assertFail => rfl
    | ub => rfl
  | error => rfl
  | assertFail => rfl
  | ub => rfl

theorem feed_with (P : Params T) (dim : Nat) (s : State T) (ev : Nat) (y1 y2 : ℚ)
    (m : List (Nat × ℚ × ℚ × List ℚ × List ℚ)) :
    feed P dim (withMdat m s) ev y1 y2 =
      (feed P dim s ev y1 y2).bind fun (s, b) => .ok (withMdat m s, b) := by
  unfold feed
  dsimp only
  have e1 : (withMdat m s).evals = s.evals := rfl
  have e2 : (withMdat m s).arch = s.arch := rfl
  rw [e1, e2]
  cases Res.assert (decide (P.mode = .read)) with
  | ok _ =>
    simp only [Res.ok_bind]
    by_cases hc : s.evals ≥ ev
    · rw [if_pos hc, if_pos hc]; rfl
    · rw [if_neg hc, if_neg hc]
      cases createItem P.i1 P.i2 P.n1 P.n2 ev (List.replicate dim 0) y1 y2 [] with
      | ok it =>
        simp only [Res.ok_bind]
        cases treeUpdate P.ci s.arch it with
        | ok r =>
          obtain ⟨a, p, n⟩ := r
          simp only [Res.ok_bind]
          have := output_with P { s with arch := a, evals := ev, prevEvals := s.evals } p n m
          unfold withMdat at this ⊢
          dsimp only at this ⊢
          rw [this]
          cases output P { s with arch := a, evals := ev, prevEvals := s.evals } p n <;> rfl
        | error => rfl
        | assertFail => rfl
        | ub => rfl
      | error => rfl
      | assertFail => rfl
      | ub => rfl
  | error => rfl
  | assertFail => rfl
  | ub => rfl

/-- A call is not a recommendation. -/
def Spec.notRec : Op → Bool
  | .recommend .. => false
  | _ => true

theorem step_with (P : Params T) (dim : Nat) (s : State T) (op : Op) (hop : Spec.notRec op = true)
    (m : List (Nat × ℚ × ℚ × List ℚ × List ℚ)) :
    step P dim (withMdat m s) op = (step P dim s op).bind fun s => .ok (withMdat m s) := by
  cases op with
  | evaluate x y1 y2 cons => exact evaluate_with P s x y1 y2 cons m
  | feed ev y1 y2 =>
    unfold step
    dsimp only
    rw [feed_with]
    cases feed P dim s ev y1 y2 <;> rfl
  | restart =>
    change Res.ok (restart (withMdat m s)) = Res.ok (withMdat m (restart s))
    unfold restart withMdat
    dsimp only
    split_ifs <;> rfl
  | recommend x y1 y2 cons => cases hop

theorem run_with (P : Params T) (dim : Nat) (h : List Op) (s : State T) (m : List (Nat × ℚ × ℚ × List ℚ × List ℚ)) :
    run P dim (withMdat m s) (h.filter Spec.notRec) = (run P dim s h).bind fun s => .ok (withMdat m s) := by
  induction h generalizing s with
  | nil => rfl
  | cons op h ih =>
    cases hop : Spec.notRec op with
    | true =>
      rw [List.filter_cons_of_pos hop, run, run, step_with P dim s op hop]
      cases step P dim s op with
      | ok s1 => exact ih s1
      | error => rfl
      | assertFail => rfl
      | ub => rfl
    | false =>
      rw [List.filter_cons_of_neg (by simp [hop]), run]
      cases op with
      | recommend x y1 y2 cons =>
        have := ih (recommend s x y1 y2 cons)
        exact this
      | evaluate => cases hop
      | feed => cases hop
      | restart => cases hop

/-- **C80.** Recommendations leave everything else alone: for every call sequence, leaving out the recommendations
gives the same outcome (also the same failures), and the final states (archive, evaluation counter, all other
files) differ at most in the recommendation file. -/
theorem C80_only_recommendations (P : Params T) (base : List Nat) (dim : Nat) (t0 : T) (h : List Op) :
    run P dim (init t0 base dim) (h.filter Spec.notRec) =
      (run P dim (init t0 base dim) h).bind fun s => .ok { s with mdat := [] } :=
  run_with P dim h (init t0 base dim) []

/-! ### A case that meets the hypotheses -/

example : Spec.recs 3 exampleCalls = [(4, 2, 6, [], [2])] := by decide +kernel

example : ∃ s, run (exampleParams .all) 3 (init () [1, 2, 5] 3) exampleCalls = .ok s ∧ s.mdat = [(4, 2, 6, [], [2])] := by
  obtain ⟨s, h1, h2, -⟩ := C80_recommendations (exampleParams .all) [1, 2, 5] 3 (exampleSetup .all) () exampleCalls
    (exampleLegal .all 3)
  exact ⟨s, h1, h2⟩

end LoggerBiobj
