import Verif.Lemmas.LoggerOld

/-!
# C105: the lines written by the observer `bbob-old`

The vocabulary (histories, improving positions, lines) is that of the bbob logger, `Verif.Lemmas.LoggerBbob`.
-/

namespace LoggerOld
open LoggerBbob (Line Params)
open LoggerBbob.Spec (hist vals best improving given line select datAt consult bestX)

variable {T : Type}

/-- **C105** (same lines). With the same triggers, the old logger comes to the same end as the bbob logger on a problem with a
known optimal value, and both have written the same lines to their `.dat` and `.tdat` files. -/
theorem C105_same_lines (n : Nat) (opt : Option ℚ) (trigger : T → ℚ → Res (Bool × T)) (t0 : T) (base : List Nat) (dim : Nat)
    (ops : List Op) (hops : ∀ op ∈ ops, op.Fits n) :
    Sim (fun s s' => s.dat = s'.dat ∧ s.tdat = s'.tdat ∧ s.evals = s'.evals ∧ s.numCons = s'.numCons)
      (run (params n opt trigger) (init t0 base dim) ops)
      (LoggerBbob.run ⟨n, true, opt.getD 0, trigger⟩ (LoggerBbob.init t0 base dim) (ops.map Op.new)) := by
  have h := run_sim (params n opt trigger) rfl ops hops _ _ (rel_init t0 base dim)
  have h' : Sim Rel (run (params n opt trigger) (init t0 base dim) ops)
    (LoggerBbob.run ⟨n, true, opt.getD 0, trigger⟩ (LoggerBbob.init t0 base dim) (ops.map Op.new)) := h
  revert h'
  generalize run (params n opt trigger) (init t0 base dim) ops = x
  generalize LoggerBbob.run ⟨n, true, opt.getD 0, trigger⟩ (LoggerBbob.init t0 base dim) (ops.map Op.new) = y
  intro h'
  cases h' with
  | ok a b h => exact .ok _ _ ⟨h.dat, h.tdat, h.evals, h.numCons⟩
  | error => exact .error
  | assertFail => exact .assertFail
  | ub => exact .ub

/-- **C105** (`.dat` file). The lines are those of the first evaluation and of the evaluations that improve on all before and for which
the trigger, consulted with the improving values minus the optimal value, fires. -/
theorem C105_dat (n : Nat) (opt : Option ℚ) (trigger : T → ℚ → Res (Bool × T)) (t0 : T) (base : List Nat) (dim : Nat)
    (ops : List Op) (hops : ∀ op ∈ ops, op.Fits n) (s : State T) (h : run (params n opt trigger) (init t0 base dim) ops = .ok s) :
    let P := params n opt trigger
    let evs := (hist (ops.map Op.new)).evs
    ∃ flags t, consult trigger t0 (given P none (vals P evs)) = .ok (flags, t) ∧
      s.dat.map some = (datAt (vals P evs) flags).map (line P evs) := by
  intro P evs
  obtain ⟨s', h', hr⟩ := (run_sim P rfl ops hops _ _ (rel_init t0 base dim)).ok_left h
  rw [hr.dat]
  exact LoggerBbob.C41_dat P t0 base dim _ s' h'

theorem consult_log (vs : List ℚ) : ∀ t : Triggers.LogTargets,
    consult (fun t (v : ℚ) => Triggers.logTrigger t v) t vs = Triggers.logRun t (vs.map fun v : ℚ => (v : ℝ)) := by
  induction vs with
  | nil => exact fun t => rfl
  | cons v vs ih =>
    intro t
    rw [List.map_cons]
    unfold consult Triggers.logRun
    simp only [ih]

/-- **C105** (targets). With the triggers of the observer, an evaluation has a line in the `.dat` file exactly if it is the first
one, or improves on all before and reaches a logarithmic target that none of the improving evaluations from the second evaluation on has
reached before. -/
theorem C105_targets (n : Nat) (opt : Option ℚ) (dblMax : ℝ) (k : Nat) (prec : ℝ) (base : List Nat) (dim : Nat)
    (ops : List Op) (hops : ∀ op ∈ ops, op.Fits n) (s : State Triggers.LogTargets)
    (h : run (params n opt fun t (v : ℚ) => Triggers.logTrigger t v) (init (Triggers.logInit dblMax k prec) base dim) ops = .ok s) :
    let P : Params Triggers.LogTargets := params n opt fun t (v : ℚ) => Triggers.logTrigger t v
    let evs := (hist (ops.map Op.new)).evs
    Triggers.Spec.InRange k prec ((given P none (vals P evs)).map fun v : ℚ => (v : ℝ)) →
    ∃ logs, List.Forall₂ (Triggers.Spec.LogReached k prec) ((given P none (vals P evs)).map fun v : ℚ => (v : ℝ)) logs ∧
      ∀ i < evs.length, (∃ l ∈ s.dat, l.f = i + 1) ↔ i = 0 ∨
        ∃ j, (improving none (vals P evs))[j]? = some i ∧ Triggers.Spec.RecordAt logs j := by
  intro P evs hin
  obtain ⟨flags, t, h1, h2⟩ := C105_dat n opt _ _ base dim ops hops s h
  obtain ⟨flags', final, logs, k1, k2, k3, -⟩ := Triggers.C25_log_trigger dblMax k prec _ hin
  rw [consult_log, k1] at h1
  simp only [Res.ok.injEq, Prod.mk.injEq] at h1
  obtain ⟨rfl, rfl⟩ := h1
  refine ⟨logs, k2, fun i hi => ?_⟩
  have hf := LoggerBbob.fs_eq _ _ _ _ h2
  have e1 : (∃ l ∈ s.dat, l.f = i + 1) ↔ i ∈ datAt (vals P evs) flags' := by
    have : (∃ l ∈ s.dat, l.f = i + 1) ↔ i + 1 ∈ s.dat.map Line.f := by simp
    rw [this, hf]
    simp [P, evs]
  rw [e1]
  unfold datAt
  rw [List.mem_append]
  have hv : vals P evs ≠ [] := by
    have : evs ≠ [] := by
      intro h'
      rw [h'] at hi
      simp at hi
    simpa [vals] using this
  rw [if_neg hv, List.mem_singleton]
  apply or_congr Iff.rfl
  unfold select
  simp only [List.mem_map, List.mem_filter, Prod.exists, exists_and_right, exists_eq_right, exists_eq_right_right]
  rw [List.mem_iff_getElem?]
  apply exists_congr
  intro j
  rw [List.getElem?_zip_eq_some, Triggers.recordAt_of_fires k3 j]

/-- **C105** (`.tdat` file). The lines are those of the evaluations for which the evaluation trigger, consulted with the number of function
and constraint evaluations, fires. -/
theorem C105_tdat (n : Nat) (opt : Option ℚ) (trigger : T → ℚ → Res (Bool × T)) (t0 : T) (base : List Nat) (dim : Nat)
    (hb : Triggers.Spec.BaseOk base) (hd : 1 ≤ dim) (ops : List Op) (hops : ∀ op ∈ ops, op.Fits n) (s : State T)
    (h : run (params n opt trigger) (init t0 base dim) ops = .ok s) :
    let evs := (hist (ops.map Op.new)).evs
    let ns := evs.mapIdx fun i e => i + 1 + e.g
    s.tdat.map some = (select (List.range evs.length)
      (List.zipWith (· || ·) (Triggers.Spec.queue Triggers.Spec.firstGrid 0 ns)
        (Triggers.Spec.queue (Triggers.Spec.secondGrid base dim) 0 ns))).map (line (params n opt trigger) evs) := by
  obtain ⟨s', h', hr⟩ := (run_sim (params n opt trigger) rfl ops hops _ _ (rel_init t0 base dim)).ok_left h
  rw [hr.tdat]
  exact LoggerBbob.C77_tdat (params n opt trigger) t0 base dim hb hd _ s' h'

/-- **C105** (end). When the problem is freed after at least one evaluation, the last line of the `.tdat` file shows the number of
evaluations and the best value, the entry in the info file shows them too, and the `.dat` file gets no further line. -/
theorem C105_last (n : Nat) (opt : Option ℚ) (trigger : T → ℚ → Res (Bool × T)) (t0 : T) (base : List Nat) (dim : Nat)
    (ops : List Op) (hops : ∀ op ∈ ops, op.Fits n) (s : State T) (h : run (params n opt trigger) (init t0 base dim) ops = .ok s) :
    let P := params n opt trigger
    let evs := (hist (ops.map Op.new)).evs
    evs ≠ [] → ∃ s' l, finish P s = .ok s' ∧ s'.dat = s.dat ∧ s'.tdat.getLast? = some l ∧ l.f = evs.length ∧
      l.best = best (vals P evs) - opt.getD 0 ∧ s'.info = s.info ++ [(evs.length, best (vals P evs) - opt.getD 0)] := by
  intro P evs hne
  obtain ⟨s', h', hr⟩ := (run_sim P rfl ops hops _ _ (rel_init t0 base dim)).ok_left h
  obtain ⟨s'', -, -, hf, -, -, -, -, -, -, -, hinfo⟩ := LoggerBbob.C41_last P t0 base dim _ s' h' hne
  obtain ⟨l, h1, h2, h3⟩ := LoggerBbob.C77_last P t0 base dim _ s' s'' h' hne hf
  have hev : s.evals ≠ 0 := by
    rw [hr.evals, (LoggerBbob.inv_run P t0 base dim _ s' h').evals]
    exact fun h0 => hne (List.length_eq_zero_iff.mp h0)
  obtain ⟨t, k1, k2, k3, k4⟩ := finish_sim P hr hev hf
  exact ⟨t, l, k1, k2, k3 ▸ h1, h2, h3, by rw [k4, hinfo, hr.info]; rfl⟩

/-- **C105** (no failure). The evaluations succeed if no feasible solution has a value below the optimal value (up to 1e-13), the
evaluation triggers are valid and the target trigger can be consulted. -/
theorem C105_runs (n : Nat) (opt : Option ℚ) (trigger : T → ℚ → Res (Bool × T)) (t0 : T) (base : List Nat) (dim : Nat)
    (ops : List Op) (hops : ∀ op ∈ ops, op.Fits n)
    (hl : LoggerBbob.Spec.Legal (params n opt trigger) t0 base dim (ops.map Op.new)) :
    ∃ s, run (params n opt trigger) (init t0 base dim) ops = .ok s := by
  obtain ⟨s', h'⟩ := LoggerBbob.C41_legal_runs (params n opt trigger) t0 base dim _ hl
  obtain ⟨s, h, -⟩ := (run_sim (params n opt trigger) rfl ops hops _ _ (rel_init t0 base dim)).ok_right h'
  exact ⟨s, h⟩

/-- **C105** (unknown optimal value). If the optimal value is not known, 0 is used, and a negative value of a feasible solution fails
an assertion. -/
theorem C105_unknown_optimum (trigger : T → ℚ → Res (Bool × T)) (t0 : T) (base : List Nat) (dim : Nat) (x : List Dbl)
    (hx : x.all Dbl.isFinite = true) (y : ℚ) (hy : y < -(1 / 10 ^ 13)) :
    run (params 0 none trigger) (init t0 base dim) [.evaluate x (.fin y) []] = .assertFail := by
  unfold run step
  simp only [hx, if_true]
  unfold evaluate
  have : decide ((params 0 none trigger).ncons = 0 ∨ LoggerBbob.feasible [] = true →
      LoggerBbob.loggedValue (.fin y) + 1 / 10 ^ 13 ≥ (params 0 none trigger).opt) = false := by
    rw [decide_eq_false_iff_not]
    intro h
    have h' : y + 1 / 10 ^ 13 ≥ 0 := h (.inl rfl)
    linarith
  simp only [this]
  rfl

/-! ### Cases -/

/-- A trigger that always fires. -/
def always : Unit → ℚ → Res (Bool × Unit) := fun _ _ => .ok (true, ())

/-- Two evaluations of a problem with one constraint. -/
def few : List Op := [.evaluate [.fin 1] (.fin 5) [.fin (1 / 2)], .evaluateConstraint [.fin 2], .evaluate [.fin 2] (.fin 4) [.fin 0]]

theorem few_fits : ∀ op ∈ few, op.Fits 1 := by
  intro op h
  simp only [few, List.mem_cons, List.not_mem_nil, or_false] at h
  rcases h with rfl | rfl | rfl
  · rfl
  · trivial
  · rfl

theorem few_legal (trigger : T → ℚ → Res (Bool × T)) (t0 : T) (h : ∃ r, consult trigger t0 [1] = .ok r) :
    LoggerBbob.Spec.Legal (params 1 (some 3) trigger) t0 [1, 2, 5] 2 (few.map Op.new) where
  fair := by
    intro pre x y cons post h _ hm
    have : LoggerBbob.Op.bestParameter ∈ few.map Op.new := by rw [h]; exact List.mem_append_left _ hm
    simp [few, Op.new] at this
  sane := by
    intro x y cons h _ _
    simp only [few, Op.new, List.map_cons, List.map_nil, List.mem_cons, reduceCtorEq, LoggerBbob.Op.evaluate.injEq, false_or,
      List.not_mem_nil, or_false] at h
    have e : (params 1 (some 3) trigger).opt = 3 := rfl
    rw [e]
    rcases h with ⟨-, rfl, -⟩ | ⟨-, rfl, -⟩ <;> decide +kernel
  saneRec := by
    intro x y cons h _ _
    simp [few, Op.new] at h
  baseOk := ⟨by decide, by decide, by decide, by decide⟩
  dimOk := by decide
  trigger := by
    have : LoggerBbob.Spec.given (params 1 (some 3) always) none
      (vals (params 1 (some 3) always) (hist (few.map Op.new)).evs) = [1] := by decide +kernel
    have e : LoggerBbob.Spec.given (params 1 (some 3) trigger) none
      (vals (params 1 (some 3) trigger) (hist (few.map Op.new)).evs) = [1] := this
    rw [e]; exact h
  triggerRec := ⟨_, rfl⟩

/-- The evaluations of `few` run with a trigger that always fires. -/
example : ∃ s, run (params 1 (some 3) always) (init () [1, 2, 5] 2) few = .ok s :=
  C105_runs _ _ _ _ _ _ _ few_fits (few_legal _ _ ⟨_, rfl⟩)

/-- They run with the triggers of the observer, and the values are in range. -/
example (dblMax : ℝ) : Triggers.Spec.InRange 100 (1 / 10 ^ 8) [((1 : ℚ) : ℝ)] ∧
    ∃ s, run (params 1 (some 3) fun t (v : ℚ) => Triggers.logTrigger t v)
      (init (Triggers.logInit dblMax 100 (1 / 10 ^ 8)) [1, 2, 5] 2) few = .ok s := by
  have h : Triggers.Spec.InRange 100 (1 / 10 ^ 8) [((1 : ℚ) : ℝ)] := by
    obtain ⟨h1, h2, h3, h4, -⟩ := Triggers.inRange_example
    refine ⟨h1, h2, h3, h4, fun v hv => ?_⟩
    rw [List.mem_singleton.mp hv]
    have : (10 : ℝ) ^ (0 : ℝ) ≤ 10 ^ (400 : ℝ) := Real.rpow_le_rpow_of_exponent_le (by norm_num) (by norm_num)
    rw [Real.rpow_zero] at this
    simpa using this
  refine ⟨h, C105_runs _ _ _ _ _ _ _ few_fits (few_legal _ _ ?_)⟩
  obtain ⟨flags, final, -, k1, -⟩ := Triggers.C25_log_trigger dblMax 100 _ _ h
  exact ⟨_, (consult_log [1] _).trans k1⟩

/-- The values: 5 and the violation 1/2, then 4. -/
example : vals (params 1 (some 3) always) (hist (few.map Op.new)).evs = [11 / 2, 4] := by decide +kernel

example : (line (params 1 (some 3) always) (hist (few.map Op.new)).evs 0) = some ⟨1, 0, 5 / 2, 5, .digits [8], [.fin 1]⟩ := by
  decide +kernel

end LoggerOld
