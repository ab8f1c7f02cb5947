import Verif.Model.LoggerOld
import Verif.Props.LoggerBbob

/-!
# Lemmas on the old bbob logger: it does what the bbob logger does
-/

namespace LoggerOld
open LoggerBbob (Line Col Params loggedValue addDbl feasible)

variable {T : Type}

/-- Two outcomes of the same kind, with related results. -/
inductive Sim {α β : Type} (R : α → β → Prop) : Res α → Res β → Prop
  | ok (a : α) (b : β) : R a b → Sim R (.ok a) (.ok b)
  | error : Sim R .error .error
  | assertFail : Sim R .assertFail .assertFail
  | ub : Sim R .ub .ub

theorem Sim.bind {α β α' β' : Type} {R : α → β → Prop} {R' : α' → β' → Prop} {x : Res α} {y : Res β} {f : α → Res α'} {g : β → Res β'}
    (h : Sim R x y) (hf : ∀ a b, R a b → Sim R' (f a) (g b)) : Sim R' (x.bind f) (y.bind g) := by
  cases h with
  | ok a b h => exact hf a b h
  | error => exact .error
  | assertFail => exact .assertFail
  | ub => exact .ub

theorem Sim.same {α : Type} (x : Res α) : Sim Eq x x := by
  cases x with
  | ok a => exact .ok a a rfl
  | error => exact .error
  | assertFail => exact .assertFail
  | ub => exact .ub

theorem digitLoop_eq (c : Dbl) (ls : List ℚ) (i : Nat) (h : i + ls.length = 9) : digitLoop c i ls = LoggerBbob.digitFrom c i ls := by
  induction ls generalizing i with
  | nil => simpa [digitLoop, LoggerBbob.digitFrom] using h.symm
  | cons l ls ih =>
    unfold digitLoop LoggerBbob.digitFrom
    rw [ih (i + 1) (by simp at h; omega)]

theorem digit_eq : digit = LoggerBbob.digit := funext fun c => digitLoop_eq c _ 0 (by simp)

theorem writeData_eq (P : Params T) (f g : Nat) (cur best : ℚ) (x cons : List Dbl) :
    writeData f g cur best P.opt x (if P.ncons > 0 then some cons else none) P.ncons =
      LoggerBbob.outputLine P.ncons P.opt f g x cur best (some cons) := by
  unfold writeData LoggerBbob.outputLine
  rw [digit_eq]
  by_cases h : P.ncons > 0
  · simp only [if_pos h]
  · simp only [if_neg h]

theorem writeData_last (P : Params T) (f g : Nat) (cur best : ℚ) (x : List Dbl) :
    writeData f g cur best P.opt x none 0 = LoggerBbob.outputLine P.ncons P.opt f g x cur best none := rfl

/-- The states of the two loggers after the same calls. -/
structure Rel (s : State T) (s' : LoggerBbob.State T) : Prop where
  consEvals : s.consEvals = s'.consEvals
  initialized : s.initialized = s'.initialized
  evals : s.evals = s'.evals
  numCons : s.numCons = s'.numCons
  best : s.evals ≠ 0 → s.best = some s'.best
  bestX : s.bestX = s'.bestX
  written : s.writtenLast = decide (s'.lastTdat = some s'.evals ∧ s'.evals ≠ 0)
  targets : s.targets = s'.targets
  evaluations : s.evaluations = s'.evaluations
  dat : s.dat = s'.dat
  tdat : s.tdat = s'.tdat
  info : s.info = s'.info
  tainted : s'.tainted = false
  restarted : s'.restarted = false
  later : ∀ n, s'.lastTdat = some n → n ≤ s'.evals
  opened : s.initialized = true ↔ s.evals ≠ 0

theorem rel_init (t : T) (base : List Nat) (dim : Nat) : Rel (init t base dim) (LoggerBbob.init t base dim) :=
  ⟨rfl, rfl, rfl, rfl, fun h => absurd rfl h, rfl, rfl, rfl, rfl, rfl, rfl, rfl, rfl, rfl, fun _ h => (by cases h), by
    simp [LoggerOld.init]⟩

/-- The states in the middle of an evaluation. -/
structure Mid (s : State T) (s' : LoggerBbob.State T) : Prop where
  consEvals : s.consEvals = s'.consEvals
  initialized : s.initialized = true ∧ s'.initialized = true
  evals : s.evals = s'.evals
  pos : s.evals ≠ 0
  numCons : s.numCons = s'.numCons
  bestX : s.bestX = s'.bestX
  written : s.writtenLast = false
  targets : s.targets = s'.targets
  evaluations : s.evaluations = s'.evaluations
  dat : s.dat = s'.dat
  tdat : s.tdat = s'.tdat
  info : s.info = s'.info
  tainted : s'.tainted = false
  restarted : s'.restarted = false
  later : ∀ n, s'.lastTdat = some n → n < s'.evals

theorem max_eq' (y opt : ℚ) : (if y > opt then y else opt) = if y ≥ opt then y else opt := by
  rcases lt_trichotomy y opt with h | h | h
  · rw [if_neg (not_lt.mpr h.le), if_neg (not_le.mpr h)]
  · subst h; simp
  · rw [if_pos h, if_pos h.le]

theorem updateBest_sim (P : Params T) (hP : P.optKnown = true) {s : State T} {s' : LoggerBbob.State T} (h : Mid s s')
    (hb : s.evals ≠ 1 → s.best = some s'.best) (x : List Dbl) (y : Dbl) (cons : List Dbl) (hc : cons.length = P.ncons) :
    Sim (fun a b => Mid a b ∧ a.best = some b.best)
      (updateBest P s x (loggedValue y) (sumConstraints ((if P.ncons > 0 then some cons else none).getD []))
        (if P.ncons > 0 then some cons else none))
      (LoggerBbob.updateBest P s' x y cons) := by
  have hs : sumConstraints ((if P.ncons > 0 then some cons else none).getD []) = LoggerBbob.sumConstraints cons := by
    by_cases h0 : P.ncons > 0
    · rw [if_pos h0]
      rfl
    · have : cons = [] := List.length_eq_zero_iff.mp (by omega)
      rw [if_neg h0, this]
      rfl
  have hv : (if loggedValue y > P.opt then loggedValue y else P.opt) + LoggerBbob.sumConstraints cons = LoggerBbob.value P y cons := by
    unfold LoggerBbob.value LoggerBbob.maxValue
    rw [hP, max_eq']
    rfl
  unfold updateBest LoggerBbob.updateBest
  simp only [hs, hv, writeData_eq]
  obtain ⟨h1, ⟨h2, h2'⟩, h3, hpos, h4, h5, h6, h7, h8, h9, h10, h11, h12, h13, h14⟩ := h
  obtain ⟨ce, ini, ev, nc, b, bx, w, t, es, d, td, inf⟩ := s
  simp only at h1 h2 h3 hpos h4 h5 h6 h7 h8 h9 h10 h11 hb
  subst h1 h2 h3 h4 h5 h6 h7 h8 h9 h10 h11
  by_cases h1 : s'.evals = 1
  · simp only [if_pos h1]
    exact .ok _ _ ⟨⟨rfl, ⟨rfl, h2'⟩, rfl, hpos, rfl, rfl, rfl, rfl, rfl, rfl, rfl, rfl, h12, h13, h14⟩, rfl⟩
  · simp only [if_neg h1, hb h1]
    by_cases h2 : LoggerBbob.value P y cons < s'.best
    · simp only [if_pos h2]
      refine (Sim.same _).bind ?_
      rintro ⟨fire, t⟩ _ rfl
      cases fire with
      | true => exact .ok _ _ ⟨⟨rfl, ⟨rfl, h2'⟩, rfl, hpos, rfl, rfl, rfl, rfl, rfl, rfl, rfl, rfl, h12, h13, h14⟩, rfl⟩
      | false => exact .ok _ _ ⟨⟨rfl, ⟨rfl, h2'⟩, rfl, hpos, rfl, rfl, rfl, rfl, rfl, rfl, rfl, rfl, h12, h13, h14⟩, rfl⟩
    · simp only [if_neg h2]
      exact .ok _ _ ⟨⟨rfl, ⟨rfl, h2'⟩, rfl, hpos, rfl, rfl, rfl, rfl, rfl, rfl, rfl, rfl, h12, h13, h14⟩, rfl⟩

theorem evaluate_sim (P : Params T) (hP : P.optKnown = true) {s : State T} {s' : LoggerBbob.State T} (h : Rel s s') (x : List Dbl)
    (y : Dbl) (cons : List Dbl) (hc : cons.length = P.ncons) :
    Sim Rel (evaluate P s x y cons) (LoggerBbob.evaluate P s' x y cons) := by
  unfold evaluate LoggerBbob.evaluate
  have htaint : ¬ s'.tainted = true := by rw [h.tainted]; decide
  rw [if_neg htaint]
  simp only
  have ha : decide ((P.ncons = 0 ∨ feasible cons = true) → loggedValue y + 1 / 10 ^ 13 ≥ P.opt) =
      decide (P.optKnown = true ∧ feasible cons = true → loggedValue y + 1 / 10 ^ 13 ≥ P.opt) := by
    have : (P.ncons = 0 ∨ feasible cons = true) ↔ (P.optKnown = true ∧ feasible cons = true) := by
      constructor
      · rintro (h0 | h0)
        · rw [List.length_eq_zero_iff.mp (hc.trans h0)]
          exact ⟨hP, rfl⟩
        · exact ⟨hP, h0⟩
      · exact fun h => .inr h.2
    simp only [this]
  rw [ha]
  refine (Sim.same _).bind ?_
  rintro _ _ rfl
  have hmid : Mid { s with initialized := true, numCons := s.consEvals, evals := s.evals + 1, writtenLast := false }
      { s' with initialized := true, evals := s'.evals + 1, numCons := s'.consEvals } :=
    ⟨h.consEvals, ⟨rfl, rfl⟩, by simp only [h.evals], Nat.succ_ne_zero _, h.consEvals, h.bestX, rfl, h.targets, h.evaluations, h.dat,
      h.tdat, h.info, h.tainted, h.restarted, fun n hn => Nat.lt_succ_of_le (h.later n hn)⟩
  refine (updateBest_sim P hP hmid (fun h1 => h.best (fun h0 => h1 (by simp only [h0]))) x y cons hc).bind ?_
  rintro a b ⟨hab, hbest⟩
  unfold updateTdat
  obtain ⟨h1, ⟨h2, h2'⟩, h3, hpos, h4, h5, h6, h7, h8, h9, h10, h11, h12, h13, h14⟩ := hab
  obtain ⟨ce, ini, ev, nc, bb, bx, w, t, es, d, td, inf⟩ := a
  simp only at h1 h2 h3 hpos h4 h5 h6 h7 h8 h9 h10 h11 hbest
  subst h1 h2 h3 h4 h5 h6 h7 h8 h9 h10 h11 hbest
  refine (Sim.same _).bind ?_
  rintro ⟨fire, e⟩ _ rfl
  cases fire with
  | true =>
    simp only [if_true, h13, Bool.false_eq_true, if_false, writeData_eq]
    refine .ok _ _ ⟨rfl, h2'.symm, rfl, rfl, fun _ => rfl, rfl, ?_, rfl, rfl, rfl, rfl, rfl, h12, rfl, ?_, ?_⟩
    · simp [hpos]
    · intro n hn
      injection hn with hn
      exact hn ▸ le_refl _
    · simp [hpos]
  | false =>
    simp only [Bool.false_eq_true, if_false, h13]
    refine .ok _ _ ⟨rfl, h2'.symm, rfl, rfl, fun _ => rfl, rfl, ?_, rfl, rfl, rfl, rfl, rfl, h12, rfl, fun n hn => (h14 n hn).le, ?_⟩
    · symm
      rw [decide_eq_false_iff_not]
      rintro ⟨h1, -⟩
      exact absurd (h14 _ h1) (lt_irrefl _)
    · simp [hpos]

/-- The same calls of the bbob logger. -/
def Op.new : Op → LoggerBbob.Op
  | .evaluate x y cons => .evaluate x y cons
  | .evaluateConstraint x => .evaluateConstraint x

/-- The number of constraint values is that of the problem. -/
def Op.Fits (n : Nat) : Op → Prop
  | .evaluate _ _ cons => cons.length = n
  | .evaluateConstraint _ => True

theorem step_sim (P : Params T) (hP : P.optKnown = true) {s : State T} {s' : LoggerBbob.State T} (h : Rel s s') (op : Op)
    (hop : op.Fits P.ncons) : Sim Rel (step P s op) (LoggerBbob.step P s' op.new) := by
  cases op with
  | evaluate x y cons =>
    show Sim Rel (if x.all Dbl.isFinite then evaluate P s x y cons else .ok s) (LoggerBbob.evaluateOp P s' x y cons)
    unfold LoggerBbob.evaluateOp
    split
    · exact evaluate_sim P hP h x y cons hop
    · exact .ok _ _ h
  | evaluateConstraint x =>
    refine .ok _ _ ?_
    split
    · exact ⟨by simp only [h.consEvals], h.initialized, h.evals, h.numCons, h.best, h.bestX, h.written, h.targets, h.evaluations, h.dat,
        h.tdat, h.info, h.tainted, h.restarted, h.later, h.opened⟩
    · exact h

theorem run_sim (P : Params T) (hP : P.optKnown = true) (ops : List Op) (hops : ∀ op ∈ ops, op.Fits P.ncons) :
    ∀ (s : State T) (s' : LoggerBbob.State T), Rel s s' → Sim Rel (run P s ops) (LoggerBbob.run P s' (ops.map Op.new)) := by
  induction ops with
  | nil => exact fun s s' h => .ok _ _ h
  | cons op ops ih =>
    intro s s' h
    exact (step_sim P hP h op (hops op (List.mem_cons_self ..))).bind
      (ih (fun o ho => hops o (List.mem_cons_of_mem _ ho)))

theorem Sim.ok_left {α β : Type} {R : α → β → Prop} {x : Res α} {y : Res β} (h : Sim R x y) {a : α} (ha : x = .ok a) :
    ∃ b, y = .ok b ∧ R a b := by
  cases h with
  | ok a' b h => injection ha with ha; exact ⟨b, rfl, ha ▸ h⟩
  | error => cases ha
  | assertFail => cases ha
  | ub => cases ha

theorem Sim.ok_right {α β : Type} {R : α → β → Prop} {x : Res α} {y : Res β} (h : Sim R x y) {b : β} (hb : y = .ok b) :
    ∃ a, x = .ok a ∧ R a b := by
  cases h with
  | ok a b' h => injection hb with hb; exact ⟨a, rfl, hb ▸ h⟩
  | error => cases hb
  | assertFail => cases hb
  | ub => cases hb

theorem finish_new {P : Params T} {s s' : LoggerBbob.State T} (h : LoggerBbob.finish P s = .ok s') (hi : s.initialized = true) :
    ∃ l, LoggerBbob.finalLine P s s.lastTdat = .ok l ∧ s'.tdat = s.tdat ++ l ∧ s'.info = s.info ++ [(s.evals, s.best - P.opt)] := by
  unfold LoggerBbob.finish at h
  rw [if_pos hi] at h
  cases e1 : LoggerBbob.finalLine P s s.lastDat with
  | ok l1 =>
    rw [e1, Res.ok_bind] at h
    cases e2 : LoggerBbob.finalLine P s s.lastTdat with
    | ok l2 =>
      rw [e2, Res.ok_bind] at h
      cases e3 : LoggerBbob.finalRecLine P s with
      | ok l3 =>
        rw [e3, Res.ok_bind] at h
        injection h with h
        subst h
        exact ⟨l2, rfl, rfl, rfl⟩
      | error => rw [e3] at h; cases h
      | assertFail => rw [e3] at h; cases h
      | ub => rw [e3] at h; cases h
    | error => rw [e2] at h; cases h
    | assertFail => rw [e2] at h; cases h
    | ub => rw [e2] at h; cases h
  | error => rw [e1] at h; cases h
  | assertFail => rw [e1] at h; cases h
  | ub => rw [e1] at h; cases h

/-- At the end, the `.tdat` and info files are those of the bbob logger; the `.dat` file is left as it is. -/
theorem finish_sim (P : Params T) {s : State T} {s' s'' : LoggerBbob.State T} (h : Rel s s') (he : s.evals ≠ 0)
    (hf : LoggerBbob.finish P s' = .ok s'') :
    ∃ t, finish P s = .ok t ∧ t.dat = s.dat ∧ t.tdat = s''.tdat ∧ t.info = s''.info := by
  have hi : s.initialized = true := h.opened.mpr he
  obtain ⟨l, h1, h2, h3⟩ := finish_new hf (by rw [← h.initialized]; exact hi)
  have hw := h.written
  have he' : s'.evals ≠ 0 := by rw [← h.evals]; exact he
  unfold finish
  rw [if_pos hi, h.best he]
  simp only
  unfold LoggerBbob.finalLine at h1
  cases hl : s'.lastTdat with
  | none => rw [hl] at h1; cases h1
  | some n =>
    rw [hl] at h1 hw
    simp only at h1
    by_cases hn : s'.evals = n
    · rw [if_neg (by simpa using hn)] at h1
      injection h1 with h1
      rw [hw, if_pos (by subst hn; simp [he'])]
      refine ⟨_, rfl, rfl, ?_, ?_⟩
      · simp only [h2, ← h1, List.append_nil, h.tdat]
      · simp only [h3, h.info, h.evals]
    · rw [if_pos (by simpa using hn)] at h1
      have hw' : ¬ s.writtenLast = true := by
        rw [hw]
        simp [Ne.symm hn]
      rw [if_neg hw', h.bestX]
      cases hx : s'.bestX with
      | none => rw [hx] at h1; cases h1
      | some x =>
        rw [hx] at h1
        simp only at h1 ⊢
        injection h1 with h1
        refine ⟨_, rfl, rfl, ?_, ?_⟩
        · simp only [h2, ← h1, h.tdat, h.evals, h.numCons, writeData_last P]
        · simp only [h3, h.info, h.evals]

end LoggerOld
