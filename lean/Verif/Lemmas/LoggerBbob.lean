import Verif.Model.LoggerBbob
import Mathlib.Data.List.Induction
import Mathlib.Algebra.Order.Group.MinMax
import Mathlib.Tactic.Linarith

/-!
Specification vocabulary for the bbob logger and lemmas about it.
-/

namespace LoggerBbob

/-! ### Histories -/

/-- An evaluation: the solution, its objective value, its constraint values, the number of constraint evaluations
before it, and whether a restart was signalled since the previous evaluation. -/
structure Spec.Ev where
  x : List Dbl
  y : Dbl
  cons : List Dbl
  g : Nat
  restarted : Bool

/-- A recommendation: the solution, its objective and constraint values, the number of evaluations before it, and
the number of constraint evaluations before the last of them. -/
structure Spec.Rec where
  x : List Dbl
  y : Dbl
  cons : List Dbl
  k : Nat
  g : Nat

/-- What happened so far: the evaluations, the recommendations, the number of constraint evaluations, and whether
a restart was signalled since the last evaluation. -/
structure Spec.Hist where
  evs : List Spec.Ev
  recs : List Spec.Rec
  g : Nat
  restart : Bool

/-- The history after one more call. Solutions that are not finite are not evaluated, and a restart before the
first evaluation has no effect. -/
def Spec.next (h : Spec.Hist) : Op → Spec.Hist
  | .evaluate x y cons =>
    if x.all Dbl.isFinite then { h with evs := h.evs ++ [⟨x, y, cons, h.g, h.restart⟩], restart := false } else h
  | .evaluateConstraint x => if x.all Dbl.isFinite then { h with g := h.g + 1 } else h
  | .recommend x y cons =>
    { h with recs := h.recs ++ [⟨x, y, cons, h.evs.length, (h.evs.getLast?.map Spec.Ev.g).getD 0⟩] }
  | .restart => if h.evs = [] then h else { h with restart := true }
  | .bestParameter => h

/-- The history of a sequence of calls. -/
def Spec.hist (ops : List Op) : Spec.Hist := ops.foldl Spec.next ⟨[], [], 0, false⟩

theorem hist_append (ops : List Op) (op : Op) : Spec.hist (ops ++ [op]) = Spec.next (Spec.hist ops) op := by
  simp [Spec.hist, List.foldl_append]

/-! ### Values -/

/-- The smallest of a list of values. -/
def Spec.best : List ℚ → ℚ
  | [] => 0
  | v :: vs => vs.foldl min v

theorem best_append (vs : List ℚ) (v : ℚ) (h : vs ≠ []) : Spec.best (vs ++ [v]) = min (Spec.best vs) v := by
  cases vs with
  | nil => exact absurd rfl h
  | cons a vs => simp [Spec.best, List.foldl_append]

theorem best_le (vs : List ℚ) : ∀ v ∈ vs, Spec.best vs ≤ v := by
  induction vs using List.reverseRecOn with
  | nil => simp
  | append_singleton vs a ih =>
    intro v hv
    by_cases h : vs = []
    · subst h
      simp only [List.nil_append, List.mem_singleton] at hv
      subst hv
      simp [Spec.best]
    · rw [best_append _ _ h]
      rcases List.mem_append.1 hv with hv | hv
      · exact le_trans (min_le_left _ _) (ih v hv)
      · rw [List.mem_singleton.1 hv]; exact min_le_right _ _

theorem best_mem (vs : List ℚ) (h : vs ≠ []) : Spec.best vs ∈ vs := by
  induction vs using List.reverseRecOn with
  | nil => exact absurd rfl h
  | append_singleton vs a ih =>
    by_cases h : vs = []
    · subst h; simp [Spec.best]
    · rw [best_append _ _ h]
      rcases min_choice (Spec.best vs) a with e | e <;> rw [e]
      · exact List.mem_append_left _ (ih h)
      · simp

theorem lt_best_iff (vs : List ℚ) (h : vs ≠ []) (v : ℚ) : v < Spec.best vs ↔ ∀ q ∈ vs, v < q := by
  constructor
  · intro hv q hq
    exact lt_of_lt_of_le hv (best_le vs q hq)
  · intro hv
    exact hv _ (best_mem vs h)

/-- The value at a position is smaller than all before, and smaller than the bound if there is one. -/
def Spec.Below (bound : Option ℚ) (vs : List ℚ) (i : Nat) : Prop :=
  (match bound with
    | none => 0 < i
    | some b => vs.getD i 0 < b) ∧ ∀ q ∈ vs.take i, vs.getD i 0 < q

instance (bound : Option ℚ) (vs : List ℚ) (i : Nat) : Decidable (Spec.Below bound vs i) := by
  unfold Spec.Below
  cases bound <;> infer_instance

/-- The positions at which a value is smaller than all before: without bound the first position is left out, with
a bound the value must also be smaller than the bound. -/
def Spec.improving (bound : Option ℚ) (vs : List ℚ) : List Nat :=
  (List.range vs.length).filter fun i => decide (Spec.Below bound vs i)

theorem below_append (bound : Option ℚ) (vs : List ℚ) (v : ℚ) (i : Nat) (hi : i < vs.length) :
    Spec.Below bound (vs ++ [v]) i ↔ Spec.Below bound vs i := by
  have e : (vs ++ [v]).getD i 0 = vs.getD i 0 := by
    rw [List.getD_eq_getElem?_getD, List.getD_eq_getElem?_getD, List.getElem?_append_left hi]
  unfold Spec.Below
  rw [List.take_append_of_le_length (le_of_lt hi), e]

theorem below_last (bound : Option ℚ) (vs : List ℚ) (v : ℚ) : Spec.Below bound (vs ++ [v]) vs.length ↔
    (match bound with
      | none => vs ≠ []
      | some b => v < b) ∧ ∀ q ∈ vs, v < q := by
  unfold Spec.Below
  have e : (vs ++ [v]).getD vs.length 0 = v := by simp [List.getD_eq_getElem?_getD]
  rw [List.take_left', e]
  · cases bound <;> simp [List.length_pos_iff]
  · rfl

theorem improving_append (bound : Option ℚ) (vs : List ℚ) (v : ℚ) : Spec.improving bound (vs ++ [v]) =
    Spec.improving bound vs ++ if Spec.Below bound (vs ++ [v]) vs.length then [vs.length] else [] := by
  unfold Spec.improving
  rw [List.length_append, List.length_singleton, List.range_succ, List.filter_append]
  congr 1
  · apply List.filter_congr
    intro i hi
    rw [decide_eq_decide]
    exact below_append _ _ _ _ (List.mem_range.1 hi)
  · by_cases h : Spec.Below bound (vs ++ [v]) vs.length <;> simp [h]

theorem improving_lt (bound : Option ℚ) (vs : List ℚ) : ∀ i ∈ Spec.improving bound vs, i < vs.length := by
  intro i hi
  exact List.mem_range.1 (List.mem_filter.1 hi).1

theorem improving_sorted (bound : Option ℚ) (vs : List ℚ) : (Spec.improving bound vs).Pairwise (· < ·) := by
  unfold Spec.improving
  exact List.Pairwise.filter _ List.pairwise_lt_range

/-! ### Triggers on sequences -/

/-- A trigger consulted with a sequence of values: its answers and its final state. -/
def Spec.consult {S V : Type} (tr : S → V → Res (Bool × S)) (t : S) : List V → Res (List Bool × S)
  | [] => .ok ([], t)
  | v :: vs => (tr t v).bind fun (b, t) => (Spec.consult tr t vs).bind fun (bs, t) => .ok (b :: bs, t)

theorem consult_append {S V : Type} (tr : S → V → Res (Bool × S)) (t : S) (vs : List V) (v : V) :
    Spec.consult tr t (vs ++ [v]) = (Spec.consult tr t vs).bind fun (bs, t) =>
      (tr t v).bind fun (b, t) => .ok (bs ++ [b], t) := by
  induction vs generalizing t with
  | nil =>
    simp only [List.nil_append, Spec.consult, Res.ok_bind]
  | cons a vs ih =>
    simp only [List.cons_append, Spec.consult]
    cases tr t a with
    | ok r =>
      simp only [Res.ok_bind, ih]
      cases Spec.consult tr r.2 vs with
      | ok q =>
        simp only [Res.ok_bind]
        cases tr q.2 v with
        | ok w => rfl
        | error => rfl
        | assertFail => rfl
        | ub => rfl
      | error => rfl
      | assertFail => rfl
      | ub => rfl
    | error => rfl
    | assertFail => rfl
    | ub => rfl

theorem consult_length {S V : Type} (tr : S → V → Res (Bool × S)) (vs : List V) : ∀ (t : S) (bs : List Bool) (t' : S),
    Spec.consult tr t vs = .ok (bs, t') → bs.length = vs.length := by
  induction vs with
  | nil =>
    intro t bs t' h
    simp only [Spec.consult, Res.ok.injEq, Prod.mk.injEq] at h
    rw [← h.1]; rfl
  | cons v vs ih =>
    intro t bs t' h
    simp only [Spec.consult] at h
    cases e : tr t v with
    | ok r =>
      simp only [e, Res.ok_bind] at h
      cases e2 : Spec.consult tr r.2 vs with
      | ok q =>
        simp only [e2, Res.ok_bind, Res.ok.injEq, Prod.mk.injEq] at h
        rw [← h.1, List.length_cons, ih _ _ _ e2, List.length_cons]
      | error => simp [e2, Res.bind] at h
      | assertFail => simp [e2, Res.bind] at h
      | ub => simp [e2, Res.bind] at h
    | error => simp [e, Res.bind] at h
    | assertFail => simp [e, Res.bind] at h
    | ub => simp [e, Res.bind] at h

theorem consult_evalTrigger (s : Triggers.Evaluations) (ns : List Nat) :
    Spec.consult Triggers.evalTrigger s ns = Triggers.evalRun s ns := by
  induction ns generalizing s with
  | nil => rfl
  | cons n ns ih => simp only [Spec.consult, Triggers.evalRun, ih]

theorem consult_targetsTrigger (s : Triggers.Targets) (vs : List ℚ) :
    Spec.consult Triggers.targetsTrigger s vs = Triggers.targetsRun s vs := by
  induction vs generalizing s with
  | nil => rfl
  | cons n ns ih => simp only [Spec.consult, Triggers.targetsRun, ih]

/-- The positions whose flag is set. -/
def Spec.select (is : List Nat) (flags : List Bool) : List Nat := ((is.zip flags).filter (·.2)).map (·.1)

theorem select_append (is : List Nat) (flags : List Bool) (i : Nat) (b : Bool) (h : is.length = flags.length) :
    Spec.select (is ++ [i]) (flags ++ [b]) = Spec.select is flags ++ if b then [i] else [] := by
  unfold Spec.select
  rw [List.zip_append h, List.filter_append, List.map_append]
  cases b <;> simp

theorem select_mem (is : List Nat) (flags : List Bool) : ∀ i ∈ Spec.select is flags, i ∈ is := by
  intro i hi
  unfold Spec.select at hi
  obtain ⟨p, hp, rfl⟩ := List.mem_map.1 hi
  exact (List.of_mem_zip (List.mem_filter.1 hp).1).1

theorem select_sublist (is : List Nat) (flags : List Bool) : (Spec.select is flags).Sublist is := by
  unfold Spec.select
  have h1 : ((is.zip flags).filter (·.2)).Sublist (is.zip flags) := List.filter_sublist
  have h2 : ((is.zip flags).map (·.1)).Sublist is := by
    have : ∀ (l : List Nat) (m : List Bool), ((l.zip m).map (·.1)).Sublist l := by
      intro l
      induction l with
      | nil => intro m; simp
      | cons a l ih =>
        intro m
        cases m with
        | nil => simp
        | cons b m => simpa using ih m
    exact this is flags
  exact (h1.map _).trans h2

/-! ### Lines -/

section
variable {T : Type}

/-- The value the logger uses for an evaluation. -/
def Spec.val (P : Params T) (e : Spec.Ev) : ℚ := value P e.y e.cons

/-- The values of a list of evaluations. -/
def Spec.vals (P : Params T) (evs : List Spec.Ev) : List ℚ := evs.map (Spec.val P)

/-- The line of the evaluation at a position: number of evaluations, number of constraint evaluations, best value
so far minus the optimal value, current value, digits of the constraint values or the best value, solution. -/
def Spec.line (P : Params T) (evs : List Spec.Ev) (i : Nat) : Option Line :=
  evs[i]?.map fun e =>
    let best := Spec.best ((Spec.vals P evs).take (i + 1))
    ⟨i + 1, e.g, best - P.opt, loggedValue e.y, if P.ncons > 0 then .digits (e.cons.map digit) else .best best, e.x⟩

theorem line_append (P : Params T) (evs : List Spec.Ev) (e : Spec.Ev) (i : Nat) (hi : i < evs.length) :
    Spec.line P (evs ++ [e]) i = Spec.line P evs i := by
  unfold Spec.line Spec.vals
  rw [List.getElem?_append_left hi, List.map_append, List.take_append_of_le_length (by simpa using hi)]

theorem lines_append (P : Params T) (evs : List Spec.Ev) (e : Spec.Ev) (is : List Nat) (hi : ∀ i ∈ is, i < evs.length) :
    is.map (Spec.line P (evs ++ [e])) = is.map (Spec.line P evs) := by
  apply List.map_congr_left
  intro i h
  exact line_append P evs e i (hi i h)

theorem line_last (P : Params T) (evs : List Spec.Ev) (e : Spec.Ev) : Spec.line P (evs ++ [e]) evs.length =
    some (outputLine P.ncons P.opt (evs.length + 1) e.g e.x (loggedValue e.y)
      (Spec.best (Spec.vals P (evs ++ [e]))) (some e.cons)) := by
  unfold Spec.line
  simp only [List.getElem?_concat_length, Option.map_some]
  have : (Spec.vals P (evs ++ [e])).take (evs.length + 1) = Spec.vals P (evs ++ [e]) := by
    apply List.take_of_length_le
    simp [Spec.vals]
  rw [this]
  unfold outputLine
  rfl

/-- The line of the recommendation at a position. -/
def Spec.recLine (P : Params T) (recs : List Spec.Rec) (i : Nat) : Option Line :=
  recs[i]?.map fun r =>
    ⟨r.k, r.g, value P r.y r.cons - P.opt, loggedValue r.y,
      if P.ncons > 0 then .digits (r.cons.map digit) else .best (value P r.y r.cons), r.x⟩

/-! ### One evaluation -/

theorem updateBest_ok (P : Params T) (s s' : State T) (x : List Dbl) (y : Dbl) (cons : List Dbl)
    (h : updateBest P s x y cons = .ok s') :
    ∃ (up fire : Bool) (t' : T), (up = true ↔ s.evals = 1 ∨ value P y cons < s.best) ∧ (fire = true → up = true) ∧
      (s.evals = 1 → fire = true ∧ t' = s.targets) ∧
      (s.evals ≠ 1 → value P y cons < s.best → P.trigger s.targets (value P y cons - P.opt) = .ok (fire, t')) ∧
      (s.evals ≠ 1 → ¬ value P y cons < s.best → fire = false ∧ t' = s.targets) ∧
      s' = { s with
        best := if up then value P y cons else s.best
        bestX := if up then some x else s.bestX
        targets := t'
        dat := s.dat ++ if fire then [outputLine P.ncons P.opt s.evals s.numCons x (loggedValue y) (value P y cons) (some cons)] else []
        lastDat := if fire then some s.evals else s.lastDat } := by
  unfold updateBest at h
  by_cases h1 : s.evals = 1
  · simp only [h1, if_true, Res.ok.injEq] at h
    refine ⟨true, true, s.targets, by simp [h1], by simp, by simp, by simp [h1], by simp [h1], ?_⟩
    rw [← h]
    simp [h1]
  · simp only [h1, if_false] at h
    by_cases h2 : value P y cons < s.best
    · simp only [h2, if_true] at h
      cases e : P.trigger s.targets (value P y cons - P.opt) with
      | ok r =>
        obtain ⟨f, t⟩ := r
        simp only [e, Res.ok_bind] at h
        refine ⟨true, f, t, by simp [h2], by simp, by simp [h1], by simp, by simp [h2], ?_⟩
        cases f with
        | true =>
          simp only [if_true, Res.ok.injEq] at h
          rw [← h]
          simp
        | false =>
          simp only [Bool.false_eq_true, if_false, Res.ok.injEq] at h
          rw [← h]
          simp
      | error => simp [e, Res.bind] at h
      | assertFail => simp [e, Res.bind] at h
      | ub => simp [e, Res.bind] at h
    · simp only [h2, if_false, Res.ok.injEq] at h
      refine ⟨false, false, s.targets, by simp [h1, h2], by simp, by simp [h1], by simp [h2], by simp, ?_⟩
      rw [← h]
      simp

theorem evaluate_ok (P : Params T) (s s' : State T) (x : List Dbl) (y : Dbl) (cons : List Dbl)
    (h : evaluate P s x y cons = .ok s') :
    s.tainted = false ∧ ∃ (up fire b : Bool) (t' : T) (e' : Triggers.Evaluations),
      (up = true ↔ s.evals = 0 ∨ value P y cons < s.best) ∧ (fire = true → up = true) ∧
      (s.evals = 0 → fire = true ∧ t' = s.targets) ∧
      (s.evals ≠ 0 → value P y cons < s.best → P.trigger s.targets (value P y cons - P.opt) = .ok (fire, t')) ∧
      (s.evals ≠ 0 → ¬ value P y cons < s.best → fire = false ∧ t' = s.targets) ∧
      Triggers.evalTrigger s.evaluations (s.evals + 1 + s.consEvals) = .ok (b, e') ∧
      ∃ line, line = outputLine P.ncons P.opt (s.evals + 1) s.consEvals x (loggedValue y)
        (if up then value P y cons else s.best) (some cons) ∧
      s' = { s with
        initialized := true
        evals := s.evals + 1
        numCons := s.consEvals
        best := if up then value P y cons else s.best
        bestX := if up then some x else s.bestX
        targets := t'
        dat := s.dat ++ if fire then [line] else []
        lastDat := if fire then some (s.evals + 1) else s.lastDat
        evaluations := e'
        tdat := s.tdat ++ if b then [line] else []
        lastTdat := if b then some (s.evals + 1) else s.lastTdat
        rdat := s.rdat ++ if s.restarted then [line] else []
        restarted := false } := by
  unfold evaluate at h
  by_cases ht : s.tainted = true
  · simp [ht] at h
  · have ht' : s.tainted = false := by simpa using ht
    refine ⟨ht', ?_⟩
    rw [if_neg ht] at h
    unfold Res.assert at h
    split at h
    · rw [Res.ok_bind] at h
      dsimp only at h
      cases e1 : updateBest P { s with initialized := true, evals := s.evals + 1, numCons := s.consEvals } x y cons with
      | ok s2 =>
        rw [e1, Res.ok_bind] at h
        obtain ⟨up, fire, t', k1, k2, k3, k4, k5, rfl⟩ := updateBest_ok _ _ _ _ _ _ e1
        dsimp only at h k1 k3 k4 k5
        cases e2 : Triggers.evalTrigger s.evaluations (s.evals + 1 + s.consEvals) with
        | ok r =>
          obtain ⟨b, e'⟩ := r
          rw [e2, Res.ok_bind] at h
          refine ⟨up, fire, b, t', e', by simpa using k1, k2, by simpa using k3, by simpa using k4, by simpa using k5,
            rfl, _, rfl, ?_⟩
          simp only [Res.ok.injEq] at h
          rw [← h]
          have hl : (if fire = true then [outputLine P.ncons P.opt (s.evals + 1) s.consEvals x (loggedValue y)
              (value P y cons) (some cons)] else []) = (if fire = true then [outputLine P.ncons P.opt (s.evals + 1)
              s.consEvals x (loggedValue y) (if up = true then value P y cons else s.best) (some cons)] else []) := by
            cases fire with
            | true => simp [k2 rfl]
            | false => simp
          rw [hl]
          cases b <;> cases hr : s.restarted <;> simp [hr]
        | error => rw [e2] at h; simp [Res.bind] at h
        | assertFail => rw [e2] at h; simp [Res.bind] at h
        | ub => rw [e2] at h; simp [Res.bind] at h
      | error => rw [e1] at h; simp [Res.bind] at h
      | assertFail => rw [e1] at h; simp [Res.bind] at h
      | ub => rw [e1] at h; simp [Res.bind] at h
    · simp [Res.bind] at h

theorem recommend_ok (P : Params T) (s s' : State T) (x : List Dbl) (y : Dbl) (cons : List Dbl)
    (h : recommend P s x y cons = .ok s') :
    ∃ (fire : Bool) (t' : T),
      (value P y cons < s.bestRec → P.trigger s.mTargets (value P y cons - P.opt) = .ok (fire, t')) ∧
      (¬ value P y cons < s.bestRec → fire = false ∧ t' = s.mTargets) ∧
      s' = { s with
        initialized := true
        bestRec := if value P y cons < s.bestRec then value P y cons else s.bestRec
        bestRecX := if value P y cons < s.bestRec then some x else s.bestRecX
        mTargets := t'
        mdat := s.mdat ++ if fire then [outputLine P.ncons P.opt s.evals s.numCons x (loggedValue y) (value P y cons) (some cons)] else []
        lastMdat := if fire then s.evals else s.lastMdat } := by
  unfold recommend at h
  unfold Res.assert at h
  split at h
  · rw [Res.ok_bind] at h
    by_cases h2 : value P y cons < s.bestRec
    · simp only [h2, if_true] at h
      cases e : P.trigger s.mTargets (value P y cons - P.opt) with
      | ok r =>
        obtain ⟨f, t⟩ := r
        simp only [e, Res.ok_bind] at h
        refine ⟨f, t, by simp, by simp [h2], ?_⟩
        cases f with
        | true =>
          simp only [if_true, Res.ok.injEq] at h
          rw [← h]
          simp [h2]
        | false =>
          simp only [Bool.false_eq_true, if_false, Res.ok.injEq] at h
          rw [← h]
          simp [h2]
      | error => simp [e, Res.bind] at h
      | assertFail => simp [e, Res.bind] at h
      | ub => simp [e, Res.bind] at h
    · simp only [h2, if_false, Res.ok.injEq] at h
      refine ⟨false, s.mTargets, by simp [h2], by simp, ?_⟩
      rw [← h]
      simp [h2]
  · simp [Res.bind] at h

/-! ### The invariant -/

/-- The values given to the target trigger: the improving values minus the optimal value. -/
def Spec.given (P : Params T) (bound : Option ℚ) (vs : List ℚ) : List ℚ :=
  (Spec.improving bound vs).map fun i => vs.getD i 0 - P.opt

theorem given_append (P : Params T) (bound : Option ℚ) (vs : List ℚ) (v : ℚ) : Spec.given P bound (vs ++ [v]) =
    Spec.given P bound vs ++ if Spec.Below bound (vs ++ [v]) vs.length then [v - P.opt] else [] := by
  unfold Spec.given
  rw [improving_append, List.map_append]
  congr 1
  · apply List.map_congr_left
    intro i hi
    rw [List.getD_eq_getElem?_getD, List.getD_eq_getElem?_getD, List.getElem?_append_left (improving_lt _ _ i hi)]
  · split <;> simp [List.getD_eq_getElem?_getD]

/-- The positions of the evaluations in the dat file, given the answers of the target trigger. -/
def Spec.datAt (vs : List ℚ) (flags : List Bool) : List Nat :=
  (if vs = [] then [] else [0]) ++ Spec.select (Spec.improving none vs) flags

/-- The first solution with the best value. -/
def Spec.bestX (P : Params T) (evs : List Spec.Ev) : Option (List Dbl) :=
  (evs.find? fun e => decide (Spec.val P e = Spec.best (Spec.vals P evs))).map Spec.Ev.x

theorem bestX_append (P : Params T) (evs : List Spec.Ev) (e : Spec.Ev) : Spec.bestX P (evs ++ [e]) =
    if evs = [] ∨ Spec.val P e < Spec.best (Spec.vals P evs) then some e.x else Spec.bestX P evs := by
  by_cases h : evs = []
  · subst h
    simp [Spec.bestX, Spec.vals, Spec.best]
  · have hv : Spec.vals P evs ≠ [] := by simpa [Spec.vals] using h
    have ha : Spec.vals P (evs ++ [e]) = Spec.vals P evs ++ [Spec.val P e] := by simp [Spec.vals]
    unfold Spec.bestX
    rw [ha, best_append _ _ hv, List.find?_append]
    by_cases hlt : Spec.val P e < Spec.best (Spec.vals P evs)
    · rw [if_pos (Or.inr hlt), min_eq_right hlt.le]
      have : evs.find? (fun e' => decide (Spec.val P e' = Spec.val P e)) = none := by
        rw [List.find?_eq_none]
        intro e' he'
        have := best_le (Spec.vals P evs) (Spec.val P e') (List.mem_map_of_mem he')
        simp only [decide_eq_true_eq]
        intro heq
        rw [heq] at this
        exact absurd hlt (not_lt.2 this)
      rw [this]
      simp
    · rw [if_neg (by tauto), min_eq_left (not_lt.1 hlt)]
      obtain ⟨e0, he0, hb⟩ := List.mem_map.1 (best_mem _ hv)
      cases hf : evs.find? (fun e' => decide (Spec.val P e' = Spec.best (Spec.vals P evs))) with
      | some e1 => simp
      | none =>
        rw [List.find?_eq_none] at hf
        exact absurd (decide_eq_true hb) (hf e0 he0)

/-- The values of a list of recommendations. -/
def Spec.recVals (P : Params T) (recs : List Spec.Rec) : List ℚ := recs.map fun r => value P r.y r.cons

/-- What holds after a sequence of calls with the given history. -/
structure Inv (P : Params T) (t0 : T) (base : List Nat) (dim : Nat) (h : Spec.Hist) (s : State T) : Prop where
  evals : s.evals = h.evs.length
  consEvals : s.consEvals = h.g
  restarted : s.restarted = h.restart
  numCons : s.numCons = (h.evs.getLast?.map Spec.Ev.g).getD 0
  initialized : s.initialized = true ↔ h.evs ≠ [] ∨ h.recs ≠ []
  best : h.evs ≠ [] → s.best = Spec.best (Spec.vals P h.evs)
  bestX : h.evs ≠ [] → s.bestX = Spec.bestX P h.evs
  dat : ∃ flags, Spec.consult P.trigger t0 (Spec.given P none (Spec.vals P h.evs)) = .ok (flags, s.targets) ∧
    s.dat.map some = (Spec.datAt (Spec.vals P h.evs) flags).map (Spec.line P h.evs)
  lastDat : s.lastDat = s.dat.getLast?.map Line.f
  tdat : ∃ flags, Triggers.evalRun (Triggers.evalInit base dim) (h.evs.mapIdx fun i e => i + 1 + e.g) =
      .ok (flags, s.evaluations) ∧
    s.tdat.map some = (Spec.select (List.range h.evs.length) flags).map (Spec.line P h.evs)
  lastTdat : s.lastTdat = s.tdat.getLast?.map Line.f
  tdat_ne : h.evs ≠ [] → s.tdat ≠ []
  rdat : s.rdat.map some = ((List.range h.evs.length).filter fun i => (h.evs[i]?.map Spec.Ev.restarted).getD false).map
    (Spec.line P h.evs)
  bestRec : ∀ v, v < s.bestRec ↔ v < 3 * 10 ^ 21 ∧ ∀ q ∈ Spec.recVals P h.recs, v < q
  mdat : ∃ flags, Spec.consult P.trigger t0 (Spec.given P (some (3 * 10 ^ 21)) (Spec.recVals P h.recs)) =
      .ok (flags, s.mTargets) ∧
    s.mdat.map some = (Spec.select (Spec.improving (some (3 * 10 ^ 21)) (Spec.recVals P h.recs)) flags).map
      (Spec.recLine P h.recs)
  lastMdat : s.lastMdat = (s.mdat.getLast?.map Line.f).getD 0
  bestRecX : s.mdat ≠ [] → s.bestRecX ≠ none

theorem inv_init (P : Params T) (t0 : T) (base : List Nat) (dim : Nat) :
    Inv P t0 base dim (Spec.hist []) (init t0 base dim) where
  evals := rfl
  consEvals := rfl
  restarted := rfl
  numCons := rfl
  initialized := by simp [init, Spec.hist]
  best h := absurd rfl h
  bestX h := absurd rfl h
  dat := ⟨[], rfl, rfl⟩
  lastDat := rfl
  tdat := ⟨[], rfl, rfl⟩
  lastTdat := rfl
  tdat_ne h := absurd rfl h
  rdat := rfl
  bestRec v := by simp [init, Spec.recVals, Spec.hist]
  mdat := ⟨[], rfl, rfl⟩
  lastMdat := rfl
  bestRecX h := absurd rfl h

theorem inv_evaluate (P : Params T) (t0 : T) (base : List Nat) (dim : Nat) (h : Spec.Hist) (s s' : State T)
    (iv : Inv P t0 base dim h s) (x : List Dbl) (y : Dbl) (cons : List Dbl) (hs : evaluate P s x y cons = .ok s') :
    Inv P t0 base dim { h with evs := h.evs ++ [⟨x, y, cons, h.g, h.restart⟩], restart := false } s' := by
  obtain ⟨-, up, fire, b, t', e', k1, k2, k3, k4, k5, k6, line, hline, rfl⟩ := evaluate_ok P s s' x y cons hs
  generalize he : (⟨x, y, cons, h.g, h.restart⟩ : Spec.Ev) = e
  have hval : value P y cons = Spec.val P e := by rw [← he]; rfl
  have ha : Spec.vals P (h.evs ++ [e]) = Spec.vals P h.evs ++ [Spec.val P e] := by simp [Spec.vals]
  have hnil : Spec.vals P h.evs = [] ↔ h.evs = [] := by simp [Spec.vals]
  have hlen : (Spec.vals P h.evs).length = h.evs.length := by simp [Spec.vals]
  have hz : s.evals = 0 ↔ h.evs = [] := by rw [iv.evals, List.length_eq_zero_iff]
  -- the best value
  have hbest : (if up = true then value P y cons else s.best) = Spec.best (Spec.vals P (h.evs ++ [e])) := by
    rw [ha, hval]
    by_cases hn : h.evs = []
    · rw [if_pos (k1.2 (Or.inl (hz.2 hn))), hnil.2 hn]; rfl
    · rw [best_append _ _ (fun h' => hn (hnil.1 h')), ← iv.best hn]
      by_cases hlt : Spec.val P e < s.best
      · rw [if_pos (k1.2 (Or.inr (hval ▸ hlt))), min_eq_right hlt.le]
      · rw [if_neg (fun hu => by
          rcases k1.1 hu with h' | h'
          · exact hn (hz.1 h')
          · exact hlt (hval ▸ h')), min_eq_left (not_lt.1 hlt)]
  have hl : some line = Spec.line P (h.evs ++ [e]) h.evs.length := by
    rw [line_last, ← hbest, hline, iv.evals, iv.consEvals, ← he]
  have hbelow : Spec.Below none (Spec.vals P h.evs ++ [Spec.val P e]) (Spec.vals P h.evs).length ↔
      h.evs ≠ [] ∧ value P y cons < s.best := by
    rw [below_last]
    by_cases hn : h.evs = []
    · rw [hnil.2 hn]; simp [hn]
    · rw [hval, iv.best hn, lt_best_iff _ (fun h' => hn (hnil.1 h'))]
      simp [hn, hnil]
  constructor
  · simp [iv.evals]
  · exact iv.consEvals
  · rfl
  · simp only [List.getLast?_append, List.getLast?_singleton, Option.some_or, Option.map_some, Option.getD_some]
    rw [iv.consEvals, ← he]
  · simp
  · intro _; exact hbest
  · intro _
    dsimp only
    rw [bestX_append, ← hval]
    by_cases hn : h.evs = []
    · rw [if_pos (k1.2 (Or.inl (hz.2 hn))), if_pos (Or.inl hn), ← he]
    · rw [← iv.best hn]
      by_cases hlt : value P y cons < s.best
      · rw [if_pos (k1.2 (Or.inr hlt)), if_pos (Or.inr hlt), ← he]
      · rw [if_neg (fun hu => by
          rcases k1.1 hu with h' | h'
          · exact hn (hz.1 h')
          · exact hlt h'), if_neg (fun h' => h'.elim hn hlt), iv.bestX hn]
  · -- dat
    obtain ⟨flags, f1, f2⟩ := iv.dat
    have hfl : flags.length = (Spec.improving none (Spec.vals P h.evs)).length := by
      rw [consult_length _ _ _ _ _ f1]; simp [Spec.given]
    have hin : ∀ i ∈ Spec.datAt (Spec.vals P h.evs) flags, i < h.evs.length := by
      intro i hi
      unfold Spec.datAt at hi
      rcases List.mem_append.1 hi with hi | hi
      · split at hi
        · simp at hi
        · rename_i hne
          rw [List.mem_singleton.1 hi, List.length_pos_iff]
          exact fun h' => hne (hnil.2 h')
      · rw [← hlen]
        exact improving_lt _ _ i (select_mem _ _ i hi)
    dsimp only
    rw [ha, given_append]
    by_cases hn : h.evs = []
    · -- first evaluation
      obtain ⟨rfl, rfl⟩ := k3 (hz.2 hn)
      have hb : ¬ Spec.Below none (Spec.vals P h.evs ++ [Spec.val P e]) (Spec.vals P h.evs).length := by
        rw [hbelow]; exact fun h' => h'.1 hn
      have hd : s.dat = [] := by
        have : Spec.datAt (Spec.vals P h.evs) flags = [] := by
          apply List.eq_nil_iff_forall_not_mem.2
          intro i hi
          have := hin i hi
          rw [hn] at this
          simp at this
        rw [this] at f2
        simpa using f2
      refine ⟨flags, by rw [if_neg hb, List.append_nil]; exact f1, ?_⟩
      have hi : Spec.improving none (Spec.vals P h.evs ++ [Spec.val P e]) = [] := by
        rw [improving_append, if_neg hb, hnil.2 hn]; rfl
      unfold Spec.datAt
      rw [hi, hd]
      have : Spec.select [] flags = [] := rfl
      rw [this]
      simp only [List.append_eq_nil_iff, List.cons_ne_self, and_false, if_false, List.append_nil, List.map_cons,
        List.map_nil, List.nil_append, if_true, reduceCtorEq]
      rw [hl, hn]
      rfl
    · by_cases hlt : value P y cons < s.best
      · have k4 := k4 (fun h' => hn (hz.1 h')) hlt
        have hb := hbelow.2 ⟨hn, hlt⟩
        refine ⟨flags ++ [fire], by
          rw [if_pos hb, consult_append, f1, Res.ok_bind]
          dsimp only
          rw [← hval, k4]
          rfl, ?_⟩
        unfold Spec.datAt
        rw [improving_append, if_pos hb, select_append _ _ _ _ hfl.symm]
        have e1 : (if Spec.vals P h.evs ++ [Spec.val P e] = [] then ([] : List Nat) else [0]) = [0] := by simp
        have e2 : (if Spec.vals P h.evs = [] then ([] : List Nat) else [0]) = [0] := by simp [hnil, hn]
        have hd : Spec.datAt (Spec.vals P h.evs) flags = [0] ++ Spec.select (Spec.improving none (Spec.vals P h.evs)) flags := by
          unfold Spec.datAt; rw [e2]
        rw [e1, ← List.append_assoc, ← hd, List.map_append, List.map_append, lines_append _ _ _ _ hin, f2]
        congr 1
        cases fire
        · rfl
        · simp only [if_true, List.map_cons, List.map_nil, hl, hlen]
      · obtain ⟨rfl, rfl⟩ := k5 (fun h' => hn (hz.1 h')) hlt
        have hb : ¬ Spec.Below none (Spec.vals P h.evs ++ [Spec.val P e]) (Spec.vals P h.evs).length := by
          rw [hbelow]; exact fun h' => hlt h'.2
        refine ⟨flags, by rw [if_neg hb, List.append_nil]; exact f1, ?_⟩
        have hd : Spec.datAt (Spec.vals P h.evs ++ [Spec.val P e]) flags = Spec.datAt (Spec.vals P h.evs) flags := by
          unfold Spec.datAt
          rw [improving_append, if_neg hb, List.append_nil]
          simp [hnil, hn]
        rw [hd, lines_append _ _ _ _ hin, ← f2]
        simp
  · -- last line of dat
    dsimp only
    cases fire with
    | true => simp [hline, outputLine]
    | false => simp [iv.lastDat]
  · -- tdat
    obtain ⟨flags, f1, f2⟩ := iv.tdat
    have hfl : flags.length = h.evs.length := by
      rw [← consult_evalTrigger] at f1
      rw [consult_length _ _ _ _ _ f1]; simp
    have hin : ∀ i ∈ Spec.select (List.range h.evs.length) flags, i < h.evs.length := by
      intro i hi
      exact List.mem_range.1 (select_mem _ _ i hi)
    refine ⟨flags ++ [b], ?_, ?_⟩
    · dsimp only
      rw [List.mapIdx_append, ← consult_evalTrigger]
      simp only [List.mapIdx_cons, List.mapIdx_nil]
      rw [consult_append, consult_evalTrigger, f1, Res.ok_bind]
      dsimp only
      have : 0 + h.evs.length + 1 + e.g = s.evals + 1 + s.consEvals := by
        rw [iv.evals, iv.consEvals, ← he]; dsimp only; omega
      rw [this, k6]
      rfl
    · dsimp only
      rw [List.length_append, List.length_singleton, List.range_succ, select_append _ _ _ _ (by simp [hfl]),
        List.map_append, List.map_append, lines_append _ _ _ _ hin, f2]
      congr 1
      cases b
      · rfl
      · simp only [if_true, List.map_cons, List.map_nil, hl]
  · dsimp only
    cases b with
    | true => simp [hline, outputLine]
    | false => simp [iv.lastTdat]
  · intro _
    dsimp only
    by_cases hn : h.evs = []
    · obtain ⟨flags, f1, f2⟩ := iv.tdat
      have : b = true := by
        rw [hn] at f1
        simp only [List.mapIdx_nil, Triggers.evalRun, Res.ok.injEq, Prod.mk.injEq] at f1
        rw [← f1.2] at k6
        unfold Triggers.evalTrigger Triggers.triggerFirst at k6
        have h1 : s.evals + 1 + s.consEvals ≥ (Triggers.evalInit base dim).value1 := by
          simp only [Triggers.evalInit]; omega
        rw [if_pos h1] at k6
        dsimp only at k6
        generalize Triggers.triggerSecond _ _ = r at k6
        cases r with
        | ok r => simp only [Res.ok_bind, Bool.true_or, Res.ok.injEq, Prod.mk.injEq] at k6; exact k6.1.symm
        | error => simp [Res.bind] at k6
        | assertFail => simp [Res.bind] at k6
        | ub => simp [Res.bind] at k6
      simp [this]
    · simp [iv.tdat_ne hn]
  · -- rdat
    dsimp only
    rw [List.length_append, List.length_singleton, List.range_succ, List.filter_append, List.map_append, List.map_append,
      iv.rdat]
    congr 1
    · rw [← lines_append P h.evs e _ (fun i hi => List.mem_range.1 (List.mem_filter.1 hi).1)]
      congr 1
      apply List.filter_congr
      intro i hi
      rw [List.getElem?_append_left (List.mem_range.1 hi)]
    · rw [List.filter_cons, List.getElem?_concat_length, iv.restarted, ← he]
      cases hr : h.restart
      · simp
      · simp [hl, ← he, hr]
  · exact iv.bestRec
  · exact iv.mdat
  · exact iv.lastMdat
  · exact iv.bestRecX

theorem recLine_append (P : Params T) (recs : List Spec.Rec) (r : Spec.Rec) (is : List Nat)
    (hi : ∀ i ∈ is, i < recs.length) : is.map (Spec.recLine P (recs ++ [r])) = is.map (Spec.recLine P recs) := by
  apply List.map_congr_left
  intro i h
  unfold Spec.recLine
  rw [List.getElem?_append_left (hi i h)]

theorem inv_recommend (P : Params T) (t0 : T) (base : List Nat) (dim : Nat) (h : Spec.Hist) (s s' : State T)
    (iv : Inv P t0 base dim h s) (x : List Dbl) (y : Dbl) (cons : List Dbl) (hs : recommend P s x y cons = .ok s') :
    Inv P t0 base dim (Spec.next h (.recommend x y cons)) s' := by
  obtain ⟨fire, t', k1, k2, rfl⟩ := recommend_ok P s s' x y cons hs
  simp only [Spec.next]
  generalize hr : (⟨x, y, cons, h.evs.length, (h.evs.getLast?.map Spec.Ev.g).getD 0⟩ : Spec.Rec) = r
  have hval : value P r.y r.cons = value P y cons := by rw [← hr]
  have ha : Spec.recVals P (h.recs ++ [r]) = Spec.recVals P h.recs ++ [value P y cons] := by simp [Spec.recVals, hval]
  have hlen : (Spec.recVals P h.recs).length = h.recs.length := by simp [Spec.recVals]
  have hbelow : Spec.Below (some (3 * 10 ^ 21)) (Spec.recVals P h.recs ++ [value P y cons]) (Spec.recVals P h.recs).length ↔
      value P y cons < s.bestRec := by
    rw [below_last, iv.bestRec]
  constructor
  · exact iv.evals
  · exact iv.consEvals
  · exact iv.restarted
  · exact iv.numCons
  · simp
  · exact iv.best
  · exact iv.bestX
  · exact iv.dat
  · exact iv.lastDat
  · exact iv.tdat
  · exact iv.lastTdat
  · exact iv.tdat_ne
  · exact iv.rdat
  · intro v
    dsimp only
    rw [ha]
    simp only [List.mem_append, List.mem_singleton, or_imp, forall_and, forall_eq]
    have := iv.bestRec v
    by_cases hlt : value P y cons < s.bestRec
    · rw [if_pos hlt]
      constructor
      · intro hv
        have h1 := this.1 (lt_trans hv hlt)
        exact ⟨h1.1, h1.2, hv⟩
      · intro hv; exact hv.2.2
    · rw [if_neg hlt, this]
      constructor
      · intro hv; exact ⟨hv.1, hv.2, lt_of_lt_of_le (this.2 hv) (not_lt.1 hlt)⟩
      · intro hv; exact ⟨hv.1, hv.2.1⟩
  · obtain ⟨flags, f1, f2⟩ := iv.mdat
    have hfl : flags.length = (Spec.improving (some (3 * 10 ^ 21)) (Spec.recVals P h.recs)).length := by
      rw [consult_length _ _ _ _ _ f1]; simp [Spec.given]
    have hin : ∀ i ∈ Spec.select (Spec.improving (some (3 * 10 ^ 21)) (Spec.recVals P h.recs)) flags, i < h.recs.length := by
      intro i hi
      rw [← hlen]
      exact improving_lt _ _ i (select_mem _ _ i hi)
    dsimp only
    rw [ha, given_append, improving_append]
    by_cases hlt : value P y cons < s.bestRec
    · rw [if_pos (hbelow.2 hlt), if_pos (hbelow.2 hlt)]
      refine ⟨flags ++ [fire], by
        rw [consult_append, f1, Res.ok_bind]
        dsimp only
        rw [k1 hlt]
        rfl, ?_⟩
      rw [select_append _ _ _ _ hfl.symm, List.map_append, List.map_append, recLine_append _ _ _ _ hin, f2]
      congr 1
      cases fire
      · rfl
      · simp only [if_true, List.map_cons, List.map_nil, hlen]
        unfold Spec.recLine
        rw [List.getElem?_concat_length, iv.evals, iv.numCons, ← hr]
        rfl
    · obtain ⟨rfl, rfl⟩ := k2 hlt
      rw [if_neg (fun h' => hlt (hbelow.1 h')), if_neg (fun h' => hlt (hbelow.1 h')), List.append_nil, List.append_nil]
      refine ⟨flags, f1, ?_⟩
      rw [recLine_append _ _ _ _ hin, ← f2]
      simp
  · dsimp only
    cases fire with
    | true => simp [outputLine]
    | false => simp [iv.lastMdat]
  · dsimp only
    by_cases hlt : value P y cons < s.bestRec
    · simp [hlt]
    · obtain ⟨rfl, rfl⟩ := k2 hlt
      rw [if_neg hlt]
      simpa using iv.bestRecX

theorem inv_step (P : Params T) (t0 : T) (base : List Nat) (dim : Nat) (h : Spec.Hist) (s s' : State T)
    (iv : Inv P t0 base dim h s) (op : Op) (hs : step P s op = .ok s') : Inv P t0 base dim (Spec.next h op) s' := by
  cases op with
  | evaluate x y cons =>
    simp only [step, evaluateOp] at hs
    simp only [Spec.next]
    split at hs
    · rename_i hf
      rw [if_pos hf]
      exact inv_evaluate P t0 base dim h s s' iv x y cons hs
    · rename_i hf
      rw [if_neg hf]
      simp only [Res.ok.injEq] at hs
      rw [← hs]; exact iv
  | evaluateConstraint x =>
    simp only [step, Res.ok.injEq] at hs
    simp only [Spec.next]
    rw [← hs]
    split
    · exact { iv with consEvals := by simp [iv.consEvals] }
    · exact iv
  | recommend x y cons =>
    exact inv_recommend P t0 base dim h s s' iv x y cons hs
  | restart =>
    simp only [step, Res.ok.injEq] at hs
    simp only [Spec.next]
    by_cases hn : h.evs = []
    · rw [if_neg (by rw [iv.evals, hn]; simp)] at hs
      rw [if_pos hn, ← hs]
      exact iv
    · rw [if_pos (by rw [iv.evals]; exact List.length_pos_iff.2 hn)] at hs
      rw [if_neg hn, ← hs]
      exact { iv with restarted := rfl }
  | bestParameter =>
    simp only [step, Res.ok.injEq] at hs
    rw [← hs]
    exact { iv with }

theorem run_append (P : Params T) (s : State T) (a b : List Op) :
    run P s (a ++ b) = (run P s a).bind fun s => run P s b := by
  induction a generalizing s with
  | nil => rfl
  | cons e a ih =>
    simp only [List.cons_append, run, ih]
    cases step P s e <;> rfl

theorem inv_run (P : Params T) (t0 : T) (base : List Nat) (dim : Nat) (ops : List Op) : ∀ (s : State T),
    run P (init t0 base dim) ops = .ok s → Inv P t0 base dim (Spec.hist ops) s := by
  induction ops using List.reverseRecOn with
  | nil =>
    intro s hs
    simp only [run, Res.ok.injEq] at hs
    rw [← hs]; exact inv_init P t0 base dim
  | append_singleton ops op ih =>
    intro s hs
    rw [run_append] at hs
    cases e : run P (init t0 base dim) ops with
    | ok s1 =>
      rw [e, Res.ok_bind] at hs
      simp only [run] at hs
      cases e2 : step P s1 op with
      | ok s2 =>
        rw [e2] at hs
        simp only [Res.ok_bind, Res.ok.injEq] at hs
        rw [hist_append, ← hs]
        exact inv_step P t0 base dim _ _ _ (ih s1 e) op e2
      | error => rw [e2] at hs; simp [Res.bind] at hs
      | assertFail => rw [e2] at hs; simp [Res.bind] at hs
      | ub => rw [e2] at hs; simp [Res.bind] at hs
    | error => rw [e] at hs; simp [Res.bind] at hs
    | assertFail => rw [e] at hs; simp [Res.bind] at hs
    | ub => rw [e] at hs; simp [Res.bind] at hs

end

end LoggerBbob
