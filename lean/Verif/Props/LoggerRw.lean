import Verif.Model.LoggerRw
import Verif.Props.Options
import Mathlib.Data.List.Induction

/-!
Properties C40 (log of the rw logger) and C75 (options of the rw observer).
-/

namespace LoggerRw
open CStr Options

/-! ### Specification -/

/-- An evaluation: the number of constraint evaluations before, the solution, its objective values and its
constraint values. -/
abbrev Spec.Eval := Nat × List Dbl × List Dbl × List Dbl

/-- The first objective value. -/
def Spec.val (e : Spec.Eval) : Dbl := e.2.2.1.headD .nan

/-- A value is better than all before: smaller than the largest finite double and than all earlier values that
are not NaN. -/
def Spec.Record (before : List Spec.Eval) (v : Dbl) : Prop :=
  Dbl.lt v (.fin Dbl.dblMax) = true ∧ ∀ q ∈ before, (Spec.val q).isNan = false → Dbl.lt v (Spec.val q) = true

/-- The evaluation at a position of the sequence is logged: the first one always, the others if all evaluations
are logged or if the value is better than all before. -/
def Spec.Logged (onlyBetter : Bool) (es : List Spec.Eval) (i : Nat) : Prop :=
  i = 0 ∨ onlyBetter = false ∨ ∃ e, es[i]? = some e ∧ Spec.Record (es.take i) (Spec.val e)

/-- The line of the evaluation at a position. -/
def Spec.line (vars cons : Bool) (es : List Spec.Eval) (i : Nat) : Option Line :=
  es[i]?.map fun e => ⟨i + 1, e.1, e.2.2.1, if vars then some e.2.1 else none, if cons then some e.2.2.2 else none⟩

/-! ### C40 -/

theorem run_append (d : Sizes) (s : State) (a b : List Spec.Eval) :
    run d s (a ++ b) = (run d s a).bind fun s => run d s b := by
  induction a generalizing s with
  | nil => rfl
  | cons e a ih =>
    obtain ⟨g, x, y, c⟩ := e
    simp only [List.cons_append, run, ih]
    cases evaluate d s g x y c <;> rfl

/-- What holds after a sequence of evaluations. -/
structure Inv (d : Sizes) (vars cons only : Bool) (es : List Spec.Eval) (s : State) : Prop where
  evals : s.evals = es.length
  vars : s.logVars = vars
  cons : s.logCons = cons
  only : s.onlyBetter = only
  nan : s.best.isNan = false
  best : d.nobj = 1 → ∀ v, Dbl.lt v s.best = true ↔ Spec.Record es v

theorem record_nil (v : Dbl) : Spec.Record [] v ↔ Dbl.lt v (.fin Dbl.dblMax) = true := by simp [Spec.Record]

theorem record_append (es : List Spec.Eval) (e : Spec.Eval) (v : Dbl) :
    Spec.Record (es ++ [e]) v ↔ Spec.Record es v ∧ ((Spec.val e).isNan = false → Dbl.lt v (Spec.val e) = true) := by
  unfold Spec.Record
  simp only [List.mem_append, List.mem_singleton, or_imp, forall_and, forall_eq]
  tauto

open Classical in
theorem lines_spec (d : Sizes) (vars cons only : Bool) (ho : only = true → d.nobj = 1) (es : List Spec.Eval)
    (hy : d.nobj = 1 → ∀ e ∈ es, e.2.2.1 ≠ []) :
    ∃ s, run d ⟨0, .fin Dbl.dblMax, vars, cons, only, []⟩ es = .ok s ∧ Inv d vars cons only es s ∧
      s.lines.map some = ((List.range es.length).filter fun i => decide (Spec.Logged only es i)).map
        (Spec.line vars cons es) := by
  induction es using List.reverseRecOn with
  | nil => exact ⟨_, rfl, ⟨rfl, rfl, rfl, rfl, rfl, fun _ v => (record_nil v).symm⟩, rfl⟩
  | append_singleton es e ih =>
    obtain ⟨s, hs, iv, hl⟩ := ih (fun h q hq => hy h q (by simp [hq]))
    rw [run_append, hs, Res.ok_bind]
    -- the old part of the log
    have hold : ((List.range es.length).filter fun i => decide (Spec.Logged only (es ++ [e]) i)).map
        (Spec.line vars cons (es ++ [e])) =
        ((List.range es.length).filter fun i => decide (Spec.Logged only es i)).map (Spec.line vars cons es) := by
      have h1 : ∀ i ∈ List.range es.length,
          decide (Spec.Logged only (es ++ [e]) i) = decide (Spec.Logged only es i) := by
        intro i hi
        have hi := List.mem_range.1 hi
        unfold Spec.Logged
        rw [List.getElem?_append_left hi, List.take_append_of_le_length (le_of_lt hi)]
      rw [List.filter_congr h1]
      apply List.map_congr_left
      intro i hi
      have hi := List.mem_range.1 (List.mem_filter.1 hi).1
      unfold Spec.line
      rw [List.getElem?_append_left hi]
    have hlast : (es ++ [e])[es.length]? = some e := by simp
    have htake : (es ++ [e]).take es.length = es := by simp
    have hnew : ∀ b : Bool, (b = true ↔ Spec.Logged only (es ++ [e]) es.length) →
        ((List.range (es ++ [e]).length).filter fun i => decide (Spec.Logged only (es ++ [e]) i)).map
          (Spec.line vars cons (es ++ [e])) = s.lines.map some ++
          (if b then [some ⟨es.length + 1, e.1, e.2.2.1, if vars then some e.2.1 else none,
            if cons then some e.2.2.2 else none⟩] else []) := by
      intro b hb
      rw [List.length_append, List.length_singleton, List.range_succ, List.filter_append, List.map_append, hold, hl]
      congr 1
      cases b with
      | true =>
        have := hb.1 rfl
        simp [this, Spec.line]
      | false =>
        have : ¬ Spec.Logged only (es ++ [e]) es.length := fun h => by simpa using hb.2 h
        simp [this]
    have hlog : Spec.Logged only (es ++ [e]) es.length ↔
        es.length = 0 ∨ only = false ∨ Spec.Record es (Spec.val e) := by
      unfold Spec.Logged
      rw [hlast, htake]
      simp
    obtain ⟨g, x, y, c⟩ := e
    simp only [run]
    unfold evaluate
    by_cases h1 : d.nobj = 1
    · rw [if_pos h1]
      cases y with
      | nil => exact absurd rfl (hy h1 (g, x, [], c) (by simp))
      | cons y0 ys =>
        have hval : Spec.val (g, x, y0 :: ys, c) = y0 := rfl
        rw [hval] at hlog
        have hb := iv.best h1
        by_cases hlt : Dbl.lt y0 s.best = true
        · simp only [hlt, if_true, Res.ok_bind]
          refine ⟨_, rfl, ⟨by simp [iv.evals], iv.vars, iv.cons, iv.only, (Dbl.lt_not_nan hlt).1, ?_⟩, ?_⟩
          · intro _ v
            rw [record_append, ← hb, hval]
            constructor
            · intro h
              exact ⟨Dbl.lt_trans h hlt, fun _ => h⟩
            · intro h
              exact h.2 (Dbl.lt_not_nan hlt).1
          · rw [hnew true (by rw [hlog]; simp [(hb y0).1 hlt])]
            simp [iv.evals, iv.vars, iv.cons]
        · have hlt' : Dbl.lt y0 s.best = false := by simpa using hlt
          simp only [hlt', Bool.false_eq_true, if_false, Res.ok_bind]
          refine ⟨_, rfl, ⟨by simp [iv.evals], iv.vars, iv.cons, iv.only, iv.nan, ?_⟩, ?_⟩
          · intro _ v
            rw [record_append, ← hb, hval]
            constructor
            · intro h
              exact ⟨h, fun hn => Dbl.lt_of_lt_of_le h (Dbl.le_of_not_lt hn iv.nan hlt')⟩
            · intro h
              exact h.1
          · rw [hnew (decide (s.evals + 1 = 1) || !s.onlyBetter) (by
              rw [hlog, ← hb, iv.evals, iv.only]
              simp [hlt'])]
            by_cases hc : (decide (s.evals + 1 = 1) || !s.onlyBetter) = true
            · simp only [hc, if_true]
              simp [iv.evals, iv.vars, iv.cons]
            · simp only [hc]
              simp
    · rw [if_neg h1, Res.ok_bind]
      have honly : only = false := by
        cases only with
        | false => rfl
        | true => exact absurd (ho rfl) h1
      refine ⟨_, rfl, ⟨by simp [iv.evals], iv.vars, iv.cons, iv.only, iv.nan, fun h => absurd h h1⟩, ?_⟩
      rw [hnew true (by rw [hlog]; simp [honly])]
      simp [iv.evals, iv.vars, iv.cons]

open Classical in
/-- **C40.** The log has one line for the first evaluation and for each later one that is better than all
before; without `log_only_better` or with several objectives it has one line for every evaluation. The lines are
in the order of the evaluations and show the number of the evaluation, the objective values, and the decision
and constraint values if they are to be logged. -/
theorem C40_log (o : Observer) (d : Sizes) (s0 : State) (h0 : init o d = .ok s0) (es : List Spec.Eval)
    (hy : ∀ e ∈ es, e.2.2.1.length = d.nobj) :
    ∃ s better, run d s0 es = .ok s ∧ o.onlyBetter = some better ∧
      s.lines.map some = ((List.range es.length).filter fun i =>
        decide (Spec.Logged (decide (better ≠ 0 ∧ d.nobj = 1)) es i)).map (Spec.line s0.logVars s0.logCons es) := by
  unfold init at h0
  cases e1 : notLogged o.varsMode d.nvar o.lowDimVars false with
  | ok nv =>
    cases e2 : notLogged o.consMode d.ncons o.lowDimCons (decide (d.ncons = 0)) with
    | ok nc =>
      rw [e1, e2, Res.ok_bind, Res.ok_bind] at h0
      cases e3 : o.onlyBetter with
      | none => rw [e3] at h0; simp [readField, Res.bind] at h0
      | some ob =>
        cases e4 : o.time with
        | none => rw [e3, e4] at h0; simp [readField, Res.bind] at h0
        | some t =>
          rw [e3, e4] at h0
          simp only [readField, Res.ok_bind, Res.ok.injEq] at h0
          subst h0
          obtain ⟨s, k1, -, k2⟩ := lines_spec d (!nv) (!nc) (decide (ob ≠ 0) && decide (d.nobj = 1))
            (by simp) es (by
              intro h1 e he h
              have := hy e he
              rw [h, h1] at this
              simp at this)
          refine ⟨s, ob, k1, rfl, ?_⟩
          rw [k2, ← Bool.decide_and]
    | error => rw [e1, e2] at h0; simp [Res.bind] at h0
    | assertFail => rw [e1, e2] at h0; simp [Res.bind] at h0
    | ub => rw [e1, e2] at h0; simp [Res.bind] at h0
  | error => rw [e1] at h0; simp [Res.bind] at h0
  | assertFail => rw [e1] at h0; simp [Res.bind] at h0
  | ub => rw [e1] at h0; simp [Res.bind] at h0

/-- Five evaluations of a problem with one objective, with `log_only_better`. -/
example : (init ⟨.always, .never, some 10, some 10, some 1, some 0⟩ ⟨1, 1, 0⟩).bind (fun s =>
    (run ⟨1, 1, 0⟩ s [(0, [.fin 1], [.nan], []), (0, [.fin 2], [.fin 5], []), (0, [.fin 3], [.fin 5], []),
      (0, [.fin 4], [.pinf], []), (0, [.fin 5], [.fin 3], [])]).bind fun s => .ok (s.lines.map fun l => (l.f, l.y))) =
    .ok [(1, [.nan]), (2, [.fin 5]), (5, [.fin 3])] := by decide +kernel

/-! ### C75 -/

/-- **C75** (which values are logged). The decision values are logged with mode "all" and, with mode "low_dim",
up to the given dimension; constraint values likewise, if there are any. -/
theorem C75_logged_values (o : Observer) (d : Sizes) (s0 : State) (h0 : init o d = .ok s0) :
    (s0.logVars = true ↔ o.varsMode = .always ∨ o.varsMode = .lowDim ∧ ∃ l, o.lowDimVars = some l ∧ d.nvar ≤ l) ∧
    (s0.logCons = true ↔ d.ncons ≠ 0 ∧
      (o.consMode = .always ∨ o.consMode = .lowDim ∧ ∃ l, o.lowDimCons = some l ∧ d.ncons ≤ l)) := by
  have key : ∀ (m : Mode) (n : Nat) (low : Option Nat) (b r : Bool), notLogged m n low b = .ok r →
      ((!r) = true ↔ b = false ∧ (m = .always ∨ m = .lowDim ∧ ∃ l, low = some l ∧ n ≤ l)) := by
    intro m n low b r h
    unfold notLogged at h
    cases m with
    | never => simp at h; subst h; simp
    | always => simp at h; subst h; simp
    | lowDim =>
      cases low with
      | none => simp [readField, Res.bind] at h
      | some l =>
        simp [readField] at h
        subst h
        cases b <;> simp
  unfold init at h0
  cases e1 : notLogged o.varsMode d.nvar o.lowDimVars false with
  | ok nv =>
    cases e2 : notLogged o.consMode d.ncons o.lowDimCons (decide (d.ncons = 0)) with
    | ok nc =>
      rw [e1, e2, Res.ok_bind, Res.ok_bind] at h0
      cases e3 : o.onlyBetter with
      | none => rw [e3] at h0; simp [readField, Res.bind] at h0
      | some ob =>
        cases e4 : o.time with
        | none => rw [e3, e4] at h0; simp [readField, Res.bind] at h0
        | some t =>
          rw [e3, e4] at h0
          simp only [readField, Res.ok_bind, Res.ok.injEq] at h0
          subst h0
          refine ⟨?_, ?_⟩
          · rw [key _ _ _ _ _ e1]; simp
          · rw [key _ _ _ _ _ e2]; simp
    | error => rw [e1, e2] at h0; simp [Res.bind] at h0
    | assertFail => rw [e1, e2] at h0; simp [Res.bind] at h0
    | ub => rw [e1, e2] at h0; simp [Res.bind] at h0
  | error => rw [e1] at h0; simp [Res.bind] at h0
  | assertFail => rw [e1] at h0; simp [Res.bind] at h0
  | ub => rw [e1] at h0; simp [Res.bind] at h0

/-- A key is not in the options, or it is given with a word as value. -/
def Spec.StrGiven (cap : Nat) (options key : List Char) : Option (List Char) → Prop
  | none => ∀ k, ¬ Str.Spec.OccursAt options key k
  | some v => ∃ pre gap sp rest, Options.Spec.Entry options pre key gap sp (v ++ rest) ∧ v ≠ [] ∧
      (∀ c ∈ v, isSpace c = false) ∧ v.head? ≠ some '"' ∧ (∀ c, rest.head? = some c → isSpace c = true) ∧ v.length < cap

/-- A key is not in the options, or it is given with a decimal number as value. -/
def Spec.NumGiven (options key : List Char) : Option Nat → Prop
  | none => ∀ k, ¬ Str.Spec.OccursAt options key k
  | some v => ∃ pre gap sp ds rest, Options.Spec.Entry options pre key gap sp (ds ++ rest) ∧ ds ≠ [] ∧
      (∀ c ∈ ds, isDigit c = true) ∧ decimal ds = v ∧ v < 2 ^ 64 ∧ (∀ c, rest.head? = some c → isDigit c = false)

/-- A key is not in the options, or it is given with a decimal integer (without leading zeros) as value. -/
def Spec.IntGiven (options key : List Char) : Option Int → Prop
  | none => ∀ k, ¬ Str.Spec.OccursAt options key k
  | some v => ∃ pre gap sp, ∃ neg : Bool, ∃ ds rest, Options.Spec.Entry options pre key gap sp ((if neg then ['-'] else []) ++ (ds ++ rest)) ∧
      ds ≠ [] ∧ (∀ c ∈ ds, isDigit c = true) ∧ ds.head? ≠ some '0' ∧ decimal ds < 2 ^ 31 ∧
      (∀ c, rest.head? = some c → hexVal c = none) ∧ v = if neg then -(decimal ds : Int) else decimal ds

/-- The meaning of a mode option. -/
def Spec.mode : Option (List Char) → Mode
  | none => .always
  | some v => if v = "none".toList then .never else if v = "low_dim".toList then .lowDim else .always

theorem modeOption_given {pathMax : Nat} {options key : List Char} {v : Option (List Char)} (hk : key ≠ [])
    (hl : options.length ≤ 1000000000) (h : Spec.StrGiven (pathMax + 1) options key v) :
    modeOption pathMax options key = .ok (Spec.mode v) := by
  unfold modeOption
  cases v with
  | none =>
    rw [(C12_absent options key (pathMax + 1) hk hl h).1, Res.ok_bind]
    simp [Spec.mode]
  | some v =>
    obtain ⟨pre, gap, sp, rest, h1, h2, h3, h4, h5, h6⟩ := h
    rw [C12_read_string (pathMax + 1) h1 h2 h3 h4 h5 h6, Res.ok_bind]
    simp only [Spec.mode, Option.some.injEq]
    have : (1 : Int) > 0 := by decide
    simp only [this, if_true]
    by_cases e1 : v = "none".toList
    · simp only [e1, if_true]
    · by_cases e2 : v = "all".toList
      · have : ¬ "all".toList = "none".toList := by decide
        have h3 : ¬ "all".toList = "low_dim".toList := by decide
        simp only [e2, this, h3, if_true, if_false]
      · simp only [e1, e2, if_false]
        split <;> rfl

theorem readSizeT_given {options key : List Char} {v : Option Nat} (hk : key ≠ [])
    (hl : options.length ≤ 1000000000) (h : Spec.NumGiven options key v) :
    ∃ n : Int, readSizeT options key = .ok (n, v) ∧ (n = 0 ↔ v = none) := by
  cases v with
  | none => exact ⟨0, (C12_absent options key 1 hk hl h).2.2.2, by simp⟩
  | some v =>
    obtain ⟨pre, gap, sp, ds, rest, h1, h2, h3, h4, h5, h6⟩ := h
    refine ⟨1, ?_, by simp⟩
    rw [C12_read_size_t h1 h2 h3 (by rw [h4]; exact h5) h6, h4]

theorem readInt_given {options key : List Char} {v : Option Int} (hk : key ≠ [])
    (hl : options.length ≤ 1000000000) (h : Spec.IntGiven options key v) :
    ∃ n : Int, readInt options key = .ok (n, v) ∧ (n = 0 ↔ v = none) := by
  cases v with
  | none => exact ⟨0, (C12_absent options key 1 hk hl h).2.2.1, by simp⟩
  | some v =>
    obtain ⟨pre, gap, sp, neg, ds, rest, h1, h2, h3, h4, h5, h6, h7⟩ := h
    refine ⟨1, ?_, by simp⟩
    rw [C12_read_int neg h1 h2 h3 h4 h5 h6, h7]

/-- **C75** (options). Each setting of the observer has the given value, or its default if its key does not
occur in the options. -/
theorem C75_options_partial (pathMax : Nat) (options : List Char) (hl : options.length ≤ 1000000000)
    (vars cons : Option (List Char)) (lv lc : Option Nat) (better time : Option Int)
    (h1 : Spec.StrGiven (pathMax + 1) options "log_variables".toList vars)
    (h2 : Spec.StrGiven (pathMax + 1) options "log_constraints".toList cons)
    (h3 : Spec.NumGiven options "low_dim_vars".toList lv) (h4 : Spec.NumGiven options "low_dim_cons".toList lc)
    (h5 : Spec.IntGiven options "log_only_better".toList better) (h6 : Spec.IntGiven options "log_time".toList time) :
    observer pathMax options = .ok ⟨Spec.mode vars, Spec.mode cons, some (lv.getD 10), some (lc.getD 10),
      some (better.getD 0), some (time.getD 0)⟩ := by
  obtain ⟨n3, e3, k3⟩ := readSizeT_given (by decide) hl h3
  obtain ⟨n4, e4, k4⟩ := readSizeT_given (by decide) hl h4
  obtain ⟨n5, e5, k5⟩ := readInt_given (by decide) hl h5
  obtain ⟨n6, e6, k6⟩ := readInt_given (by decide) hl h6
  unfold observer
  simp only [modeOption_given (by decide) hl h1, modeOption_given (by decide) hl h2, e3, e4, e5, e6, Res.ok_bind]
  have key : ∀ {α : Type} (n : Int) (v : Option α) (d : α), (n = 0 ↔ v = none) →
      (if n = 0 then some d else v) = some (v.getD d) := by
    intro α n v d h
    cases v with
    | none => simp [h.2 rfl]
    | some v => simp [h]
  simp only [key _ _ _ k3, key _ _ _ k4, key _ _ _ k5, key _ _ _ k6]

/-- **C75** (refutation for empty values). With a key without value at the end of the options the setting stays
indeterminate, and creating the logger reads it. -/
theorem C75_empty_value_undefined :
    (observer 100 "log_only_better:".toList).bind (fun o => init o ⟨2, 1, 0⟩) = .ub := by decide +kernel

/-- Options with three of the keys. -/
example : observer 100 "log_variables: low_dim low_dim_vars: 5 log_only_better: 1".toList =
    .ok ⟨.lowDim, .always, some 5, some 10, some 1, some 0⟩ := by decide +kernel

example : Spec.StrGiven 101 "log_variables: low_dim low_dim_vars: 5".toList "log_variables".toList (some "low_dim".toList) :=
  ⟨[], [], " ".toList, " low_dim_vars: 5".toList,
    { text := by decide, name_ne := by decide, name_colon := by decide, gap_colon := by decide, sp_space := by decide,
      first := by intro k hk; simp at hk, len := by decide }, by decide, by decide, by decide,
    by intro c hc; have : c = ' ' := by simpa using hc.symm
       subst this; decide, by decide⟩

end LoggerRw
