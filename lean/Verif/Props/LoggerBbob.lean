import Verif.Lemmas.LoggerBbob
import Verif.Props.Targets

/-!
Properties C41, C42 and C77-C79: the bbob logger. The vocabulary (histories, improving positions, lines) is in
`Verif.Lemmas.LoggerBbob`.
-/

namespace LoggerBbob

variable {T : Type}

/-! ### C41: values -/

/-- The violation of a constraint with a finite value. -/
def Spec.excess : Dbl → ℚ
  | .fin q => max q 0
  | _ => 0

/-- The sum of the constraint violations; an infinite one counts as 3e21. -/
def Spec.violation (cons : List Dbl) : ℚ := if .pinf ∈ cons then 3 * 10 ^ 21 else (cons.map Spec.excess).sum

theorem sum_pinf (cons : List Dbl) :
    cons.foldl (fun s v => if Dbl.lt (.fin 0) v then addDbl s v else s) .pinf = .pinf := by
  induction cons with
  | nil => rfl
  | cons c cons ih =>
    rw [List.foldl_cons]
    have : (if Dbl.lt (.fin 0) c = true then addDbl .pinf c else .pinf) = .pinf := by
      cases c <;> simp [Dbl.lt, addDbl]
    rw [this, ih]

theorem sum_fin (cons : List Dbl) : ∀ a : ℚ,
    cons.foldl (fun s v => if Dbl.lt (.fin 0) v then addDbl s v else s) (.fin a) =
      if .pinf ∈ cons then .pinf else .fin (a + (cons.map Spec.excess).sum) := by
  induction cons with
  | nil => intro a; simp
  | cons c cons ih =>
    intro a
    rw [List.foldl_cons]
    cases c with
    | nan =>
      have e : (if Dbl.lt (.fin 0) .nan = true then addDbl (.fin a) .nan else .fin a) = .fin a := rfl
      rw [e, ih]; simp [Spec.excess]
    | ninf =>
      have e : (if Dbl.lt (.fin 0) .ninf = true then addDbl (.fin a) .ninf else .fin a) = .fin a := rfl
      rw [e, ih]; simp [Spec.excess]
    | pinf =>
      have e : (if Dbl.lt (.fin 0) .pinf = true then addDbl (.fin a) .pinf else .fin a) = .pinf := rfl
      rw [e, sum_pinf]; simp
    | fin q =>
      by_cases hq : 0 < q
      · have e : (if Dbl.lt (.fin 0) (.fin q) = true then addDbl (.fin a) (.fin q) else .fin a) = .fin (a + q) := by
          simp [Dbl.lt, addDbl, hq]
        rw [e, ih]; simp [Spec.excess, max_eq_left hq.le, add_assoc]
      · have e : (if Dbl.lt (.fin 0) (.fin q) = true then addDbl (.fin a) (.fin q) else .fin a) = .fin a := by
          simp [Dbl.lt, hq]
        rw [e, ih]; simp [Spec.excess, max_eq_right (not_lt.1 hq)]

/-- **C41** (logged value). Feasible solutions count with their objective value (not below a known optimal
value), infeasible ones with their constraint violations added to the larger of objective value and optimal value,
or to 1e10 if the optimal value is not known. -/
theorem C41_value (P : Params T) (y : Dbl) (cons : List Dbl) : value P y cons = Spec.violation cons +
    (if P.optKnown then max (loggedValue y) P.opt else if 0 < Spec.violation cons then 10 ^ 10 else loggedValue y) := by
  have hs : sumConstraints cons = Spec.violation cons := by
    unfold sumConstraints Spec.violation
    rw [sum_fin]
    split <;> simp [loggedValue]
  unfold value maxValue
  rw [hs, add_comm]
  cases P.optKnown with
  | true =>
    simp only [if_true, ge_iff_le]
    split
    · rename_i h; rw [max_eq_left h]
    · rename_i h; rw [max_eq_right (not_le.1 h).le]
  | false => simp

/-! ### C41: the dat file -/

/-- **C41** (dat file). The lines of the dat file are those of the first evaluation and of the improving
evaluations for which the target trigger, consulted with the improving values minus the optimal value, fires. -/
theorem C41_dat (P : Params T) (t0 : T) (base : List Nat) (dim : Nat) (ops : List Op) (s : State T)
    (h : run P (init t0 base dim) ops = .ok s) :
    ∃ flags t, Spec.consult P.trigger t0 (Spec.given P none (Spec.vals P (Spec.hist ops).evs)) = .ok (flags, t) ∧
      s.dat.map some = (Spec.datAt (Spec.vals P (Spec.hist ops).evs) flags).map (Spec.line P (Spec.hist ops).evs) := by
  obtain ⟨flags, h1, h2⟩ := (inv_run P t0 base dim ops s h).dat
  exact ⟨flags, _, h1, h2⟩

theorem datAt_sorted (vs : List ℚ) (flags : List Bool) : (Spec.datAt vs flags).Pairwise (· < ·) := by
  unfold Spec.datAt
  split
  · rename_i h
    subst h
    have : Spec.improving none [] = [] := rfl
    rw [this]
    exact List.Pairwise.nil
  · rw [List.singleton_append, List.pairwise_cons]
    refine ⟨?_, (improving_sorted none vs).sublist (select_sublist _ _)⟩
    intro i hi
    have hi := List.mem_filter.1 (select_mem _ _ i hi)
    have h2 := of_decide_eq_true hi.2
    exact h2.1

theorem datAt_lt (vs : List ℚ) (flags : List Bool) : ∀ i ∈ Spec.datAt vs flags, i < vs.length := by
  intro i hi
  unfold Spec.datAt at hi
  rcases List.mem_append.1 hi with hi | hi
  · split at hi
    · simp at hi
    · rename_i hne
      rw [List.mem_singleton.1 hi]
      exact List.length_pos_iff.2 hne
  · exact improving_lt _ _ i (select_mem _ _ i hi)

theorem fs_eq (P : Params T) (evs : List Spec.Ev) (ls : List Line) (is : List Nat)
    (h : ls.map some = is.map (Spec.line P evs)) : ls.map Line.f = is.map (· + 1) := by
  induction ls generalizing is with
  | nil =>
    cases is with
    | nil => rfl
    | cons i is => simp at h
  | cons l ls ih =>
    cases is with
    | nil => simp at h
    | cons i is =>
      simp only [List.map_cons, List.cons.injEq] at h ⊢
      refine ⟨?_, ih is h.2⟩
      have := h.1
      unfold Spec.line at this
      cases e : evs[i]? with
      | none => rw [e] at this; simp at this
      | some v =>
        rw [e] at this
        simp only [Option.map_some, Option.some.injEq] at this
        rw [this]

/-- **C41** (order). The lines are in strictly increasing number of evaluations, which does not exceed the number
of evaluations made, and the first line is that of the first evaluation. -/
theorem C41_increasing (P : Params T) (t0 : T) (base : List Nat) (dim : Nat) (ops : List Op) (s : State T)
    (h : run P (init t0 base dim) ops = .ok s) :
    (s.dat.map Line.f).Pairwise (· < ·) ∧ (∀ l ∈ s.dat, 1 ≤ l.f ∧ l.f ≤ (Spec.hist ops).evs.length) ∧
      ((Spec.hist ops).evs ≠ [] → s.dat.head?.map Line.f = some 1) := by
  obtain ⟨flags, t, -, h2⟩ := C41_dat P t0 base dim ops s h
  have hf := fs_eq _ _ _ _ h2
  refine ⟨?_, ?_, ?_⟩
  · rw [hf, List.pairwise_map]
    exact (datAt_sorted _ flags).imp (by intro a b hab; omega)
  · intro l hl
    have : l.f ∈ s.dat.map Line.f := List.mem_map_of_mem hl
    rw [hf] at this
    obtain ⟨i, hi, hi2⟩ := List.mem_map.1 this
    have := datAt_lt _ _ i hi
    simp only [Spec.vals, List.length_map] at this
    omega
  · intro hne
    have hv : Spec.vals P (Spec.hist ops).evs ≠ [] := by simpa [Spec.vals] using hne
    rw [← List.head?_map, hf]
    unfold Spec.datAt
    rw [if_neg hv]
    rfl

/-- **C41** (targets, known optimum). With the triggers of the observer, an evaluation has a line in the dat file
exactly if it is the first one, or improves on all before and reaches a logarithmic or linear target that none of
the improving evaluations from the second evaluation on has reached before. -/
theorem C41_targets (P : Params Triggers.Targets) (hP : P.trigger = Triggers.targetsTrigger) (p : ℚ) (n : ℕ) (prec : ℝ)
    (base : List Nat) (dim : Nat) (ops : List Op) (s : State Triggers.Targets)
    (h : run P (init (Triggers.targetsInit Dbl.dblMax true p n prec) base dim) ops = .ok s)
    (hn : 0 < n) (hp : p > 1 / 10 ^ 12)
    (hlin : ∀ v ∈ Spec.given P none (Spec.vals P (Spec.hist ops).evs), v + p < Dbl.dblMax)
    (hlog : Triggers.Spec.InRange n prec ((Spec.given P none (Spec.vals P (Spec.hist ops).evs)).map fun v : ℚ => (v : ℝ))) :
    ∃ logs lins,
      List.Forall₂ (fun (v : ℚ) t => Triggers.Spec.LogReached n prec v t)
        (Spec.given P none (Spec.vals P (Spec.hist ops).evs)) logs ∧
      List.Forall₂ (Triggers.Spec.LinReached p) (Spec.given P none (Spec.vals P (Spec.hist ops).evs)) lins ∧
      ∀ i < (Spec.hist ops).evs.length, (∃ l ∈ s.dat, l.f = i + 1) ↔ i = 0 ∨
        ∃ k, (Spec.improving none (Spec.vals P (Spec.hist ops).evs))[k]? = some i ∧
          (Triggers.Spec.RecordAt logs k ∨ Triggers.Spec.RecordAt lins k) := by
  obtain ⟨flags, t, h1, h2⟩ := C41_dat P _ base dim ops s h
  obtain ⟨flags', t', logs, lins, k1, k2, k3, k4, k5, -⟩ :=
    Triggers.C76_targets Dbl.dblMax p n prec _ hn hp hlin hlog
  rw [hP, consult_targetsTrigger, k1] at h1
  simp only [Res.ok.injEq, Prod.mk.injEq] at h1
  obtain ⟨rfl, rfl⟩ := h1
  refine ⟨logs, lins, k2, k3, ?_⟩
  intro i hi
  have hf := fs_eq _ _ _ _ h2
  have e1 : (∃ l ∈ s.dat, l.f = i + 1) ↔ i ∈ Spec.datAt (Spec.vals P (Spec.hist ops).evs) flags' := by
    have : (∃ l ∈ s.dat, l.f = i + 1) ↔ i + 1 ∈ s.dat.map Line.f := by simp
    rw [this, hf]
    simp
  rw [e1]
  unfold Spec.datAt
  rw [List.mem_append]
  have hv : Spec.vals P (Spec.hist ops).evs ≠ [] := by
    have : (Spec.hist ops).evs ≠ [] := by
      intro h'
      rw [h'] at hi
      simp at hi
    simpa [Spec.vals] using this
  rw [if_neg hv, List.mem_singleton]
  apply or_congr Iff.rfl
  have hl : flags'.length = (Spec.improving none (Spec.vals P (Spec.hist ops).evs)).length := by
    rw [k4]; simp [Spec.given]
  unfold Spec.select
  simp only [List.mem_map, List.mem_filter, Prod.exists, exists_and_right, exists_eq_right, exists_eq_right_right]
  rw [List.mem_iff_getElem?]
  apply exists_congr
  intro k
  rw [List.getElem?_zip_eq_some, ← k5 k]

/-- **C41** (last line). When the problem is freed after at least one evaluation, the last line of the dat file
shows the number of evaluations and the best value, at most one line is added, and an added line shows the first
solution with the best value. The info file gets the number of evaluations and the best value. -/
theorem C41_last (P : Params T) (t0 : T) (base : List Nat) (dim : Nat) (ops : List Op) (s : State T)
    (h : run P (init t0 base dim) ops = .ok s) (hne : (Spec.hist ops).evs ≠ []) :
    ∃ s' added l, finish P s = .ok s' ∧ s'.dat = s.dat ++ added ∧ added.length ≤ 1 ∧ s'.dat.getLast? = some l ∧
      l.f = (Spec.hist ops).evs.length ∧ l.best = Spec.best (Spec.vals P (Spec.hist ops).evs) - P.opt ∧
      (∀ l ∈ added, Spec.bestX P (Spec.hist ops).evs = some l.x) ∧
      (∀ a ∈ added, ∀ b ∈ s.dat, b.f < a.f) ∧
      s'.info = s.info ++ [((Spec.hist ops).evs.length, Spec.best (Spec.vals P (Spec.hist ops).evs) - P.opt)] := by
  have iv := inv_run P t0 base dim ops s h
  have hinc := C41_increasing P t0 base dim ops s h
  obtain ⟨flags, t, -, h2⟩ := C41_dat P t0 base dim ops s h
  have hvne : Spec.vals P (Spec.hist ops).evs ≠ [] := by simpa [Spec.vals] using hne
  have hbx : ∃ x, s.bestX = some x := by
    rw [iv.bestX hne]
    unfold Spec.bestX
    obtain ⟨e0, he0, hb⟩ := List.mem_map.1 (best_mem _ hvne)
    cases hf : (Spec.hist ops).evs.find? (fun e' => decide (Spec.val P e' = Spec.best (Spec.vals P (Spec.hist ops).evs))) with
    | some e1 => exact ⟨_, rfl⟩
    | none =>
      rw [List.find?_eq_none] at hf
      exact absurd (decide_eq_true hb) (hf e0 he0)
  obtain ⟨x, hx⟩ := hbx
  have hdne : s.dat ≠ [] := by
    intro h'
    have := hinc.2.2 hne
    rw [h'] at this
    simp at this
  have hfin : ∀ ls : List Line, ls ≠ [] → ∃ added, finalLine P s (ls.getLast?.map Line.f) = .ok added ∧
      added = if s.evals ≠ (ls.getLast?.map Line.f).getD 0 then [outputLine P.ncons P.opt s.evals s.numCons x s.best s.best none]
        else [] := by
    intro ls hls
    obtain ⟨l, hl⟩ : ∃ l, ls.getLast? = some l := ⟨_, List.getLast?_eq_some_getLast hls⟩
    rw [hl]
    unfold finalLine
    simp only [Option.map_some, hx, Option.getD_some]
    split <;> exact ⟨_, rfl, rfl⟩
  obtain ⟨added, a1, a2⟩ := hfin s.dat hdne
  obtain ⟨added2, b1, b2⟩ := hfin s.tdat (iv.tdat_ne hne)
  have hrec : ∃ added3, finalRecLine P s = .ok added3 := by
    unfold finalRecLine
    split
    · rename_i hc
      cases hb : s.bestRecX with
      | none =>
        have hm : s.mdat ≠ [] := by
          intro h'
          have := iv.lastMdat
          rw [h'] at this
          exact hc.2 (by simpa using this)
        exact absurd hb (iv.bestRecX hm)
      | some x => exact ⟨_, rfl⟩
    · exact ⟨_, rfl⟩
  obtain ⟨added3, c1⟩ := hrec
  have hfinish : finish P s = .ok { s with
      info := s.info ++ [(s.evals, s.best - P.opt)]
      dat := s.dat ++ added
      tdat := s.tdat ++ added2
      mdat := s.mdat ++ added3 } := by
    unfold finish
    rw [if_pos (iv.initialized.2 (Or.inl hne)), iv.lastDat, a1, Res.ok_bind, iv.lastTdat, b1, Res.ok_bind, c1, Res.ok_bind]
  obtain ⟨l, hl⟩ : ∃ l, s.dat.getLast? = some l := ⟨_, List.getLast?_eq_some_getLast hdne⟩
  rw [hl] at a2
  simp only [Option.map_some, Option.getD_some] at a2
  refine ⟨{ s with
      info := s.info ++ [(s.evals, s.best - P.opt)]
      dat := s.dat ++ added
      tdat := s.tdat ++ added2
      mdat := s.mdat ++ added3 }, added, ?_⟩
  by_cases hc : s.evals = l.f
  · rw [if_neg (by simpa using hc)] at a2
    subst a2
    refine ⟨l, hfinish, rfl, by simp, by simpa using hl, by rw [← hc, iv.evals], ?_, by simp, by simp, ?_⟩
    · -- the last line is the line of the last evaluation
      have hmem : l ∈ s.dat := List.mem_of_getLast? hl
      have : some l ∈ s.dat.map some := List.mem_map_of_mem hmem
      rw [h2] at this
      obtain ⟨i, hi, hil⟩ := List.mem_map.1 this
      have hlt := datAt_lt _ _ i hi
      simp only [Spec.vals, List.length_map] at hlt
      unfold Spec.line at hil
      rw [List.getElem?_eq_getElem hlt] at hil
      simp only [Option.map_some, Option.some.injEq] at hil
      have hi2 : l.f = i + 1 := by rw [← hil]
      have : (Spec.vals P (Spec.hist ops).evs).take (i + 1) = Spec.vals P (Spec.hist ops).evs := by
        apply List.take_of_length_le
        rw [← hi2, ← hc, iv.evals]
        simp [Spec.vals]
      rw [← hil, this]
    · dsimp only
      rw [iv.evals, iv.best hne]
  · rw [if_pos (by simpa using hc)] at a2
    subst a2
    refine ⟨outputLine P.ncons P.opt s.evals s.numCons x s.best s.best none, hfinish, rfl, by simp, by simp, iv.evals, ?_, ?_, ?_, ?_⟩
    · simp only [outputLine]
      rw [iv.best hne]
    · intro l hl
      rw [List.mem_singleton.1 hl, ← iv.bestX hne, hx]
      rfl
    · intro a ha b hb
      rw [List.mem_singleton.1 ha]
      simp only [outputLine]
      have h1 := (hinc.2.1 b hb).2
      have hle : b.f ≤ l.f := by
        have hp := hinc.1
        rw [List.pairwise_map] at hp
        obtain ⟨pre, hpre⟩ := List.getLast?_eq_some_iff.1 hl
        rw [hpre] at hb hp
        rcases List.mem_append.1 hb with hb | hb
        · rw [List.pairwise_append] at hp
          exact (hp.2.2 b hb l (by simp)).le
        · rw [List.mem_singleton.1 hb]
      have h3 := (hinc.2.1 l (List.mem_of_getLast? hl)).2
      have := iv.evals
      omega
    · dsimp only
      rw [iv.evals, iv.best hne]

/-! ### C41: no call fails -/

/-- Calls on which the logger does not give up: no evaluation after the best parameter was asked for, feasible
solutions are not better than a known optimal value, the evaluation triggers are well formed, and the target
trigger is defined on the values it is given. -/
structure Spec.Legal (P : Params T) (t0 : T) (base : List Nat) (dim : Nat) (ops : List Op) : Prop where
  fair : ∀ pre x y cons post, ops = pre ++ .evaluate x y cons :: post → x.all Dbl.isFinite = true → Op.bestParameter ∉ pre
  sane : ∀ x y cons, Op.evaluate x y cons ∈ ops → P.optKnown = true → feasible cons = true →
    P.opt ≤ loggedValue y + 1 / 10 ^ 13
  saneRec : ∀ x y cons, Op.recommend x y cons ∈ ops → P.optKnown = true → feasible cons = true ∨ P.ncons = 0 →
    P.opt ≤ loggedValue y + 1 / 10 ^ 13
  baseOk : Triggers.Spec.BaseOk base
  dimOk : 1 ≤ dim
  trigger : ∃ r, Spec.consult P.trigger t0 (Spec.given P none (Spec.vals P (Spec.hist ops).evs)) = .ok r
  triggerRec : ∃ r, Spec.consult P.trigger t0 (Spec.given P (some (3 * 10 ^ 21)) (Spec.recVals P (Spec.hist ops).recs)) = .ok r

theorem consult_prefix {S V : Type} (tr : S → V → Res (Bool × S)) (t : S) (vs : List V) (v : V)
    (h : ∃ r, Spec.consult tr t (vs ++ [v]) = .ok r) :
    ∃ fs t', Spec.consult tr t vs = .ok (fs, t') ∧ ∃ r, tr t' v = .ok r := by
  obtain ⟨r, h⟩ := h
  rw [consult_append] at h
  cases e : Spec.consult tr t vs with
  | ok q =>
    obtain ⟨fs, t'⟩ := q
    refine ⟨fs, t', rfl, ?_⟩
    simp only [e, Res.ok_bind] at h
    cases e2 : tr t' v with
    | ok w => exact ⟨w, rfl⟩
    | error => simp [e2, Res.bind] at h
    | assertFail => simp [e2, Res.bind] at h
    | ub => simp [e2, Res.bind] at h
  | error => simp [e, Res.bind] at h
  | assertFail => simp [e, Res.bind] at h
  | ub => simp [e, Res.bind] at h

theorem consult_given_prefix (P : Params T) (t : T) (bound : Option ℚ) (vs : List ℚ) (v : ℚ)
    (h : ∃ r, Spec.consult P.trigger t (Spec.given P bound (vs ++ [v])) = .ok r) :
    ∃ r, Spec.consult P.trigger t (Spec.given P bound vs) = .ok r := by
  rw [given_append] at h
  split at h
  · obtain ⟨fs, t', h1, -⟩ := consult_prefix _ _ _ _ h
    exact ⟨_, h1⟩
  · rwa [List.append_nil] at h

theorem legal_prefix (P : Params T) (t0 : T) (base : List Nat) (dim : Nat) (ops : List Op) (op : Op)
    (h : Spec.Legal P t0 base dim (ops ++ [op])) : Spec.Legal P t0 base dim ops where
  fair pre x y cons post e hf := by
    apply h.fair pre x y cons (post ++ [op]) _ hf
    rw [e]; simp
  sane x y cons hm := h.sane x y cons (List.mem_append_left _ hm)
  saneRec x y cons hm := h.saneRec x y cons (List.mem_append_left _ hm)
  baseOk := h.baseOk
  dimOk := h.dimOk
  trigger := by
    have := h.trigger
    rw [hist_append] at this
    cases op with
    | evaluate x y cons =>
      simp only [Spec.next] at this
      split at this
      · have ha : ∀ e, Spec.vals P ((Spec.hist ops).evs ++ [e]) = Spec.vals P (Spec.hist ops).evs ++ [Spec.val P e] := by
          simp [Spec.vals]
        simp only [ha] at this
        exact consult_given_prefix _ _ _ _ _ this
      · exact this
    | evaluateConstraint x => simp only [Spec.next] at this; split at this <;> exact this
    | recommend x y cons => exact this
    | restart => simp only [Spec.next] at this; split at this <;> exact this
    | bestParameter => exact this
  triggerRec := by
    have := h.triggerRec
    rw [hist_append] at this
    cases op with
    | evaluate x y cons => simp only [Spec.next] at this; split at this <;> exact this
    | evaluateConstraint x => simp only [Spec.next] at this; split at this <;> exact this
    | recommend x y cons =>
      simp only [Spec.next] at this
      have ha : ∀ r, Spec.recVals P ((Spec.hist ops).recs ++ [r]) = Spec.recVals P (Spec.hist ops).recs ++ [value P r.y r.cons] := by
        simp [Spec.recVals]
      simp only [ha] at this
      exact consult_given_prefix _ _ _ _ _ this
    | restart => simp only [Spec.next] at this; split at this <;> exact this
    | bestParameter => exact this

theorem step_tainted (P : Params T) (s s' : State T) (op : Op) (h : step P s op = .ok s') :
    s'.tainted = true ↔ s.tainted = true ∨ op = .bestParameter := by
  cases op with
  | evaluate x y cons =>
    simp only [step, evaluateOp] at h
    split at h
    · obtain ⟨-, up, fire, b, t', e', -, -, -, -, -, -, line, -, rfl⟩ := evaluate_ok P s s' x y cons h
      simp
    · simp only [Res.ok.injEq] at h; rw [← h]; simp
  | evaluateConstraint x =>
    simp only [step, Res.ok.injEq] at h
    rw [← h]; split <;> simp
  | recommend x y cons =>
    obtain ⟨fire, t', -, -, rfl⟩ := recommend_ok P s s' x y cons h
    simp
  | restart =>
    simp only [step, Res.ok.injEq] at h
    rw [← h]; split <;> simp
  | bestParameter =>
    simp only [step, Res.ok.injEq] at h
    rw [← h]; simp

theorem run_tainted (P : Params T) (ops : List Op) : ∀ (s s' : State T), run P s ops = .ok s' →
    (s'.tainted = true ↔ s.tainted = true ∨ Op.bestParameter ∈ ops) := by
  induction ops with
  | nil =>
    intro s s' h
    simp only [run, Res.ok.injEq] at h
    rw [← h]; simp
  | cons op ops ih =>
    intro s s' h
    simp only [run] at h
    cases e : step P s op with
    | ok s1 =>
      rw [e, Res.ok_bind] at h
      rw [ih s1 s' h, step_tainted P s s1 op e, List.mem_cons, or_assoc, eq_comm (a := op)]
    | error => rw [e] at h; simp [Res.bind] at h
    | assertFail => rw [e] at h; simp [Res.bind] at h
    | ub => rw [e] at h; simp [Res.bind] at h

/-- **C41** (no failure). Legal calls succeed. -/
theorem C41_legal_runs (P : Params T) (t0 : T) (base : List Nat) (dim : Nat) (ops : List Op)
    (h : Spec.Legal P t0 base dim ops) : ∃ s, run P (init t0 base dim) ops = .ok s := by
  induction ops using List.reverseRecOn with
  | nil => exact ⟨_, rfl⟩
  | append_singleton ops op ih =>
    obtain ⟨s, hs⟩ := ih (legal_prefix P t0 base dim ops op h)
    have iv := inv_run P t0 base dim ops s hs
    rw [run_append, hs, Res.ok_bind]
    suffices hst : ∃ s', step P s op = .ok s' by
      obtain ⟨s', hs'⟩ := hst
      exact ⟨s', by simp only [run, hs', Res.ok_bind]⟩
    cases op with
    | evaluate x y cons =>
      simp only [step, evaluateOp]
      split
      · rename_i hf
        have ht : s.tainted = false := by
          have h1 := run_tainted P ops _ _ hs
          have h2 := h.fair ops x y cons [] rfl hf
          cases e : s.tainted with
          | false => rfl
          | true =>
            rcases h1.1 e with h3 | h3
            · simp [init] at h3
            · exact absurd h3 h2
        unfold evaluate
        rw [if_neg (by simp [ht])]
        have ha : Res.assert (decide (P.optKnown = true ∧ feasible cons = true → loggedValue y + 1 / 10 ^ 13 ≥ P.opt)) = .ok () := by
          unfold Res.assert
          rw [if_pos]
          rw [decide_eq_true_eq]
          rintro ⟨h1, h2⟩
          exact h.sane x y cons (by simp) h1 h2
        rw [ha, Res.ok_bind]
        dsimp only
        have hu : ∃ s2, updateBest P { s with initialized := true, evals := s.evals + 1, numCons := s.consEvals } x y cons = .ok s2 ∧
            s2.evals = s.evals + 1 ∧ s2.numCons = s.consEvals ∧ s2.evaluations = s.evaluations := by
          unfold updateBest
          dsimp only
          by_cases h1 : s.evals + 1 = 1
          · rw [if_pos h1]; exact ⟨_, rfl, rfl, rfl, rfl⟩
          · rw [if_neg h1]
            by_cases h2 : value P y cons < s.best
            · rw [if_pos h2]
              have hne : (Spec.hist ops).evs ≠ [] := by
                intro h'
                apply h1
                rw [iv.evals, h']; rfl
              have htr : ∃ r, P.trigger s.targets (value P y cons - P.opt) = .ok r := by
                obtain ⟨flags, f1, -⟩ := iv.dat
                have h3 := h.trigger
                rw [hist_append] at h3
                simp only [Spec.next, hf, if_true] at h3
                have hap : Spec.vals P ((Spec.hist ops).evs ++ [⟨x, y, cons, (Spec.hist ops).g, (Spec.hist ops).restart⟩]) =
                    Spec.vals P (Spec.hist ops).evs ++ [value P y cons] := by
                  simp [Spec.vals, Spec.val]
                have hb : Spec.Below none (Spec.vals P (Spec.hist ops).evs ++ [value P y cons])
                    (Spec.vals P (Spec.hist ops).evs).length := by
                  rw [below_last]
                  have hv : Spec.vals P (Spec.hist ops).evs ≠ [] := by simpa [Spec.vals] using hne
                  refine ⟨hv, ?_⟩
                  rw [← lt_best_iff _ hv, ← iv.best hne]
                  exact h2
                rw [hap, given_append, if_pos hb] at h3
                obtain ⟨fs, t', h4, h5⟩ := consult_prefix _ _ _ _ h3
                rw [f1] at h4
                simp only [Res.ok.injEq, Prod.mk.injEq] at h4
                rw [h4.2]; exact h5
              obtain ⟨⟨fire, t⟩, hr⟩ := htr
              rw [hr, Res.ok_bind]
              dsimp only
              split <;> exact ⟨_, rfl, rfl, rfl, rfl⟩
            · rw [if_neg h2]; exact ⟨_, rfl, rfl, rfl, rfl⟩
        obtain ⟨s2, e2, e3, e4, e5⟩ := hu
        rw [e2, Res.ok_bind]
        have hev : ∃ r, Triggers.evalTrigger s2.evaluations (s2.evals + s2.numCons) = .ok r := by
          obtain ⟨flags, f1, -⟩ := iv.tdat
          obtain ⟨e', he'⟩ := Triggers.C27_any_numbers base dim h.baseOk h.dimOk
            ((Spec.hist ops).evs.mapIdx (fun i e => i + 1 + e.g) ++ [s2.evals + s2.numCons])
          rw [← consult_evalTrigger] at f1 he'
          obtain ⟨fs, t', h4, h5⟩ := consult_prefix _ _ _ _ ⟨_, he'⟩
          rw [f1] at h4
          simp only [Res.ok.injEq, Prod.mk.injEq] at h4
          rw [e5, h4.2]; exact h5
        obtain ⟨⟨b, e'⟩, he'⟩ := hev
        rw [he', Res.ok_bind]
        exact ⟨_, rfl⟩
      · exact ⟨_, rfl⟩
    | evaluateConstraint x => exact ⟨_, rfl⟩
    | recommend x y cons =>
      simp only [step]
      unfold recommend
      have ha : Res.assert (decide (P.optKnown = true ∧ (feasible cons && x.all Dbl.isFinite || decide (P.ncons = 0)) = true →
          loggedValue y + 1 / 10 ^ 13 ≥ P.opt)) = .ok () := by
        unfold Res.assert
        rw [if_pos]
        rw [decide_eq_true_eq]
        rintro ⟨h1, h2⟩
        apply h.saneRec x y cons (by simp) h1
        simp only [Bool.or_eq_true, Bool.and_eq_true, decide_eq_true_eq] at h2
        exact h2.imp (fun h => h.1) id
      dsimp only
      rw [ha, Res.ok_bind]
      by_cases h2 : value P y cons < s.bestRec
      · rw [if_pos h2]
        have htr : ∃ r, P.trigger s.mTargets (value P y cons - P.opt) = .ok r := by
          obtain ⟨flags, f1, -⟩ := iv.mdat
          have h3 := h.triggerRec
          rw [hist_append] at h3
          simp only [Spec.next] at h3
          have hap : ∀ r : Spec.Rec, Spec.recVals P ((Spec.hist ops).recs ++ [r]) =
              Spec.recVals P (Spec.hist ops).recs ++ [value P r.y r.cons] := by
            simp [Spec.recVals]
          have hb : Spec.Below (some (3 * 10 ^ 21)) (Spec.recVals P (Spec.hist ops).recs ++ [value P y cons])
              (Spec.recVals P (Spec.hist ops).recs).length := by
            rw [below_last]
            exact (iv.bestRec _).1 h2
          rw [hap] at h3
          dsimp only at h3
          rw [given_append, if_pos hb] at h3
          obtain ⟨fs, t', h4, h5⟩ := consult_prefix _ _ _ _ h3
          rw [f1] at h4
          simp only [Res.ok.injEq, Prod.mk.injEq] at h4
          rw [h4.2]; exact h5
        obtain ⟨⟨fire, t⟩, hr⟩ := htr
        rw [hr, Res.ok_bind]
        dsimp only
        split <;> exact ⟨_, rfl⟩
      · rw [if_neg h2]; exact ⟨_, rfl⟩
    | restart => exact ⟨_, rfl⟩
    | bestParameter => exact ⟨_, rfl⟩

/-! ### C42 -/

/-- **C42.** After the best parameter was asked for, the evaluation of a finite solution is an error. -/
theorem C42_tainted (P : Params T) (t0 : T) (base : List Nat) (dim : Nat) (ops : List Op) (s : State T)
    (h : run P (init t0 base dim) ops = .ok s) (ht : Op.bestParameter ∈ ops) (x : List Dbl) (y : Dbl) (cons : List Dbl)
    (hx : x.all Dbl.isFinite = true) : run P (init t0 base dim) (ops ++ [.evaluate x y cons]) = .error := by
  rw [run_append, h, Res.ok_bind]
  simp only [run, step, evaluateOp, hx, if_true]
  have := (run_tainted P ops _ _ h).2 (Or.inr ht)
  unfold evaluate
  rw [if_pos this]
  rfl

/-- **C42.** Without such a call no sequence of calls ends in an error. -/
theorem C42_fair (P : Params T) (t0 : T) (base : List Nat) (dim : Nat) (ops : List Op)
    (htr : ∀ t v, P.trigger t v ≠ .error) (hops : Op.bestParameter ∉ ops) :
    run P (init t0 base dim) ops ≠ .error := by
  have hev : ∀ e n, Triggers.evalTrigger e n ≠ .error := by
    intro e n h
    unfold Triggers.evalTrigger Triggers.triggerSecond at h
    dsimp only at h
    split at h
    · split at h <;> simp [Res.bind] at h
    · simp [Res.bind] at h
  have key : ∀ (ops : List Op) (s : State T), Op.bestParameter ∉ ops → s.tainted = false → run P s ops ≠ .error := by
    intro ops
    induction ops with
    | nil => intro s _ _ h; simp [run] at h
    | cons op ops ih =>
      intro s hn ht h
      simp only [run] at h
      cases e : step P s op with
      | ok s1 =>
        rw [e, Res.ok_bind] at h
        refine ih s1 (fun h' => hn (List.mem_cons_of_mem _ h')) ?_ h
        have := step_tainted P s s1 op e
        cases hs1 : s1.tainted with
        | false => rfl
        | true =>
          rcases this.1 hs1 with h' | h'
          · rw [ht] at h'; simp at h'
          · exact absurd (by simp [h']) hn
      | error =>
        cases op with
        | evaluate x y cons =>
          simp only [step, evaluateOp] at e
          split at e
          · unfold evaluate at e
            rw [if_neg (by simp [ht])] at e
            unfold Res.assert at e
            split at e
            · rw [Res.ok_bind] at e
              dsimp only at e
              cases e2 : updateBest P { s with initialized := true, evals := s.evals + 1, numCons := s.consEvals } x y cons with
              | ok s2 =>
                rw [e2, Res.ok_bind] at e
                cases e3 : Triggers.evalTrigger s2.evaluations (s2.evals + s2.numCons) with
                | ok r => rw [e3] at e; simp [Res.bind] at e
                | error => exact hev _ _ e3
                | assertFail => rw [e3] at e; simp [Res.bind] at e
                | ub => rw [e3] at e; simp [Res.bind] at e
              | error =>
                unfold updateBest at e2
                dsimp only at e2
                split at e2
                · simp at e2
                · split at e2
                  · cases e4 : P.trigger s.targets (value P y cons - P.opt) with
                    | ok r =>
                      rw [e4, Res.ok_bind] at e2
                      split at e2 <;> simp at e2
                    | error => exact htr _ _ e4
                    | assertFail => rw [e4] at e2; simp [Res.bind] at e2
                    | ub => rw [e4] at e2; simp [Res.bind] at e2
                  · simp at e2
              | assertFail => rw [e2] at e; simp [Res.bind] at e
              | ub => rw [e2] at e; simp [Res.bind] at e
            · simp [Res.bind] at e
          · simp at e
        | evaluateConstraint x => simp [step] at e
        | recommend x y cons =>
          simp only [step] at e
          unfold recommend at e
          unfold Res.assert at e
          dsimp only at e
          split at e
          · rw [Res.ok_bind] at e
            split at e
            · cases e4 : P.trigger s.mTargets (value P y cons - P.opt) with
              | ok r =>
                rw [e4, Res.ok_bind] at e
                split at e <;> simp at e
              | error => exact htr _ _ e4
              | assertFail => rw [e4] at e; simp [Res.bind] at e
              | ub => rw [e4] at e; simp [Res.bind] at e
            · simp at e
          · simp [Res.bind] at e
        | restart => simp [step] at e
        | bestParameter => simp [step] at e
      | assertFail => rw [e] at h; simp [Res.bind] at h
      | ub => rw [e] at h; simp [Res.bind] at h
  exact key ops _ hops rfl

/-- The target trigger of the observer is never an error, as `C42_fair` asks for. -/
theorem targetsTrigger_ne_error (t : Triggers.Targets) (v : ℚ) : Triggers.targetsTrigger t v ≠ .error := by
  have hcast : ∀ z, Triggers.castInt z ≠ .error := by
    intro z h
    unfold Triggers.castInt at h
    split at h <;> simp at h
  have hb : ∀ {α β : Type} (r : Res α) (f : α → Res β), r ≠ .error → (∀ a, f a ≠ .error) → r.bind f ≠ .error := by
    intro α β r f h1 h2
    cases r with
    | ok a => exact h2 a
    | error => exact absurd rfl h1
    | assertFail => simp [Res.bind]
    | ub => simp [Res.bind]
  have hlin : ∀ m, Triggers.linTrigger m v ≠ .error := by
    intro m
    unfold Triggers.linTrigger
    refine hb _ _ ?_ fun a => by split <;> simp
    unfold Utils.roundUpWithPrecision
    refine hb _ _ (by unfold Res.assert; split <;> simp) fun a => ?_
    dsimp only
    split
    · simp
    · split <;> simp
  have hlog : ∀ l w, Triggers.logTrigger l w ≠ .error := by
    intro l w
    unfold Triggers.logTrigger
    dsimp only
    split
    · refine hb _ _ (hcast _) fun a => ?_
      split <;> simp
    · refine hb _ _ (hcast _) fun a => hb _ _ (hcast _) fun a => hb _ _ (hcast _) fun a => hb _ _ (hcast _) fun a =>
        hb _ _ (hcast _) fun a => ?_
      split <;> simp
  unfold Triggers.targetsTrigger
  split
  · exact hb _ _ (hlin _) fun a => by simp
  · exact hb _ _ (hlog _ _) fun a => hb _ _ (hlin _) fun a => by simp

/-! ### C77: tdat and rdat files -/

/-- **C77** (tdat file). The lines of the tdat file are those of the evaluations for which the evaluation trigger,
consulted with the number of function and constraint evaluations, fires. The trigger works through two increasing
sequences of numbers, one element per call at most (`Triggers.Spec.queue`). -/
theorem C77_tdat (P : Params T) (t0 : T) (base : List Nat) (dim : Nat) (hb : Triggers.Spec.BaseOk base) (hd : 1 ≤ dim)
    (ops : List Op) (s : State T) (h : run P (init t0 base dim) ops = .ok s) :
    let ns := (Spec.hist ops).evs.mapIdx fun i e => i + 1 + e.g
    s.tdat.map some = (Spec.select (List.range (Spec.hist ops).evs.length)
      (List.zipWith (· || ·) (Triggers.Spec.queue Triggers.Spec.firstGrid 0 ns)
        (Triggers.Spec.queue (Triggers.Spec.secondGrid base dim) 0 ns))).map (Spec.line P (Spec.hist ops).evs) := by
  intro ns
  obtain ⟨flags, f1, f2⟩ := (inv_run P t0 base dim ops s h).tdat
  obtain ⟨s', hs'⟩ := Triggers.C27_any_numbers base dim hb hd ns
  rw [hs'] at f1
  simp only [Res.ok.injEq, Prod.mk.injEq] at f1
  rw [f1.1]; exact f2

theorem hist_no_cons (ops : List Op) (hops : ∀ x, Op.evaluateConstraint x ∈ ops → x.all Dbl.isFinite = false) :
    (Spec.hist ops).g = 0 ∧ ∀ e ∈ (Spec.hist ops).evs, e.g = 0 := by
  induction ops using List.reverseRecOn with
  | nil => simp [Spec.hist]
  | append_singleton ops op ih =>
    obtain ⟨h1, h2⟩ := ih (fun x hx => hops x (List.mem_append_left _ hx))
    rw [hist_append]
    cases op with
    | evaluate x y cons =>
      simp only [Spec.next]
      split
      · refine ⟨h1, ?_⟩
        intro e he
        rcases List.mem_append.1 he with he | he
        · exact h2 e he
        · rw [List.mem_singleton.1 he]; exact h1
      · exact ⟨h1, h2⟩
    | evaluateConstraint x =>
      simp only [Spec.next]
      rw [if_neg (by simp [hops x (by simp)])]
      exact ⟨h1, h2⟩
    | recommend x y cons => exact ⟨h1, h2⟩
    | restart => simp only [Spec.next]; split <;> exact ⟨h1, h2⟩
    | bestParameter => exact ⟨h1, h2⟩

/-- **C77** (tdat file without constraint evaluations). The tdat file has the lines of exactly the evaluations
with a number of the form ⌊10^(k/20)⌋ or b·dim·10^j with b one of the base evaluations. -/
theorem C77_tdat_unconstrained (P : Params T) (t0 : T) (base : List Nat) (dim : Nat) (hb : Triggers.Spec.BaseOk base)
    (hd : 1 ≤ dim) (ops : List Op) (s : State T) (h : run P (init t0 base dim) ops = .ok s)
    (hops : ∀ x, Op.evaluateConstraint x ∈ ops → x.all Dbl.isFinite = false) (i : Nat) (hi : i < (Spec.hist ops).evs.length) :
    (∃ l ∈ s.tdat, l.f = i + 1) ↔ Triggers.Spec.firstGrid (i + 1) ∨ Triggers.Spec.secondGrid base dim (i + 1) := by
  obtain ⟨flags, f1, f2⟩ := (inv_run P t0 base dim ops s h).tdat
  have hg := (hist_no_cons ops hops).2
  have e : ((Spec.hist ops).evs.mapIdx fun i e => i + 1 + e.g) = List.range' 1 (Spec.hist ops).evs.length := by
    apply List.ext_getElem
    · simp
    · intro j h1 h2
      simp only [List.getElem_mapIdx, List.getElem_range']
      have := hg ((Spec.hist ops).evs[j]'(by simpa using h1)) (List.getElem_mem _)
      omega
  obtain ⟨flags', s', g1, g2, g3⟩ := Triggers.C27_unit_steps base dim hb hd (Spec.hist ops).evs.length
  rw [e, g1] at f1
  simp only [Res.ok.injEq, Prod.mk.injEq] at f1
  obtain ⟨rfl, -⟩ := f1
  have hf := fs_eq _ _ _ _ f2
  have e1 : (∃ l ∈ s.tdat, l.f = i + 1) ↔ i ∈ Spec.select (List.range (Spec.hist ops).evs.length) flags' := by
    have : (∃ l ∈ s.tdat, l.f = i + 1) ↔ i + 1 ∈ s.tdat.map Line.f := by simp
    rw [this, hf]
    simp
  rw [e1, ← g3 i hi]
  unfold Spec.select
  simp only [List.mem_map, List.mem_filter, Prod.exists, exists_and_right, exists_eq_right, exists_eq_right_right]
  rw [List.mem_iff_getElem?]
  constructor
  · rintro ⟨k, hk⟩
    rw [List.getElem?_zip_eq_some] at hk
    have h1 := hk.1
    rw [List.getElem?_eq_some_iff] at h1
    obtain ⟨h2, h3⟩ := h1
    simp only [List.getElem_range] at h3
    rw [← h3]; exact hk.2
  · intro hk
    refine ⟨i, ?_⟩
    rw [List.getElem?_zip_eq_some]
    exact ⟨by simp [hi], hk⟩

/-- **C77** (last line). When the problem is freed after at least one evaluation, the last line of the tdat file
shows the number of evaluations and the best value. -/
theorem C77_last (P : Params T) (t0 : T) (base : List Nat) (dim : Nat) (ops : List Op) (s s' : State T)
    (h : run P (init t0 base dim) ops = .ok s) (hne : (Spec.hist ops).evs ≠ []) (hf : finish P s = .ok s') :
    ∃ l, s'.tdat.getLast? = some l ∧ l.f = (Spec.hist ops).evs.length ∧
      l.best = Spec.best (Spec.vals P (Spec.hist ops).evs) - P.opt := by
  have iv := inv_run P t0 base dim ops s h
  unfold finish at hf
  rw [if_pos (iv.initialized.2 (Or.inl hne))] at hf
  cases e1 : finalLine P s s.lastDat with
  | ok l1 =>
    rw [e1, Res.ok_bind] at hf
    cases e2 : finalLine P s s.lastTdat with
    | ok l2 =>
      rw [e2, Res.ok_bind] at hf
      cases e3 : finalRecLine P s with
      | ok l3 =>
        rw [e3, Res.ok_bind] at hf
        simp only [Res.ok.injEq] at hf
        rw [← hf]
        dsimp only
        obtain ⟨l, hl⟩ : ∃ l, s.tdat.getLast? = some l := ⟨_, List.getLast?_eq_some_getLast (iv.tdat_ne hne)⟩
        rw [iv.lastTdat, hl] at e2
        unfold finalLine at e2
        simp only [Option.map_some] at e2
        by_cases hc : s.evals = l.f
        · rw [if_neg (by simpa using hc)] at e2
          simp only [Res.ok.injEq] at e2
          subst e2
          refine ⟨l, by simpa using hl, by rw [← hc, iv.evals], ?_⟩
          obtain ⟨flags, f1, f2⟩ := iv.tdat
          have hmem : l ∈ s.tdat := List.mem_of_getLast? hl
          have : some l ∈ s.tdat.map some := List.mem_map_of_mem hmem
          rw [f2] at this
          obtain ⟨i, hi, hil⟩ := List.mem_map.1 this
          have hlt := List.mem_range.1 (select_mem _ _ i hi)
          unfold Spec.line at hil
          rw [List.getElem?_eq_getElem hlt] at hil
          simp only [Option.map_some, Option.some.injEq] at hil
          have hi2 : l.f = i + 1 := by rw [← hil]
          have : (Spec.vals P (Spec.hist ops).evs).take (i + 1) = Spec.vals P (Spec.hist ops).evs := by
            apply List.take_of_length_le
            rw [← hi2, ← hc, iv.evals]
            simp [Spec.vals]
          rw [← hil, this]
        · rw [if_pos (by simpa using hc)] at e2
          split at e2
          · simp at e2
          · simp only [Res.ok.injEq] at e2
            rw [← e2]
            rename_i x _
            exact ⟨outputLine P.ncons P.opt s.evals s.numCons x s.best s.best none, by simp, iv.evals,
              by simp only [outputLine]; rw [iv.best hne]⟩
      | error => rw [e3] at hf; simp [Res.bind] at hf
      | assertFail => rw [e3] at hf; simp [Res.bind] at hf
      | ub => rw [e3] at hf; simp [Res.bind] at hf
    | error => rw [e2] at hf; simp [Res.bind] at hf
    | assertFail => rw [e2] at hf; simp [Res.bind] at hf
    | ub => rw [e2] at hf; simp [Res.bind] at hf
  | error => rw [e1] at hf; simp [Res.bind] at hf
  | assertFail => rw [e1] at hf; simp [Res.bind] at hf
  | ub => rw [e1] at hf; simp [Res.bind] at hf

/-- **C77** (rdat file). The lines of the rdat file are those of the first evaluation after each restart that
was signalled after an evaluation. -/
theorem C77_rdat (P : Params T) (t0 : T) (base : List Nat) (dim : Nat) (ops : List Op) (s : State T)
    (h : run P (init t0 base dim) ops = .ok s) :
    s.rdat.map some = ((List.range (Spec.hist ops).evs.length).filter fun i =>
      ((Spec.hist ops).evs[i]?.map Spec.Ev.restarted).getD false).map (Spec.line P (Spec.hist ops).evs) :=
  (inv_run P t0 base dim ops s h).rdat

/-! ### C78: the mdat file -/

/-- **C78** (mdat file). The lines of the mdat file are those of the recommendations that improve on all earlier
ones (and on 3e21) and for which the target trigger fires; recommendations do not change the other files. -/
theorem C78_mdat (P : Params T) (t0 : T) (base : List Nat) (dim : Nat) (ops : List Op) (s : State T)
    (h : run P (init t0 base dim) ops = .ok s) :
    ∃ flags t, Spec.consult P.trigger t0 (Spec.given P (some (3 * 10 ^ 21)) (Spec.recVals P (Spec.hist ops).recs)) =
        .ok (flags, t) ∧
      s.mdat.map some = (Spec.select (Spec.improving (some (3 * 10 ^ 21)) (Spec.recVals P (Spec.hist ops).recs)) flags).map
        (Spec.recLine P (Spec.hist ops).recs) := by
  obtain ⟨flags, h1, h2⟩ := (inv_run P t0 base dim ops s h).mdat
  exact ⟨flags, _, h1, h2⟩

/-- **C78** (other files). A recommendation leaves the dat, tdat and rdat files and the number of evaluations
as they are. -/
theorem C78_other_files (P : Params T) (s s' : State T) (x : List Dbl) (y : Dbl) (cons : List Dbl)
    (h : step P s (.recommend x y cons) = .ok s') :
    s'.dat = s.dat ∧ s'.tdat = s.tdat ∧ s'.rdat = s.rdat ∧ s'.evals = s.evals ∧ s'.best = s.best := by
  obtain ⟨fire, t', -, -, rfl⟩ := recommend_ok P s s' x y cons h
  exact ⟨rfl, rfl, rfl, rfl, rfl⟩

/-- **C78** (refutation). Freeing a problem on which recommendations but no evaluations were made reads
indeterminate values. -/
theorem C78_only_recommendations (P : Params T) (t0 : T) (base : List Nat) (dim : Nat) (ops : List Op) (s : State T)
    (h : run P (init t0 base dim) ops = .ok s) (he : (Spec.hist ops).evs = []) (hr : (Spec.hist ops).recs ≠ []) :
    finish P s = .ub := by
  have iv := inv_run P t0 base dim ops s h
  have hd : s.dat = [] := by
    obtain ⟨flags, -, f2⟩ := iv.dat
    rw [he] at f2
    have : Spec.datAt (Spec.vals P []) flags = [] := rfl
    rw [this] at f2
    simpa using f2
  unfold finish
  rw [if_pos (iv.initialized.2 (Or.inr hr)), iv.lastDat, hd]
  rfl

/-! ### C79: digits of constraint values -/

/-- **C79.** The digit of a constraint value: 0 if it is not positive, 9 if it is larger than 1, and else the digit
`k` with 10^(k-9) < c ≤ 10^(k-8) (for `k = 1` the lower bound is 0). -/
theorem C79_digit (q : ℚ) :
    (q ≤ 0 → digit (.fin q) = 0) ∧ (1 < q → digit (.fin q) = 9) ∧ (0 < q → q ≤ 1 / 10 ^ 7 → digit (.fin q) = 1) ∧
    ∀ k, 2 ≤ k → k ≤ 8 → 1 / 10 ^ (9 - k) < q → q ≤ 1 / 10 ^ (8 - k) → digit (.fin q) = k := by
  have hd : digit (.fin q) = if q ≤ 0 then 0 else if q ≤ 1 / 10000000 then 1 else if q ≤ 1 / 1000000 then 2
      else if q ≤ 1 / 100000 then 3 else if q ≤ 1 / 10000 then 4 else if q ≤ 1 / 1000 then 5
      else if q ≤ 1 / 100 then 6 else if q ≤ 1 / 10 then 7 else if q ≤ 1 then 8 else 9 := by
    have c7 : (1 : ℚ) / 10 ^ 7 = 1 / 10000000 := by norm_num
    have c6 : (1 : ℚ) / 10 ^ 6 = 1 / 1000000 := by norm_num
    have c5 : (1 : ℚ) / 10 ^ 5 = 1 / 100000 := by norm_num
    have c4 : (1 : ℚ) / 10 ^ 4 = 1 / 10000 := by norm_num
    have c3 : (1 : ℚ) / 10 ^ 3 = 1 / 1000 := by norm_num
    have c2 : (1 : ℚ) / 10 ^ 2 = 1 / 100 := by norm_num
    rw [← c7, ← c6, ← c5, ← c4, ← c3, ← c2]
    simp only [digit, digitFrom, Dbl.le, decide_eq_true_eq]
  refine ⟨?_, ?_, ?_, ?_⟩
  · intro h
    rw [hd, if_pos h]
  · intro h
    rw [hd]
    iterate 9 rw [if_neg (by linarith)]
  · intro h1 h2
    norm_num at h2
    rw [hd, if_neg (by linarith), if_pos (by linarith)]
  · intro k k2 k8 h1 h2
    have hk : k = 2 ∨ k = 3 ∨ k = 4 ∨ k = 5 ∨ k = 6 ∨ k = 7 ∨ k = 8 := by omega
    rw [hd]
    rcases hk with rfl | rfl | rfl | rfl | rfl | rfl | rfl <;> norm_num at h1 h2
    · iterate 2 rw [if_neg (by linarith)]
      rw [if_pos (by linarith)]
    · iterate 3 rw [if_neg (by linarith)]
      rw [if_pos (by linarith)]
    · iterate 4 rw [if_neg (by linarith)]
      rw [if_pos (by linarith)]
    · iterate 5 rw [if_neg (by linarith)]
      rw [if_pos (by linarith)]
    · iterate 6 rw [if_neg (by linarith)]
      rw [if_pos (by linarith)]
    · iterate 7 rw [if_neg (by linarith)]
      rw [if_pos (by linarith)]
    · iterate 8 rw [if_neg (by linarith)]
      rw [if_pos (by linarith)]

/-- **C79.** Values that are not numbers or positively infinite are shown as 9, negatively infinite ones as 0. -/
theorem C79_special : digit .nan = 9 ∧ digit .pinf = 9 ∧ digit .ninf = 0 := by decide +kernel

/-! ### Examples -/

/-- A trigger that fires at every value. -/
def exampleParams : Params Unit := ⟨0, true, 0, fun _ _ => .ok (true, ())⟩

/-- Evaluations, a restart and a recommendation. -/
def exampleOps : List Op :=
  [.evaluate [.fin 1] (.fin 5) [], .restart, .evaluate [.fin 2] (.fin 7) [], .recommend [.fin 2] (.fin 7) [],
    .evaluate [.nan] (.fin 1) [], .evaluate [.fin 3] (.fin 4) []]

example : Spec.Legal exampleParams () [1, 2, 5] 2 exampleOps where
  fair := by
    intro pre x y cons post h _ hm
    have : Op.bestParameter ∈ exampleOps := by rw [h]; exact List.mem_append_left _ hm
    simp [exampleOps] at this
  sane := by
    intro x y cons h _ _
    simp only [exampleOps, List.mem_cons, reduceCtorEq, Op.evaluate.injEq, false_or, List.not_mem_nil, or_false] at h
    rcases h with ⟨-, rfl, -⟩ | ⟨-, rfl, -⟩ | ⟨-, rfl, -⟩ | ⟨-, rfl, -⟩ <;> decide +kernel
  saneRec := by
    intro x y cons h _ _
    simp only [exampleOps, List.mem_cons, reduceCtorEq, Op.recommend.injEq, false_or, List.not_mem_nil, or_false] at h
    obtain ⟨-, rfl, -⟩ := h
    decide +kernel
  baseOk := ⟨by decide, by decide, by decide, by decide⟩
  dimOk := by decide
  trigger := by
    have : Spec.given exampleParams none (Spec.vals exampleParams (Spec.hist exampleOps).evs) = [4] := by decide +kernel
    rw [this]; exact ⟨_, rfl⟩
  triggerRec := by
    have : Spec.given exampleParams (some (3 * 10 ^ 21)) (Spec.recVals exampleParams (Spec.hist exampleOps).recs) = [7] := by
      decide +kernel
    rw [this]; exact ⟨_, rfl⟩

/-- The evaluations in this history: the second one follows a restart, the one that is not finite is left out. -/
example : (Spec.hist exampleOps).evs.map (fun e => (e.x, e.restarted)) =
    [([.fin 1], false), ([.fin 2], true), ([.fin 3], false)] ∧
    Spec.improving none (Spec.vals exampleParams (Spec.hist exampleOps).evs) = [2] := by decide +kernel

end LoggerBbob
