import Verif.Lemmas.Problem

/-!
Properties C17-C20 and C22-C24: evaluation of problems (`/repo/src/coco_problem.c`).
-/

namespace Problem

/-! ### Specification -/

/-- All coordinates are finite. -/
def Spec.finite (x : List Dbl) : Bool := x.all Dbl.isFinite

/-- What is returned at a point with infinite or NaN coordinates, else `v`. -/
def Spec.guarded (n : Nat) (x v : List Dbl) : List Dbl :=
  if x.any Dbl.isInf then List.replicate n .pinf else if x.any Dbl.isNan then List.replicate n .nan else v

/-- The constraint values of a problem: those of the basic problem, transformed, or those of the first
stacked problem followed by those of the second. -/
def Spec.constraints : Prob → List Dbl → List Dbl
  | .base _ _ none, _ => []
  | .base _ _ (some g), x => g x
  | .wrap _ _ _ txc tc q, x => tc x (Spec.guarded q.info.ncons (txc x) (Spec.constraints q (txc x)))
  | .stacked _ p1 p2, x =>
    (if p1.info.ncons > 0 then Spec.guarded p1.info.ncons x (Spec.constraints p1 x) else []) ++
    (if p2.info.ncons > 0 then Spec.guarded p2.info.ncons x (Spec.constraints p2 x) else [])

/-- Finite and no constraint value is positive. -/
def Spec.feasible (p : Prob) (x : List Dbl) : Bool :=
  Spec.finite x && (decide (p.info.ncons = 0) || (Spec.constraints p x).all fun v => !Dbl.lt (.fin 0) v)

/-- The tree of problems is consistent: vectors have the announced lengths. -/
def Spec.WellFormed : Prob → Prop
  | .base i f c => (∀ n x, (f n x).length = i.nobj) ∧ (c = none → i.ncons = 0) ∧
      ∀ g, c = some g → ∀ x, (g x).length = i.ncons
  | .wrap i _ ty _ tc q => Spec.WellFormed q ∧ i.nobj = q.info.nobj ∧ i.ncons = q.info.ncons ∧
      (∀ x y, (ty x y).length = i.nobj) ∧ ∀ x y, (tc x y).length = i.ncons
  | .stacked i p1 p2 => Spec.WellFormed p1 ∧ Spec.WellFormed p2 ∧ i.nobj = p1.info.nobj + p2.info.nobj ∧
      i.ncons = p1.info.ncons + p2.info.ncons ∧ (i.ncons > 0 → i.bestValue ≠ none)

theorem finite_split (x : List Dbl) :
    (x.any Dbl.isInf = false ∧ x.any Dbl.isNan = false) ↔ Spec.finite x = true := by
  simp only [Spec.finite, List.any_eq_false, List.all_eq_true, Bool.not_eq_true]
  constructor
  · intro ⟨h1, h2⟩ a ha
    rw [Dbl.isFinite_iff]; exact ⟨h2 a ha, h1 a ha⟩
  · intro h
    exact ⟨fun a ha => ((Dbl.isFinite_iff a).1 (h a ha)).2, fun a ha => ((Dbl.isFinite_iff a).1 (h a ha)).1⟩

theorem constraints_skel (p : Prob) (x : List Dbl) : Spec.constraints (skel p) x = Spec.constraints p x := by
  induction p generalizing x with
  | base i f c => cases c <;> rfl
  | wrap i tx ty txc tc q ih => simp [skel, Spec.constraints, ih, reset]
  | stacked i p1 p2 ih1 ih2 => simp [skel, Spec.constraints, ih1, ih2, reset]

theorem feasible_of_skel {p q : Prob} (h : skel p = skel q) (x : List Dbl) :
    Spec.feasible p x = Spec.feasible q x := by
  unfold Spec.feasible
  rw [ncons_of_skel h, ← constraints_skel p, ← constraints_skel q, h]

theorem guardCons_value {p p' : Prob} {x y : List Dbl} {u : Bool} {raw : Res (Prob × List Dbl)} {v : List Dbl}
    (hraw : ∀ q z, raw = .ok (q, z) → z = v) (h : guardCons p x u raw = .ok (p', y)) :
    y = Spec.guarded p.info.ncons x v := by
  unfold Spec.guarded
  obtain ⟨_, ⟨h1, _, rfl⟩ | ⟨h1, h2, _, rfl⟩ | ⟨h1, h2, r, hr, _⟩⟩ := guardCons_ok h
  · simp [h1]
  · simp [h1, h2]
  · simp only [h1, h2, Bool.false_eq_true, if_false]; exact hraw _ _ hr

theorem rawCons_value (p : Prob) : ∀ x u p' y, rawCons p x u = .ok (p', y) → y = Spec.constraints p x := by
  induction p with
  | base i f c =>
    intro x u p' y h
    cases c with
    | none => simp [rawCons] at h
    | some g => simp [rawCons] at h; exact h.2.symm
  | wrap i tx ty txc tc q ih =>
    intro x u p' y h
    unfold rawCons at h
    obtain ⟨⟨q', z⟩, e1, e2⟩ := bind_eq_ok h
    simp at e2
    rw [← e2.2, guardCons_value (fun r z hr => ih _ _ _ _ hr) e1]
    rfl
  | stacked i p1 p2 ih1 ih2 =>
    intro x u p' y h
    unfold rawCons at h
    obtain ⟨_, _, h⟩ := bind_eq_ok h
    obtain ⟨⟨a, ya⟩, ea, h⟩ := bind_eq_ok h
    obtain ⟨⟨b, yb⟩, eb, h⟩ := bind_eq_ok h
    simp at h
    rw [← h.2]
    have ha : ya = if p1.info.ncons > 0 then Spec.guarded p1.info.ncons x (Spec.constraints p1 x) else [] := by
      split at ea
      · rename_i hc
        simp only [hc, if_true]
        exact guardCons_value (fun r z hr => ih1 _ _ _ _ hr) ea
      · rename_i hc
        simp only [hc, if_false]; simp at ea; exact ea.2
    have hb : yb = if p2.info.ncons > 0 then Spec.guarded p2.info.ncons x (Spec.constraints p2 x) else [] := by
      split at eb
      · rename_i hc
        simp only [hc, if_true]
        exact guardCons_value (fun r z hr => ih2 _ _ _ _ hr) eb
      · rename_i hc
        simp only [hc, if_false]; simp at eb; exact eb.2
    rw [ha, hb]; rfl

theorem isFeasible_value {p p' : Prob} {x : List Dbl} {b : Bool} (h : isFeasible p x = .ok (p', b)) :
    b = Spec.feasible p x := by
  unfold isFeasible at h
  unfold Spec.feasible Spec.finite
  split at h
  · rename_i hf
    unfold vectorIsFinite at hf
    simp at h
    rw [hf, h.2]; simp
  · rename_i hf
    simp only [vectorIsFinite, Bool.not_eq_false] at hf
    split at h
    · rename_i hc
      simp at h
      rw [hf, ← h.2]; simp [hc]
    · rename_i hc
      obtain ⟨_, _, h⟩ := bind_eq_ok h
      obtain ⟨⟨q, z⟩, e, h⟩ := bind_eq_ok h
      simp only [Res.ok.injEq, Prod.mk.injEq] at h
      rw [← h.2, rawCons_value _ _ _ _ _ e, hf]
      simp only [hc, decide_false, Bool.false_or, Bool.true_and]
      rw [List.not_any_eq_all_not]

/-! ### Well-formed problems never misbehave -/

theorem hasCons_of_wf {p : Prob} (h : Spec.WellFormed p) (hc : p.info.ncons > 0) : p.hasCons = true := by
  cases p with
  | base i f c =>
    cases c with
    | none => have := h.2.1 rfl; simp only [Prob.info] at hc; omega
    | some g => rfl
  | wrap => rfl
  | stacked i p1 p2 => simpa [Prob.hasCons, Prob.info] using hc

theorem guardCons_total {p : Prob} {x : List Dbl} {u : Bool} {raw : Res (Prob × List Dbl)}
    (hc : p.hasCons = true) (hraw : ∃ r, raw = .ok r) : ∃ r, guardCons p x u raw = .ok r := by
  obtain ⟨⟨q, y⟩, rfl⟩ := hraw
  unfold guardCons
  simp only [hc]
  split
  · exact absurd ‹_› (by simp)
  · split
    · exact ⟨_, rfl⟩
    · split
      · exact ⟨_, rfl⟩
      · exact ⟨_, rfl⟩

theorem rawCons_total (p : Prob) (h : Spec.WellFormed p) (hc : p.info.ncons > 0) :
    ∀ x u, ∃ r, rawCons p x u = .ok r := by
  induction p with
  | base i f c =>
    intro x u
    cases c with
    | none => have := h.2.1 rfl; simp only [Prob.info] at hc; omega
    | some g => exact ⟨_, rfl⟩
  | wrap i tx ty txc tc q ih =>
    intro x u
    obtain ⟨hq, _, hcq, _⟩ := h
    have hcq' : q.info.ncons > 0 := by simp only [Prob.info] at hc hcq ⊢; omega
    obtain ⟨r, e⟩ := guardCons_total (u := u) (hasCons_of_wf hq hcq') (ih hq hcq' (txc x) u)
    unfold rawCons
    rw [e]
    exact ⟨_, rfl⟩
  | stacked i p1 p2 ih1 ih2 =>
    intro x u
    obtain ⟨h1, h2, _, hsum, _⟩ := h
    unfold rawCons
    simp only [Res.assert, hsum, decide_true, if_true, Res.ok_bind]
    have e1 : ∃ r, (if p1.info.ncons > 0 then guardCons p1 x u (rawCons p1 x u) else .ok (p1, [])) = .ok r := by
      split
      · rename_i h'; exact guardCons_total (hasCons_of_wf h1 h') (ih1 h1 h' x u)
      · exact ⟨_, rfl⟩
    have e2 : ∃ r, (if p2.info.ncons > 0 then guardCons p2 x u (rawCons p2 x u) else .ok (p2, [])) = .ok r := by
      split
      · rename_i h'; exact guardCons_total (hasCons_of_wf h2 h') (ih2 h2 h' x u)
      · exact ⟨_, rfl⟩
    obtain ⟨r1, e1⟩ := e1
    obtain ⟨r2, e2⟩ := e2
    rw [e1, Res.ok_bind, e2, Res.ok_bind]
    exact ⟨_, rfl⟩

/-! ### C24 -/

/-- **C24.** For every well-formed problem the feasibility check returns 1 iff all coordinates are finite
and no constraint value is positive (a NaN value does not count as positive), and changes nothing: in
particular no constraint evaluation is counted. -/
theorem C24_is_feasible (p : Prob) (h : Spec.WellFormed p) (x : List Dbl) :
    isFeasible p x = .ok (p, Spec.feasible p x) := by
  have : ∃ q b, isFeasible p x = .ok (q, b) := by
    unfold isFeasible
    split
    · exact ⟨_, _, rfl⟩
    · split
      · exact ⟨_, _, rfl⟩
      · rename_i hc
        have hc' : p.info.ncons > 0 := by omega
        obtain ⟨⟨q, z⟩, e⟩ := rawCons_total p h hc' x false
        simp only [Res.assert, hasCons_of_wf h hc', if_true, Res.ok_bind, e]
        exact ⟨_, _, rfl⟩
  obtain ⟨q, b, e⟩ := this
  rw [e, isFeasible_same e, isFeasible_value e]

/-- A basic problem with one constraint `x₁ ≤ 1` (value: `x₁ - 1`, or NaN at `x₁ = 7`). -/
def exConstrained : Prob :=
  .base { nvar := 1, nobj := 1, ncons := 1, bestValue := some (.fin 0) } (fun _ x => x.take 1 ++ List.replicate (1 - x.length) .nan)
    (some fun x => match x with
      | .fin q :: _ => if q = 7 then [.nan] else [.fin (q - 1)]
      | _ => [.nan])

example : (isFeasible exConstrained [.fin 1]).bind (fun r => .ok r.2) = .ok true ∧
    (isFeasible exConstrained [.fin 2]).bind (fun r => .ok r.2) = .ok false ∧
    (isFeasible exConstrained [.fin 7]).bind (fun r => .ok r.2) = .ok true ∧
    (isFeasible exConstrained [.ninf]).bind (fun r => .ok r.2) = .ok false := by
  refine ⟨?_, ?_, ?_, ?_⟩ <;> decide +kernel

/-! ### C19 -/

/-- **C19.** At a point with an infinite or NaN coordinate evaluation returns +infinity (if a coordinate is
infinite) or NaN (otherwise) in every objective and changes no field of any object of the problem; the same
holds for the constraints of problems that have constraints. -/
theorem C19_nonfinite (p : Prob) (x : List Dbl) (hx : Spec.finite x = false) :
    evalF p x = .ok (p, List.replicate p.info.nobj (if x.any Dbl.isInf then .pinf else .nan)) ∧
    (p.hasCons = true →
      evalCons p x = .ok (p, List.replicate p.info.ncons (if x.any Dbl.isInf then .pinf else .nan))) := by
  have hcase : x.any Dbl.isInf = true ∨ (x.any Dbl.isInf = false ∧ x.any Dbl.isNan = true) := by
    cases h1 : x.any Dbl.isInf with
    | true => exact .inl rfl
    | false =>
      cases h2 : x.any Dbl.isNan with
      | true => exact .inr ⟨rfl, rfl⟩
      | false => rw [(finite_split x).1 ⟨h1, h2⟩] at hx; exact absurd hx (by decide)
  unfold evalF evalCons guardF guardCons
  rcases hcase with h1 | ⟨h1, h2⟩
  · simp [h1]
  · simp [h1, h2]

example : Spec.finite [.fin 3, .nan, .ninf] = false ∧ Spec.finite [.fin 3, .nan] = false := by decide

/-! ### C17 -/

/-- The call is an objective evaluation at a finite point. -/
def Spec.countsF : Op → Bool
  | .evalF x => Spec.finite x
  | _ => false

/-- The call is a constraint evaluation at a finite point. -/
def Spec.countsC : Op → Bool
  | .evalC x => Spec.finite x
  | _ => false

theorem guardF_evals {p p' : Prob} {x y : List Dbl} {raw : Res (Prob × List Dbl)}
    (hraw : ∀ q z, raw = .ok (q, z) → q.info = p.info) (h : guardF p x raw = .ok (p', y)) :
    p'.info.evals = p.info.evals + (if Spec.finite x then 1 else 0) ∧ p'.info.evalsCons = p.info.evalsCons := by
  obtain ⟨h1, rfl, _⟩ | ⟨h1, h2, rfl, _⟩ | ⟨h1, h2, q, y0, ys, e, _, ⟨b, _, _, _, rfl⟩ | ⟨b, _, _, rfl⟩⟩ :=
    guardF_ok h
  · have : Spec.finite x = false := by
      cases hf : Spec.finite x with
      | false => rfl
      | true => rw [((finite_split x).2 hf).1] at h1; exact absurd h1 (by decide)
    simp [this]
  · have : Spec.finite x = false := by
      cases hf : Spec.finite x with
      | false => rfl
      | true => rw [((finite_split x).2 hf).2] at h2; exact absurd h2 (by decide)
    simp [this]
  · simp [(finite_split x).1 ⟨h1, h2⟩, hraw _ _ e]
  · simp [(finite_split x).1 ⟨h1, h2⟩, hraw _ _ e]

theorem evalCons_evals {p p' : Prob} {x y : List Dbl} (h : evalCons p x = .ok (p', y)) :
    p'.info.evalsCons = p.info.evalsCons + (if Spec.finite x then 1 else 0) ∧
    p'.info.evals = p.info.evals ∧ p'.info.bestF = p.info.bestF ∧ p'.info.bestEval = p.info.bestEval := by
  obtain ⟨_, ⟨h1, rfl, _⟩ | ⟨h1, h2, rfl, _⟩ | ⟨h1, h2, r, hr, hq⟩⟩ := guardCons_ok h
  · have : Spec.finite x = false := by
      cases hf : Spec.finite x with
      | false => rfl
      | true => rw [((finite_split x).2 hf).1] at h1; exact absurd h1 (by decide)
    simp [this]
  · have : Spec.finite x = false := by
      cases hf : Spec.finite x with
      | false => rfl
      | true => rw [((finite_split x).2 hf).2] at h2; exact absurd h2 (by decide)
    simp [this]
  · simp only [if_true] at hq
    have := (rawCons_skel _ _ _ _ _ hr).2
    simp [hq, (finite_split x).1 ⟨h1, h2⟩, this]

theorem getBestParameter_evals (p : Prob) :
    (getBestParameter p).1.info.evals = p.info.evals ∧ (getBestParameter p).1.info.evalsCons = p.info.evalsCons ∧
    (getBestParameter p).1.info.bestF = p.info.bestF ∧ (getBestParameter p).1.info.bestEval = p.info.bestEval := by
  unfold getBestParameter
  split <;> simp

/-- **C17.** After any sequence of calls, the numbers of evaluations have grown by exactly the numbers of
calls at points with finite coordinates. -/
theorem C17_counters (ops : List Op) : ∀ (p p' : Prob) (outs : List Out), run p ops = .ok (p', outs) →
    p'.info.evals = p.info.evals + ops.countP Spec.countsF ∧
    p'.info.evalsCons = p.info.evalsCons + ops.countP Spec.countsC := by
  induction ops with
  | nil =>
    intro p p' outs h
    simp [run] at h
    rw [h.1]; simp
  | cons op ops ih =>
    intro p p' outs h
    unfold run at h
    obtain ⟨⟨q, o⟩, e1, h⟩ := bind_eq_ok h
    obtain ⟨⟨r, os⟩, e2, h⟩ := bind_eq_ok h
    simp at h
    have hr := ih q r os e2
    rw [← h.1, hr.1, hr.2]
    simp only [List.countP_cons]
    cases op with
    | evalF x =>
      obtain ⟨⟨s, y⟩, e3, e4⟩ := bind_eq_ok e1
      simp at e4
      have := guardF_evals (fun a b hab => (rawF_skel p x a b hab).2) e3
      rw [← e4.1, this.1, this.2]
      simp only [Spec.countsF, Spec.countsC]
      constructor
      · ac_rfl
      · simp
    | evalC x =>
      obtain ⟨⟨s, y⟩, e3, e4⟩ := bind_eq_ok e1
      simp at e4
      have := evalCons_evals e3
      rw [← e4.1, this.1, this.2.1]
      simp only [Spec.countsF, Spec.countsC]
      constructor
      · simp
      · ac_rfl
    | bestParameter =>
      simp [step] at e1
      have := getBestParameter_evals p
      rw [← e1.1, this.1, this.2.1]
      simp [Spec.countsF, Spec.countsC]

/-! ### C18 -/

/-- The counted evaluations of a history, in order: point and first objective value returned. -/
def Spec.counted : List Op → List Out → List (List Dbl × Dbl)
  | .evalF x :: ops, .values (y0 :: _) :: outs =>
    if Spec.finite x then (x, y0) :: Spec.counted ops outs else Spec.counted ops outs
  | _ :: ops, _ :: outs => Spec.counted ops outs
  | _, _ => []

/-- A problem on which nothing has been evaluated yet. -/
def Spec.Fresh (p : Prob) : Prop :=
  p.info.evals = 0 ∧ p.info.bestF = .fin Dbl.dblMax ∧ p.info.bestEval = 0

/-- `best` is the best observed value and `n` its evaluation number for the evaluations `hist`. -/
def Spec.IsBest (p : Prob) (hist : List (List Dbl × Dbl)) (best : Dbl) (n : Nat) : Prop :=
  (best = .fin Dbl.dblMax ∧ n = 0 ∧
    ∀ e ∈ hist, Spec.feasible p e.1 = true → Dbl.lt e.2 (.fin Dbl.dblMax) = false) ∨
  (∃ x, 1 ≤ n ∧ hist[n - 1]? = some (x, best) ∧ Spec.feasible p x = true ∧ Dbl.lt best (.fin Dbl.dblMax) = true ∧
    (∀ e ∈ hist, Spec.feasible p e.1 = true → Dbl.lt e.2 best = false) ∧
    ∀ (m : Nat) (e : List Dbl × Dbl), m < n - 1 → hist[m]? = some e → Spec.feasible p e.1 = true →
      Dbl.le e.2 best = false)

/-- How one evaluation changes the best observed value. -/
theorem evalF_best {p p' : Prob} {x y : List Dbl} (h : evalF p x = .ok (p', y)) :
    (Spec.finite x = false ∧ p' = p) ∨
    (Spec.finite x = true ∧ ∃ y0 ys, y = y0 :: ys ∧ p'.info.evals = p.info.evals + 1 ∧
      ((Dbl.lt y0 p.info.bestF && Spec.feasible p x) = true ∧ p'.info.bestF = y0 ∧
          p'.info.bestEval = p.info.evals + 1 ∨
       (Dbl.lt y0 p.info.bestF && Spec.feasible p x) = false ∧ p'.info.bestF = p.info.bestF ∧
          p'.info.bestEval = p.info.bestEval)) := by
  have hinfo : ∀ q z, rawF p x = .ok (q, z) → skel q = skel p ∧ q.info = p.info :=
    fun q z hq => rawF_skel p x q z hq
  obtain ⟨h1, rfl, _⟩ | ⟨h1, h2, rfl, _⟩ | ⟨h1, h2, q, y0, ys, e, ey, hh⟩ := guardF_ok h
  · left
    refine ⟨?_, rfl⟩
    cases hf : Spec.finite x with
    | false => rfl
    | true => rw [((finite_split x).2 hf).1] at h1; exact absurd h1 (by decide)
  · left
    refine ⟨?_, rfl⟩
    cases hf : Spec.finite x with
    | false => rfl
    | true => rw [((finite_split x).2 hf).2] at h2; exact absurd h2 (by decide)
  · right
    have hfin := (finite_split x).1 ⟨h1, h2⟩
    obtain ⟨hsk, hi⟩ := hinfo q y e
    have hsk1 : skel (q.setInfo { q.info with evals := q.info.evals + 1 }) = skel p := by
      rw [skel_setInfo _ _ (by simp [reset])]; exact hsk
    refine ⟨hfin, y0, ys, ey, ?_⟩
    rcases hh with ⟨b, hb, hc, h0, rfl⟩ | ⟨b, hb, hc, rfl⟩
    · simp only [setInfo_info]
      rw [hi]
      refine ⟨rfl, .inl ⟨?_, trivial, rfl⟩⟩
      simp only [Bool.and_eq_true] at hb
      rw [hi] at hb
      rw [hb.1, Bool.true_and]
      by_cases hz : q.info.ncons = 0
      · rw [hi] at hz; simp [Spec.feasible, hfin, hz]
      · have := isFeasible_value (hc (by omega))
        rw [feasible_of_skel hsk1] at this
        rw [← this]; exact hb.2
    · simp only [setInfo_info]
      rw [hi]
      refine ⟨rfl, .inr ⟨?_, rfl, rfl⟩⟩
      rw [hi] at hb hc
      by_cases hlt : Dbl.lt y0 p.info.bestF = true
      · rw [hlt, Bool.true_and] at hb ⊢
        obtain ⟨hpos, hfeas⟩ := hc hlt
        have := isFeasible_value hfeas
        have hsk2 := hsk1
        rw [hi] at hsk2
        rw [feasible_of_skel hsk2] at this
        rw [← this]; exact hb
      · simp [hlt]

theorem isBest_step {p : Prob} {hist : List (List Dbl × Dbl)} {best : Dbl} {n : Nat}
    (h : Spec.IsBest p hist best n) (x : List Dbl) (v : Dbl) :
    ((Dbl.lt v best && Spec.feasible p x) = true → Spec.IsBest p (hist ++ [(x, v)]) v (hist.length + 1)) ∧
    ((Dbl.lt v best && Spec.feasible p x) = false → Spec.IsBest p (hist ++ [(x, v)]) best n) := by
  have hbestnan : ∀ e ∈ hist, Spec.feasible p e.1 = true → Dbl.lt e.2 best = false := by
    rcases h with ⟨rfl, _, h⟩ | ⟨_, _, _, _, _, h, _⟩
    · exact h
    · exact h
  have hble : Dbl.le best (.fin Dbl.dblMax) = true := by
    rcases h with ⟨rfl, _, _⟩ | ⟨_, _, _, _, h, _⟩
    · exact Dbl.le_refl rfl
    · exact Dbl.le_of_lt h
  constructor
  · intro hb
    rw [Bool.and_eq_true] at hb
    have key : ∀ e ∈ hist, Spec.feasible p e.1 = true → Dbl.le e.2 v = false := by
      intro e he hf
      cases hle : Dbl.le e.2 v with
      | false => rfl
      | true =>
        have := Dbl.lt_of_le_of_lt hle hb.1
        rw [hbestnan e he hf] at this; exact absurd this (by decide)
    right
    refine ⟨x, by omega, ?_, hb.2, Dbl.lt_of_lt_of_le hb.1 hble, ?_, ?_⟩
    · rw [Nat.add_sub_cancel]; simp
    · intro e he hf
      rw [List.mem_append, List.mem_singleton] at he
      rcases he with he | rfl
      · cases hlt : Dbl.lt e.2 v with
        | false => rfl
        | true => have := Dbl.le_of_lt hlt; rw [key e he hf] at this; exact absurd this (by decide)
      · exact Dbl.lt_irrefl v
    · intro m e hm he hf
      rw [Nat.add_sub_cancel] at hm
      rw [List.getElem?_append_left hm] at he
      exact key e (List.mem_of_getElem? he) hf
  · intro hb
    rcases h with ⟨rfl, hn, h⟩ | ⟨x0, hn, hx0, hf0, hlt0, hmin, hfirst⟩
    · left
      refine ⟨rfl, hn, ?_⟩
      intro e he hf
      rw [List.mem_append, List.mem_singleton] at he
      rcases he with he | rfl
      · exact h e he hf
      · simp only at hf; rw [hf, Bool.and_true] at hb; exact hb
    · right
      have hlen : n - 1 < hist.length := by
        rw [List.getElem?_eq_some_iff] at hx0; exact hx0.1
      refine ⟨x0, hn, by rw [List.getElem?_append_left hlen]; exact hx0, hf0, hlt0, ?_, ?_⟩
      · intro e he hf
        rw [List.mem_append, List.mem_singleton] at he
        rcases he with he | rfl
        · exact hmin e he hf
        · simp only at hf; rw [hf, Bool.and_true] at hb; exact hb
      · intro m e hm he hf
        rw [List.getElem?_append_left (by omega)] at he
        exact hfirst m e hm he hf

theorem isBest_of_skel {p q : Prob} (h : skel p = skel q) {hist : List (List Dbl × Dbl)} {best : Dbl} {n : Nat} :
    Spec.IsBest p hist best n ↔ Spec.IsBest q hist best n := by
  unfold Spec.IsBest
  simp only [feasible_of_skel h]

theorem run_best (ops : List Op) : ∀ (p p' : Prob) (outs : List Out) (hist : List (List Dbl × Dbl)),
    run p ops = .ok (p', outs) → Spec.IsBest p hist p.info.bestF p.info.bestEval → p.info.evals = hist.length →
    Spec.IsBest p' (hist ++ Spec.counted ops outs) p'.info.bestF p'.info.bestEval ∧
      p'.info.evals = (hist ++ Spec.counted ops outs).length ∧ skel p' = skel p := by
  induction ops with
  | nil =>
    intro p p' outs hist h hb hl
    simp [run] at h
    rw [← h.1, h.2]
    simp [Spec.counted, hb, hl]
  | cons op ops ih =>
    intro p p' outs hist h hb hl
    unfold run at h
    obtain ⟨⟨q, o⟩, e1, h⟩ := bind_eq_ok h
    obtain ⟨⟨r, os⟩, e2, h⟩ := bind_eq_ok h
    simp at h
    have hsk := step_skel e1
    rw [← h.1, ← h.2]
    cases op with
    | evalF x =>
      obtain ⟨⟨s, y⟩, e3, e4⟩ := bind_eq_ok e1
      simp at e4
      rw [← e4.2]
      have hs : s = q := e4.1
      rw [hs] at e3
      rcases evalF_best e3 with ⟨hf, hq⟩ | ⟨hf, y0, ys, ey, hev, hcase⟩
      · have hcount : Spec.counted (Op.evalF x :: ops) (Out.values y :: os) = Spec.counted ops os := by
          cases y with
          | nil => simp [Spec.counted]
          | cons => simp [Spec.counted, hf]
        rw [hcount]
        have := ih q r os hist e2 (by rw [hq]; exact hb) (by rw [hq]; exact hl)
        exact ⟨this.1, this.2.1, this.2.2.trans hsk⟩
      · have hcount : Spec.counted (Op.evalF x :: ops) (Out.values y :: os) = (x, y0) :: Spec.counted ops os := by
          simp [Spec.counted, ey, hf]
        rw [hcount, show hist ++ (x, y0) :: Spec.counted ops os
          = (hist ++ [(x, y0)]) ++ Spec.counted ops os by simp]
        have hst := isBest_step hb x y0
        have hq : Spec.IsBest q (hist ++ [(x, y0)]) q.info.bestF q.info.bestEval := by
          rw [isBest_of_skel hsk]
          rcases hcase with ⟨hc, hbf, hbe⟩ | ⟨hc, hbf, hbe⟩
          · rw [hbf, hbe, hl]; exact hst.1 hc
          · rw [hbf, hbe]; exact hst.2 hc
        have := ih q r os (hist ++ [(x, y0)]) e2 hq (by rw [hev, hl]; simp)
        exact ⟨this.1, this.2.1, this.2.2.trans hsk⟩
    | evalC x =>
      obtain ⟨⟨s, y⟩, e3, e4⟩ := bind_eq_ok e1
      simp at e4
      have := evalCons_evals e3
      have hs : s = q := e4.1
      rw [hs] at this
      rw [show Spec.counted (Op.evalC x :: ops) (o :: os) = Spec.counted ops os by simp [Spec.counted]]
      have := ih q r os hist e2 (by rw [isBest_of_skel hsk, this.2.2.1, this.2.2.2]; exact hb)
        (by rw [this.2.1]; exact hl)
      exact ⟨this.1, this.2.1, this.2.2.trans hsk⟩
    | bestParameter =>
      simp [step] at e1
      have := getBestParameter_evals p
      rw [e1.1] at this
      rw [show Spec.counted (Op.bestParameter :: ops) (o :: os) = Spec.counted ops os by simp [Spec.counted]]
      have := ih q r os hist e2 (by rw [isBest_of_skel hsk, this.2.2.1, this.2.2.2]; exact hb)
        (by rw [this.1]; exact hl)
      exact ⟨this.1, this.2.1, this.2.2.trans hsk⟩

/-- **C18.** After any sequence of calls on a fresh problem, the best observed value is the smallest first
objective value among the counted feasible evaluations (DBL_MAX if there is none below DBL_MAX) and the
recorded evaluation number is that of the first evaluation attaining it. -/
theorem C18_best_observed (p p' : Prob) (ops : List Op) (outs : List Out) (hp : Spec.Fresh p)
    (h : run p ops = .ok (p', outs)) :
    Spec.IsBest p (Spec.counted ops outs) p'.info.bestF p'.info.bestEval := by
  have h0 : Spec.IsBest p [] p.info.bestF p.info.bestEval := by
    left; exact ⟨hp.2.1, hp.2.2, by simp⟩
  have := run_best ops p p' outs [] h h0 (by rw [hp.1]; rfl)
  rw [← isBest_of_skel this.2.2]
  simpa using this.1

/-- **C18** (monotone). No call makes the best observed value worse. -/
theorem C18_never_worse (p p' : Prob) (op : Op) (o : Out) (h : step p op = .ok (p', o)) :
    Dbl.lt p.info.bestF p'.info.bestF = false := by
  cases op with
  | evalF x =>
    obtain ⟨⟨s, y⟩, e3, e4⟩ := bind_eq_ok h
    simp at e4
    rw [← e4.1]
    rcases evalF_best e3 with ⟨hf, hq⟩ | ⟨hf, y0, ys, ey, hev, ⟨hc, hbf, _⟩ | ⟨hc, hbf, _⟩⟩
    · rw [hq]; exact Dbl.lt_irrefl _
    · rw [Bool.and_eq_true] at hc
      rw [hbf]; exact Dbl.not_lt_of_le (Dbl.le_of_lt hc.1)
    · rw [hbf]; exact Dbl.lt_irrefl _
  | evalC x =>
    obtain ⟨⟨s, y⟩, e3, e4⟩ := bind_eq_ok h
    simp at e4
    rw [← e4.1, (evalCons_evals e3).2.2.1]; exact Dbl.lt_irrefl _
  | bestParameter =>
    simp [step] at h
    rw [← h.1, (getBestParameter_evals p).2.2.1]; exact Dbl.lt_irrefl _

/-- A history meeting the premises: values 5, 2 (infeasible), NaN argument, 1, 1. -/
example : Spec.Fresh exConstrained ∧ (run exConstrained
      [.evalF [.fin 1], .evalF [.fin (-3)], .evalF [.nan], .evalC [.fin 0], .evalF [.fin 2], .evalF [.fin (-3)]]).bind
        (fun r => .ok (r.1.info.evals, r.1.info.bestF, r.1.info.bestEval)) = .ok (4, .fin (-3), 2) := by
  refine ⟨⟨rfl, rfl, rfl⟩, ?_⟩
  decide +kernel

/-! ### C20 -/

/-- **C20.** On a single-objective problem with known best value (best value + delta below DBL_MAX), after
any sequence of calls on a fresh problem, the final target is reported as hit iff some counted feasible
evaluation reached best value + delta. -/
theorem C20_final_target (p p' : Prob) (ops : List Op) (outs : List Out) (hp : Spec.Fresh p) (b : Dbl)
    (hb : p.info.bestValue = some b) (h1 : p.info.nobj = 1)
    (ht : Dbl.lt (b.addRat p.info.delta) (.fin Dbl.dblMax) = true)
    (h : run p ops = .ok (p', outs)) :
    finalTargetHit p' = true ↔
      ∃ e ∈ Spec.counted ops outs, Spec.feasible p e.1 = true ∧ Dbl.le e.2 (b.addRat p.info.delta) = true := by
  have h0 : Spec.IsBest p [] p.info.bestF p.info.bestEval := by
    left; exact ⟨hp.2.1, hp.2.2, by simp⟩
  obtain ⟨hbest, hlen, hsk⟩ := run_best ops p p' outs [] h h0 (by rw [hp.1]; rfl)
  simp only [List.nil_append] at hbest hlen
  unfold finalTargetHit
  rw [nobj_of_skel hsk, bestValue_of_skel hsk, delta_of_skel hsk, hb, h1]
  simp only [ne_eq, not_true_eq_false, false_or]
  rw [isBest_of_skel hsk] at hbest
  rcases hbest with ⟨hbf, _, hno⟩ | ⟨x, hn, hx, hf, hlt, hmin, _⟩
  · have hnot : ∀ e ∈ Spec.counted ops outs, Spec.feasible p e.1 = true →
        Dbl.le e.2 (b.addRat p.info.delta) = false := by
      intro e he hfe
      cases hle : Dbl.le e.2 (b.addRat p.info.delta) with
      | false => rfl
      | true =>
        have := Dbl.lt_of_le_of_lt hle ht
        rw [hno e he hfe] at this; exact absurd this (by decide)
    constructor
    · intro hh
      split at hh
      · exact absurd hh (by decide)
      · rw [hbf] at hh
        have := Dbl.not_lt_of_le hh
        rw [ht] at this; exact absurd this (by decide)
    · rintro ⟨e, he, hfe, hle⟩
      rw [hnot e he hfe] at hle; exact absurd hle (by decide)
  · have hpos : ¬ p'.info.evals < 1 := by
      have := (List.getElem?_eq_some_iff.1 hx).1
      omega
    simp only [hpos, if_false]
    constructor
    · intro hh
      exact ⟨_, List.mem_of_getElem? hx, hf, hh⟩
    · rintro ⟨e, he, hfe, hle⟩
      have := hmin e he hfe
      exact Dbl.le_trans (Dbl.le_of_not_lt (Dbl.le_not_nan hle).1 (Dbl.lt_not_nan hlt).1 this) hle

/-- **C20** (stays hit). Once hit, the target stays hit. -/
theorem C20_stays_hit (p p' : Prob) (op : Op) (o : Out) (h : step p op = .ok (p', o))
    (hhit : finalTargetHit p = true) : finalTargetHit p' = true := by
  have hsk := step_skel h
  have hworse := C18_never_worse p p' op o h
  have hev : p.info.evals ≤ p'.info.evals := by
    have := (C17_counters [op] p p' [o] (by simp [run, h])).1
    omega
  unfold finalTargetHit at hhit ⊢
  rw [nobj_of_skel hsk, bestValue_of_skel hsk, delta_of_skel hsk]
  split at hhit
  · exact absurd hhit (by decide)
  · rename_i hc
    have hc' : ¬ (p.info.nobj ≠ 1 ∨ p'.info.evals < 1) := by omega
    simp only [hc', if_false]
    cases hb : p.info.bestValue with
    | none => rw [hb] at hhit; simp at hhit
    | some b =>
      rw [hb] at hhit
      simp only at hhit ⊢
      cases op with
      | evalF x =>
        obtain ⟨⟨s, y⟩, e3, e4⟩ := bind_eq_ok h
        simp at e4
        rw [← e4.1]
        rcases evalF_best e3 with ⟨hf, hq⟩ | ⟨hf, y0, ys, ey, hev, ⟨hc, hbf, _⟩ | ⟨hc, hbf, _⟩⟩
        · rw [hq]; exact hhit
        · rw [Bool.and_eq_true] at hc
          rw [hbf]; exact Dbl.le_trans (Dbl.le_of_lt hc.1) hhit
        · rw [hbf]; exact hhit
      | evalC x =>
        obtain ⟨⟨s, y⟩, e3, e4⟩ := bind_eq_ok h
        simp at e4
        rw [← e4.1, (evalCons_evals e3).2.2.1]; exact hhit
      | bestParameter =>
        simp [step] at h
        rw [← h.1, (getBestParameter_evals p).2.2.1]; exact hhit

example : (run exConstrained [.evalF [.fin 1], .evalF [.fin (-3)]]).bind
      (fun r => .ok (finalTargetHit r.1)) = .ok true ∧
    (run exConstrained [.evalF [.fin 1]]).bind (fun r => .ok (finalTargetHit r.1)) = .ok false := by
  refine ⟨?_, ?_⟩ <;> decide +kernel

/-! ### C22 -/

/-- The characters of ids. -/
def Spec.idChars : List Char := "ABCDEFGHIJKLMNOPQRSTUVWXYZabcdefghijklmnopqrstuvwxyz_-0123456789".toList

/-- **C22.** An id is accepted iff each of its characters is a letter, a digit, '_' or '-' (the empty
string is accepted; '.', which the description of the function allows, is rejected). -/
theorem C22_id (s : List Char) : idIsFine s = true ↔ ∀ c ∈ s, c ∈ Spec.idChars := by
  have hchar : ∀ c : Char, ((decide ('A' ≤ c) && decide (c ≤ 'Z')) || (decide ('a' ≤ c) && decide (c ≤ 'z')) ||
      (c == '_' || c == '-') || (decide ('0' ≤ c) && decide (c ≤ '9'))) = true ↔ c ∈ Spec.idChars := by
    intro c
    constructor
    · intro h
      have hlt : c.toNat < 128 := by
        simp only [Bool.or_eq_true, Bool.and_eq_true, decide_eq_true_eq, beq_iff_eq, Char.le_def,
          UInt32.le_iff_toNat_le] at h
        have e : c.toNat = c.val.toNat := rfl
        have hZ : ('Z' : Char).val.toNat = 90 := by decide
        have hz : ('z' : Char).val.toNat = 122 := by decide
        have h9 : ('9' : Char).val.toNat = 57 := by decide
        rcases h with ((⟨_, h⟩ | ⟨_, h⟩) | (rfl | rfl)) | ⟨_, h⟩
        · omega
        · omega
        · decide
        · decide
        · omega
      have all : ∀ n : Fin 128, ((decide ('A' ≤ Char.ofNat n) && decide (Char.ofNat n ≤ 'Z')) ||
          (decide ('a' ≤ Char.ofNat n) && decide (Char.ofNat n ≤ 'z')) ||
          (Char.ofNat n == '_' || Char.ofNat n == '-') ||
          (decide ('0' ≤ Char.ofNat n) && decide (Char.ofNat n ≤ '9'))) = true →
          Char.ofNat n ∈ Spec.idChars := by decide +kernel
      have := all ⟨c.toNat, hlt⟩
      simp only [Char.ofNat_toNat] at this
      exact this h
    · intro h
      have all : ∀ c ∈ Spec.idChars, ((decide ('A' ≤ c) && decide (c ≤ 'Z')) ||
          (decide ('a' ≤ c) && decide (c ≤ 'z')) || (c == '_' || c == '-') ||
          (decide ('0' ≤ c) && decide (c ≤ '9'))) = true := by decide +kernel
      exact all c h
  unfold idIsFine
  rw [List.all_eq_true]
  exact ⟨fun h c hc => (hchar c).1 (h c hc), fun h c hc => (hchar c).2 (h c hc)⟩

example : idIsFine "bbob_f001_i01_d02".toList = true ∧ idIsFine "bbob.f1".toList = false ∧
    idIsFine [] = true := by decide

/-! ### C23 -/

/-- **C23** (objectives). Evaluating a stacked problem at a finite point evaluates both problems at that
point, in order, and returns their objectives one after the other. -/
theorem C23_stacked_objectives (i : Info) (p1 p2 p' : Prob) (x y : List Dbl) (hx : Spec.finite x = true)
    (h1 : p1.info.nobj > 0) (h2 : p2.info.nobj > 0) (h : evalF (.stacked i p1 p2) x = .ok (p', y)) :
    ∃ p1' p2' y1 y2 i', evalF p1 x = .ok (p1', y1) ∧ evalF p2 x = .ok (p2', y2) ∧ y = y1 ++ y2 ∧
      p' = .stacked i' p1' p2' ∧ i.nobj = p1.info.nobj + p2.info.nobj := by
  obtain ⟨hi, hn⟩ := (finite_split x).2 hx
  have hraw : ∃ q, rawF (.stacked i p1 p2) x = .ok (q, y) ∧ ∃ j, p' = q.setInfo j := by
    obtain ⟨h1', _⟩ | ⟨_, h2', _⟩ | ⟨_, _, q, y0, ys, e, _, ⟨b, _, _, _, rfl⟩ | ⟨b, _, _, rfl⟩⟩ := guardF_ok h
    · rw [hi] at h1'; exact absurd h1' (by decide)
    · rw [hn] at h2'; exact absurd h2' (by decide)
    · exact ⟨q, e, _, rfl⟩
    · exact ⟨q, e, _, rfl⟩
  obtain ⟨q, e, j, hp'⟩ := hraw
  unfold rawF at e
  obtain ⟨u, hu, e⟩ := bind_eq_ok e
  have hsum : i.nobj = p1.info.nobj + p2.info.nobj := by
    unfold Res.assert at hu
    split at hu
    · rename_i hd; simpa using hd
    · simp at hu
  simp only [h1, h2, if_true] at e
  obtain ⟨⟨a, ya⟩, ea, e⟩ := bind_eq_ok e
  obtain ⟨⟨b, yb⟩, eb, e⟩ := bind_eq_ok e
  have hq : q = .stacked i a b ∧ y = ya ++ yb := by
    simp only at e
    split at e
    · obtain ⟨⟨c, fb⟩, ec, e⟩ := bind_eq_ok e
      have hc := isFeasible_same ec
      simp only at e
      split at e
      · split at e
        · obtain ⟨_, _, e⟩ := bind_eq_ok e
          simp only [Res.ok.injEq, Prod.mk.injEq] at e
          rw [← e.1, hc, ← e.2]; simp
        · simp at e
      · simp only [Res.ok.injEq, Prod.mk.injEq] at e
        rw [← e.1, hc, ← e.2]; simp
    · simp only [Res.ok.injEq, Prod.mk.injEq] at e
      exact ⟨e.1.symm, e.2.symm⟩
  refine ⟨a, b, ya, yb, j, ea, eb, hq.2, ?_, hsum⟩
  rw [hp', hq.1]; rfl

/-- **C23** (constraints). -/
theorem C23_stacked_constraints (i : Info) (p1 p2 p' : Prob) (x y : List Dbl) (hx : Spec.finite x = true)
    (h1 : p1.info.ncons > 0) (h2 : p2.info.ncons > 0) (h : evalCons (.stacked i p1 p2) x = .ok (p', y)) :
    ∃ p1' p2' y1 y2 i', evalCons p1 x = .ok (p1', y1) ∧ evalCons p2 x = .ok (p2', y2) ∧ y = y1 ++ y2 ∧
      p' = .stacked i' p1' p2' ∧ i.ncons = p1.info.ncons + p2.info.ncons := by
  obtain ⟨hi, hn⟩ := (finite_split x).2 hx
  obtain ⟨_, ⟨h1', _⟩ | ⟨_, h2', _⟩ | ⟨_, _, q, e, hq⟩⟩ := guardCons_ok h
  · rw [hi] at h1'; exact absurd h1' (by decide)
  · rw [hn] at h2'; exact absurd h2' (by decide)
  · unfold rawCons at e
    obtain ⟨u, hu, e⟩ := bind_eq_ok e
    have hsum : i.ncons = p1.info.ncons + p2.info.ncons := by
      unfold Res.assert at hu
      split at hu
      · rename_i hd; simpa using hd
      · simp at hu
    simp only [h1, h2, if_true] at e
    obtain ⟨⟨a, ya⟩, ea, e⟩ := bind_eq_ok e
    obtain ⟨⟨b, yb⟩, eb, e⟩ := bind_eq_ok e
    simp only [Res.ok.injEq, Prod.mk.injEq] at e
    simp only [if_true] at hq
    rw [← e.1] at hq
    exact ⟨a, b, ya, yb, _, ea, eb, e.2.symm, hq, hsum⟩

/-- **C23** (associativity). Stacking three problems either way gives the same objectives. -/
theorem C23_associative (i i' j j' : Info) (p1 p2 p3 p' q' : Prob) (x y z : List Dbl)
    (hx : Spec.finite x = true) (h1 : p1.info.nobj > 0) (h2 : p2.info.nobj > 0) (h3 : p3.info.nobj > 0)
    (hj : j.nobj > 0) (hj' : j'.nobj > 0)
    (hl : evalF (.stacked i (.stacked j p1 p2) p3) x = .ok (p', y))
    (hr : evalF (.stacked i' p1 (.stacked j' p2 p3)) x = .ok (q', z)) : y = z := by
  obtain ⟨_, _, y12, y3, _, e12, e3, rfl, _⟩ := C23_stacked_objectives i (.stacked j p1 p2) _ _ _ _ hx hj h3 hl
  obtain ⟨_, _, y1, y2, _, e1, e2, rfl, _⟩ := C23_stacked_objectives _ _ _ _ _ _ hx h1 h2 e12
  obtain ⟨_, _, z1, z23, _, f1, f23, rfl, _⟩ := C23_stacked_objectives i' _ (.stacked j' p2 p3) _ _ _ hx h1 hj' hr
  obtain ⟨_, _, z2, z3, _, f2, f3, rfl, _⟩ := C23_stacked_objectives _ _ _ _ _ _ hx h2 h3 f23
  rw [e1] at f1; rw [e2] at f2; rw [e3] at f3
  simp only [Res.ok.injEq, Prod.mk.injEq] at f1 f2 f3
  rw [f1.2, f2.2, f3.2, List.append_assoc]

/-- **C23** (no failure). Evaluating a well-formed problem with at least one objective never has undefined
behaviour and never calls `coco_error`; the only possible failure is the assertion that no feasible point
of a constrained problem is better than the recorded optimum. -/
theorem C23_no_failure (p : Prob) (hw : Spec.WellFormed p) (hn : p.info.nobj > 0) (x : List Dbl) :
    (∃ p' y, evalF p x = .ok (p', y) ∧ y.length = p.info.nobj) ∨ evalF p x = .assertFail := by
  have wfskel : ∀ p q : Prob, skel p = skel q → Spec.WellFormed q → Spec.WellFormed p := by
    have hsk : ∀ p : Prob, Spec.WellFormed (skel p) ↔ Spec.WellFormed p := by
      intro p
      induction p with
      | base i f c => simp [skel, Spec.WellFormed, reset]
      | wrap i tx ty txc tc q ih => simp [skel, Spec.WellFormed, reset, ih]
      | stacked i p1 p2 ih1 ih2 => simp [skel, Spec.WellFormed, reset, ih1, ih2]
    intro p q h hq
    rw [← hsk p, h, hsk q]; exact hq
  have guard : ∀ (p : Prob) (x : List Dbl), Spec.WellFormed p → p.info.nobj > 0 →
      ((∃ p' y, rawF p x = .ok (p', y) ∧ y.length = p.info.nobj) ∨ rawF p x = .assertFail) →
      (∃ p' y, guardF p x (rawF p x) = .ok (p', y) ∧ y.length = p.info.nobj) ∨
        guardF p x (rawF p x) = .assertFail := by
    intro p x hw hn hraw
    unfold guardF
    split
    · left; exact ⟨_, _, rfl, by simp⟩
    · split
      · left; exact ⟨_, _, rfl, by simp⟩
      · rcases hraw with ⟨q, y, e, hl⟩ | e
        · left
          obtain ⟨hsk, hi⟩ := rawF_skel p x q y e
          have hwq : Spec.WellFormed (q.setInfo { q.info with evals := q.info.evals + 1 }) :=
            wfskel _ p (by rw [skel_setInfo _ _ (by simp [reset])]; exact hsk) hw
          rw [e, Res.ok_bind]
          cases y with
          | nil => simp at hl; omega
          | cons y0 ys =>
            simp only [setInfo_info]
            split
            · rw [C24_is_feasible _ hwq]
              split
              · exact ⟨_, _, rfl, hl⟩
              · exact ⟨_, _, rfl, hl⟩
            · exact ⟨_, _, rfl, hl⟩
        · right; rw [e]; rfl
  have raw : ∀ (p : Prob), Spec.WellFormed p → p.info.nobj > 0 → ∀ x,
      (∃ p' y, rawF p x = .ok (p', y) ∧ y.length = p.info.nobj) ∨ rawF p x = .assertFail := by
    intro p
    induction p with
    | base i f c => intro hw _ x; left; exact ⟨_, _, rfl, hw.1 _ _⟩
    | wrap i tx ty txc tc q ih =>
      intro hw hn x
      obtain ⟨hq, ho, hc, hty, htc⟩ := hw
      unfold rawF
      split
      · left; exact ⟨_, _, rfl, hty _ _⟩
      · rename_i x' _
        rcases guard q x' hq (by simp only [Prob.info] at hn ho ⊢; omega)
            (ih hq (by simp only [Prob.info] at hn ho ⊢; omega) x') with ⟨q', y, e, _⟩ | e
        · left; rw [e]; exact ⟨_, _, rfl, hty _ _⟩
        · right; rw [e]; rfl
    | stacked i p1 p2 ih1 ih2 =>
      intro hw hn x
      have hwfull := hw
      obtain ⟨w1, w2, ho, hc, hb⟩ := hw
      have e1 : (∃ p' y, (if p1.info.nobj > 0 then guardF p1 x (rawF p1 x) else .ok (p1, [])) = .ok (p', y) ∧
          y.length = p1.info.nobj ∧ skel p' = skel p1) ∨
          (if p1.info.nobj > 0 then guardF p1 x (rawF p1 x) else .ok (p1, [])) = .assertFail := by
        split
        · rename_i h
          rcases guard p1 x w1 h (ih1 w1 h x) with ⟨p', y, e, hl⟩ | e
          · left; exact ⟨p', y, e, hl, guardF_skel (fun q z hq => (rawF_skel p1 x q z hq).1) e⟩
          · exact .inr e
        · left; exact ⟨_, _, rfl, by simp; omega, rfl⟩
      have e2 : (∃ p' y, (if p2.info.nobj > 0 then guardF p2 x (rawF p2 x) else .ok (p2, [])) = .ok (p', y) ∧
          y.length = p2.info.nobj ∧ skel p' = skel p2) ∨
          (if p2.info.nobj > 0 then guardF p2 x (rawF p2 x) else .ok (p2, [])) = .assertFail := by
        split
        · rename_i h
          rcases guard p2 x w2 h (ih2 w2 h x) with ⟨p', y, e, hl⟩ | e
          · left; exact ⟨p', y, e, hl, guardF_skel (fun q z hq => (rawF_skel p2 x q z hq).1) e⟩
          · exact .inr e
        · left; exact ⟨_, _, rfl, by simp; omega, rfl⟩
      unfold rawF
      simp only [Res.assert, ho, decide_true, if_true, Res.ok_bind]
      rcases e1 with ⟨a, ya, ea, la, sa⟩ | ea
      · rw [ea, Res.ok_bind]
        rcases e2 with ⟨b, yb, eb, lb, sb⟩ | eb
        · rw [eb, Res.ok_bind]
          have hlen : (ya ++ yb).length = i.nobj := by simp [la, lb, ho]
          have hw' : Spec.WellFormed (.stacked i a b) :=
            wfskel _ (.stacked i p1 p2) (by simp [skel, sa, sb]) hwfull
          simp only
          split
          · rename_i hpos
            rw [C24_is_feasible _ hw', Res.ok_bind]
            simp only
            split
            · cases hy : ya ++ yb with
              | nil => rw [hy] at hlen; simp only [Prob.info, List.length_nil] at hn hlen; omega
              | cons y0 ys =>
                cases hbv : i.bestValue with
                | none => exact absurd hbv (hb hpos)
                | some bv =>
                  simp only
                  by_cases hd : Dbl.le bv (y0.addRat (1 / 10 ^ 13)) = true
                  · left; simp only [hd, if_true, Res.ok_bind]; exact ⟨_, _, rfl, by rw [← hy]; exact hlen⟩
                  · right; simp only [hd]; rfl
            · left; exact ⟨_, _, rfl, hlen⟩
          · left; exact ⟨_, _, rfl, hlen⟩
        · right; rw [eb]; rfl
      · right; rw [ea]; rfl
  exact guard p x hw hn (raw p hw hn x)

/-- A bi-objective problem made of two basic ones; the premises of C23 are met. -/
example : (evalF (.stacked { nvar := 1, nobj := 2, ncons := 0, bestValue := none }
      (.base { nvar := 1, nobj := 1, ncons := 0, bestValue := none } (fun _ x => [x.headD .nan]) none)
      (.base { nvar := 1, nobj := 1, ncons := 0, bestValue := none } (fun n _ => [.fin n]) none)) [.fin 5]).bind
      (fun r => .ok r.2) = .ok [.fin 5, .fin 0] := by decide +kernel

end Problem
