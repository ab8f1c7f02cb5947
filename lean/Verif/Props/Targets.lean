import Verif.Props.Triggers

/-!
Property C76: logarithmic and linear targets together (`/repo/src/coco_observer.c` lines 234-280).
-/

namespace Triggers

/-- The element at a position is smaller than all earlier ones. -/
def Spec.RecordAt {K : Type} [LinearOrder K] (ts : List K) (i : ℕ) : Prop :=
  ∃ t, ts[i]? = some t ∧ ∀ (j : ℕ) (t' : K), j < i → ts[j]? = some t' → t < t'

theorem recordAt_of_fires {K : Type} [LinearOrder K] {ts : List K} {flags : List Bool}
    (h : Spec.FiresAtRecords ts flags) (i : ℕ) : flags[i]? = some true ↔ Spec.RecordAt ts i := by
  constructor
  · intro hf
    have hi : i < ts.length := by
      rw [← h.1]
      exact (List.getElem?_eq_some_iff.1 hf).1
    exact ⟨ts[i], List.getElem?_eq_getElem hi, (h.2 i _ (List.getElem?_eq_getElem hi)).1 hf⟩
  · rintro ⟨t, ht, hr⟩
    exact (h.2 i t ht).2 hr

theorem targetsRun_both (vs : List ℚ) : ∀ (l l' : LogTargets) (m m' : LinTargets) (f g : List Bool),
    logRun l (vs.map fun v : ℚ => (v : ℝ)) = .ok (f, l') → linRun m vs = .ok (g, m') →
    targetsRun ⟨some l, m⟩ vs = .ok (List.zipWith (· || ·) f g, ⟨some l', m'⟩) := by
  induction vs with
  | nil =>
    intro l l' m m' f g h1 h2
    simp only [List.map_nil, logRun, linRun, Res.ok.injEq, Prod.mk.injEq] at h1 h2
    obtain ⟨rfl, rfl⟩ := h1
    obtain ⟨rfl, rfl⟩ := h2
    rfl
  | cons v vs ih =>
    intro l l' m m' f g h1 h2
    simp only [List.map_cons, logRun, linRun] at h1 h2
    cases e1 : logTrigger l v with
    | ok p =>
      obtain ⟨a, l1⟩ := p
      simp only [e1, Res.ok_bind] at h1
      cases e2 : linTrigger m v with
      | ok q =>
        obtain ⟨b, m1⟩ := q
        simp only [e2, Res.ok_bind] at h2
        cases e3 : logRun l1 (vs.map fun v : ℚ => (v : ℝ)) with
        | ok p =>
          obtain ⟨f', l2⟩ := p
          simp only [e3, Res.ok_bind, Res.ok.injEq, Prod.mk.injEq] at h1
          cases e4 : linRun m1 vs with
          | ok q =>
            obtain ⟨g', m2⟩ := q
            simp only [e4, Res.ok_bind, Res.ok.injEq, Prod.mk.injEq] at h2
            obtain ⟨rfl, rfl⟩ := h1
            obtain ⟨rfl, rfl⟩ := h2
            simp only [targetsRun, targetsTrigger, e1, e2, Res.ok_bind, ih _ _ _ _ _ _ e3 e4, List.zipWith_cons_cons]
          | error => simp [e4, Res.bind] at h2
          | assertFail => simp [e4, Res.bind] at h2
          | ub => simp [e4, Res.bind] at h2
        | error => simp [e3, Res.bind] at h1
        | assertFail => simp [e3, Res.bind] at h1
        | ub => simp [e3, Res.bind] at h1
      | error => simp [e2, Res.bind] at h2
      | assertFail => simp [e2, Res.bind] at h2
      | ub => simp [e2, Res.bind] at h2
    | error => simp [e1, Res.bind] at h1
    | assertFail => simp [e1, Res.bind] at h1
    | ub => simp [e1, Res.bind] at h1

theorem targetsRun_lin (vs : List ℚ) : ∀ (m : LinTargets),
    targetsRun ⟨none, m⟩ vs = (linRun m vs).bind fun (g, m') => .ok (g, ⟨none, m'⟩) := by
  induction vs with
  | nil => intro m; rfl
  | cons v vs ih =>
    intro m
    simp only [targetsRun, targetsTrigger, linRun]
    cases linTrigger m v with
    | ok q =>
      simp only [Res.ok_bind, ih]
      cases linRun q.2 vs with
      | ok r => rfl
      | error => rfl
      | assertFail => rfl
      | ub => rfl
    | error => rfl
    | assertFail => rfl
    | ub => rfl

/-- **C76** (known optima). The trigger fires at exactly the values that reach a new logarithmic or a new linear
target, and the last target is the smallest one reached. -/
theorem C76_targets (dblMax p : ℚ) (n : ℕ) (prec : ℝ) (vs : List ℚ) (hn : 0 < n) (hp : p > 1 / 10 ^ 12)
    (hlin : ∀ v ∈ vs, v + p < dblMax) (hlog : Spec.InRange n prec (vs.map fun v : ℚ => (v : ℝ))) :
    ∃ flags final logs lins, targetsRun (targetsInit dblMax true p n prec) vs = .ok (flags, final) ∧
      List.Forall₂ (fun (v : ℚ) t => Spec.LogReached n prec v t) vs logs ∧
      List.Forall₂ (Spec.LinReached p) vs lins ∧ flags.length = vs.length ∧
      (∀ i : ℕ, flags[i]? = some true ↔ Spec.RecordAt logs i ∨ Spec.RecordAt lins i) ∧
      (vs ≠ [] → IsLeast {t : ℝ | t ∈ logs ∨ ∃ q ∈ lins, (q : ℝ) = t} (lastTarget final)) := by
  obtain ⟨f, l', logs, h1, h2, h3, h4, -⟩ := C25_log_trigger dblMax n prec _ hlog
  obtain ⟨g, m', lins, k1, k2, k3, k4⟩ := C26_lin_trigger dblMax p hp vs hlin
  have hl1 : f.length = vs.length := by
    rw [h3.1, ← h2.length_eq, List.length_map]
  have hl2 : g.length = vs.length := by rw [k3.1, ← k2.length_eq]
  have e : targetsInit dblMax true p n prec = ⟨some (logInit dblMax n prec), ⟨dblMax, p⟩⟩ := by
    unfold targetsInit
    rw [if_pos ⟨hn, rfl⟩]
  refine ⟨_, _, logs, lins, by rw [e]; exact targetsRun_both vs _ _ _ _ _ _ h1 k1, ?_, k2, by simp [hl1, hl2], ?_, ?_⟩
  · rwa [List.forall₂_map_left_iff] at h2
  · intro i
    rw [← recordAt_of_fires h3, ← recordAt_of_fires k3, List.getElem?_zipWith]
    by_cases hi : i < vs.length
    · rw [List.getElem?_eq_getElem (hl1 ▸ hi), List.getElem?_eq_getElem (hl2 ▸ hi)]
      simp
    · rw [List.getElem?_eq_none (by omega), List.getElem?_eq_none (by omega)]
      simp
  · intro hne
    obtain ⟨a1, a2⟩ := h4 (by simpa using hne)
    obtain ⟨b1, b2⟩ := k4 hne
    unfold lastTarget
    dsimp only
    split
    · rename_i hlt
      refine ⟨Or.inl a1, ?_⟩
      rintro t (ht | ⟨q, hq, rfl⟩)
      · exact a2 t ht
      · have : (m'.value : ℝ) ≤ q := by exact_mod_cast b2 q hq
        linarith
    · rename_i hlt
      refine ⟨Or.inr ⟨_, b1, rfl⟩, ?_⟩
      rintro t (ht | ⟨q, hq, rfl⟩)
      · have := a2 t ht
        linarith
      · exact_mod_cast b2 q hq

/-- **C76** (unknown optima, or no logarithmic targets). Only linear targets count. -/
theorem C76_linear_only (dblMax p : ℚ) (n : ℕ) (prec : ℝ) (known : Bool) (vs : List ℚ) (hn : n = 0 ∨ known = false)
    (hp : p > 1 / 10 ^ 12) (hlin : ∀ v ∈ vs, v + p < dblMax) :
    ∃ flags final lins, targetsRun (targetsInit dblMax known p n prec) vs = .ok (flags, final) ∧
      List.Forall₂ (Spec.LinReached p) vs lins ∧ flags.length = vs.length ∧
      (∀ i : ℕ, flags[i]? = some true ↔ Spec.RecordAt lins i) ∧
      (vs ≠ [] → ∃ q ∈ lins, (q : ℝ) = lastTarget final ∧ ∀ q' ∈ lins, q ≤ q') := by
  obtain ⟨g, m', lins, k1, k2, k3, k4⟩ := C26_lin_trigger dblMax p hp vs hlin
  have e : targetsInit dblMax known p n prec = ⟨none, ⟨dblMax, p⟩⟩ := by
    unfold targetsInit
    rw [if_neg]
    rintro ⟨h1, h2⟩
    rcases hn with h | h
    · omega
    · rw [h] at h2; simp at h2
  refine ⟨g, ⟨none, m'⟩, lins, by rw [e, targetsRun_lin, k1]; rfl, k2, by rw [k3.1, ← k2.length_eq],
    recordAt_of_fires k3, ?_⟩
  intro hne
  obtain ⟨b1, b2⟩ := k4 hne
  exact ⟨_, b1, rfl, b2⟩

/-- The hypotheses of `C76_targets` hold for the default number of targets and precisions. -/
example : (∀ v ∈ ([5, 0, -3] : List ℚ), v + 10 < 2 ^ 1024 - 2 ^ 971) ∧
    Spec.InRange 100 (1 / 10 ^ 8) (([5, 0, -3] : List ℚ).map fun v : ℚ => (v : ℝ)) := by
  refine ⟨by decide +kernel, ?_⟩
  have : (([5, 0, -3] : List ℚ).map fun v : ℚ => (v : ℝ)) = [5, 0, -3] := by norm_num
  rw [this]
  exact inRange_example

end Triggers
