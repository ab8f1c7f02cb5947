import Verif.Model.Problem

/-! Lemmas about the evaluation of problems. -/

namespace Problem

/-- The fields that no evaluation changes. -/
def reset (i : Info) : Info :=
  { i with evals := 0, evalsCons := 0, bestF := .fin Dbl.dblMax, bestEval := 0, tainted := false }

/-- A problem with all changing fields (of all objects) reset. -/
def skel : Prob → Prob
  | .base i f c => .base (reset i) f c
  | .wrap i tx ty txc tc q => .wrap (reset i) tx ty txc tc (skel q)
  | .stacked i p1 p2 => .stacked (reset i) (skel p1) (skel p2)

@[simp] theorem skel_info (p : Prob) : (skel p).info = reset p.info := by cases p <;> rfl

@[simp] theorem setInfo_info (p : Prob) (i : Info) : (p.setInfo i).info = i := by cases p <;> rfl

@[simp] theorem setInfo_self (p : Prob) : p.setInfo p.info = p := by cases p <;> rfl

@[simp] theorem setInfo_setInfo (p : Prob) (i j : Info) : (p.setInfo i).setInfo j = p.setInfo j := by
  cases p <;> rfl

theorem skel_setInfo (p : Prob) (i : Info) (h : reset i = reset p.info) : skel (p.setInfo i) = skel p := by
  cases p <;> simp_all [skel, Prob.setInfo, Prob.info]

theorem nobj_of_skel {p q : Prob} (h : skel p = skel q) : p.info.nobj = q.info.nobj := by
  have := congrArg (fun r => r.info.nobj) h
  simpa [reset] using this

theorem ncons_of_skel {p q : Prob} (h : skel p = skel q) : p.info.ncons = q.info.ncons := by
  have := congrArg (fun r => r.info.ncons) h
  simpa [reset] using this

theorem bestValue_of_skel {p q : Prob} (h : skel p = skel q) : p.info.bestValue = q.info.bestValue := by
  have := congrArg (fun r => r.info.bestValue) h
  simpa [reset] using this

theorem delta_of_skel {p q : Prob} (h : skel p = skel q) : p.info.delta = q.info.delta := by
  have := congrArg (fun r => r.info.delta) h
  simpa [reset] using this

theorem bind_eq_ok {α β : Type} {r : Res α} {f : α → Res β} {b : β} (h : r.bind f = .ok b) :
    ∃ a, r = .ok a ∧ f a = .ok b := by
  cases r <;> simp_all

/-! ### Constraints -/

theorem guardCons_ok {p p' : Prob} {x y : List Dbl} {u : Bool} {raw : Res (Prob × List Dbl)}
    (h : guardCons p x u raw = .ok (p', y)) :
    p.hasCons = true ∧
    ((x.any Dbl.isInf = true ∧ p' = p ∧ y = List.replicate p.info.ncons .pinf) ∨
     (x.any Dbl.isInf = false ∧ x.any Dbl.isNan = true ∧ p' = p ∧ y = List.replicate p.info.ncons .nan) ∨
     (x.any Dbl.isInf = false ∧ x.any Dbl.isNan = false ∧ ∃ q, raw = .ok (q, y) ∧
      p' = if u then q.setInfo { q.info with evalsCons := q.info.evalsCons + 1 } else q)) := by
  unfold guardCons at h
  cases h0 : p.hasCons with
  | false => simp [h0] at h
  | true =>
    refine ⟨rfl, ?_⟩
    cases h1 : x.any Dbl.isInf with
    | true => simp [h0, h1] at h; exact .inl ⟨rfl, h.1.symm, h.2.symm⟩
    | false =>
      cases h2 : x.any Dbl.isNan with
      | true => simp [h0, h1, h2] at h; exact .inr (.inl ⟨rfl, rfl, h.1.symm, h.2.symm⟩)
      | false =>
        simp only [h0, h1, h2] at h
        simp at h
        obtain ⟨⟨q, z⟩, e1, e2⟩ := bind_eq_ok h
        simp at e2
        refine .inr (.inr ⟨rfl, rfl, q, ?_, e2.1.symm⟩)
        rw [e1, e2.2]

theorem rawCons_false (p : Prob) : ∀ x p' y, rawCons p x false = .ok (p', y) → p' = p := by
  induction p with
  | base i f c =>
    intro x p' y h
    cases c with
    | none => simp [rawCons] at h
    | some g => simp [rawCons] at h; exact h.1.symm
  | wrap i tx ty txc tc q ih =>
    intro x p' y h
    unfold rawCons at h
    obtain ⟨⟨q', z⟩, e1, e2⟩ := bind_eq_ok h
    simp at e2
    obtain ⟨_, ⟨_, rfl, _⟩ | ⟨_, _, rfl, _⟩ | ⟨_, _, r, hr, hq⟩⟩ := guardCons_ok e1
    · exact e2.1.symm
    · exact e2.1.symm
    · simp at hq
      have := ih _ _ _ hr
      rw [← e2.1, hq, this]
  | stacked i p1 p2 ih1 ih2 =>
    intro x p' y h
    unfold rawCons at h
    obtain ⟨_, _, h⟩ := bind_eq_ok h
    obtain ⟨⟨a, ya⟩, ea, h⟩ := bind_eq_ok h
    obtain ⟨⟨b, yb⟩, eb, h⟩ := bind_eq_ok h
    simp at h
    have ha : a = p1 := by
      split at ea
      · obtain ⟨_, ⟨_, rfl, _⟩ | ⟨_, _, rfl, _⟩ | ⟨_, _, r, hr, hq⟩⟩ := guardCons_ok ea
        · rfl
        · rfl
        · simp at hq; rw [hq]; exact ih1 _ _ _ hr
      · simp at ea; exact ea.1.symm
    have hb : b = p2 := by
      split at eb
      · obtain ⟨_, ⟨_, rfl, _⟩ | ⟨_, _, rfl, _⟩ | ⟨_, _, r, hr, hq⟩⟩ := guardCons_ok eb
        · rfl
        · rfl
        · simp at hq; rw [hq]; exact ih2 _ _ _ hr
      · simp at eb; exact eb.1.symm
    rw [← h.1, ha, hb]

theorem rawCons_skel (p : Prob) : ∀ x u p' y, rawCons p x u = .ok (p', y) →
    skel p' = skel p ∧ p'.info = p.info := by
  induction p with
  | base i f c =>
    intro x u p' y h
    cases c with
    | none => simp [rawCons] at h
    | some g => simp [rawCons] at h; rw [← h.1]; exact ⟨rfl, rfl⟩
  | wrap i tx ty txc tc q ih =>
    intro x u p' y h
    unfold rawCons at h
    obtain ⟨⟨q', z⟩, e1, e2⟩ := bind_eq_ok h
    simp at e2
    rw [← e2.1]
    refine ⟨?_, rfl⟩
    obtain ⟨_, ⟨_, rfl, _⟩ | ⟨_, _, rfl, _⟩ | ⟨_, _, r, hr, hq⟩⟩ := guardCons_ok e1
    · rfl
    · rfl
    · have := ih _ _ _ _ hr
      have hs : skel q' = skel q := by
        rw [hq]
        split
        · rw [skel_setInfo _ _ (by simp [reset])]; exact this.1
        · exact this.1
      simp [skel, hs]
  | stacked i p1 p2 ih1 ih2 =>
    intro x u p' y h
    unfold rawCons at h
    obtain ⟨_, _, h⟩ := bind_eq_ok h
    obtain ⟨⟨a, ya⟩, ea, h⟩ := bind_eq_ok h
    obtain ⟨⟨b, yb⟩, eb, h⟩ := bind_eq_ok h
    simp at h
    rw [← h.1]
    refine ⟨?_, rfl⟩
    have ha : skel a = skel p1 := by
      split at ea
      · obtain ⟨_, ⟨_, rfl, _⟩ | ⟨_, _, rfl, _⟩ | ⟨_, _, r, hr, hq⟩⟩ := guardCons_ok ea
        · rfl
        · rfl
        · have := ih1 _ _ _ _ hr
          rw [hq]
          split
          · rw [skel_setInfo _ _ (by simp [reset])]; exact this.1
          · exact this.1
      · simp at ea; rw [← ea.1]
    have hb : skel b = skel p2 := by
      split at eb
      · obtain ⟨_, ⟨_, rfl, _⟩ | ⟨_, _, rfl, _⟩ | ⟨_, _, r, hr, hq⟩⟩ := guardCons_ok eb
        · rfl
        · rfl
        · have := ih2 _ _ _ _ hr
          rw [hq]
          split
          · rw [skel_setInfo _ _ (by simp [reset])]; exact this.1
          · exact this.1
      · simp at eb; rw [← eb.1]
    simp [skel, ha, hb]

theorem isFeasible_same {p p' : Prob} {x : List Dbl} {b : Bool} (h : isFeasible p x = .ok (p', b)) :
    p' = p := by
  unfold isFeasible at h
  split at h
  · simp at h; exact h.1.symm
  · split at h
    · simp at h; exact h.1.symm
    · obtain ⟨_, _, h⟩ := bind_eq_ok h
      obtain ⟨⟨q, z⟩, e, h⟩ := bind_eq_ok h
      simp at h
      rw [← h.1]; exact rawCons_false _ _ _ _ e

/-! ### Objectives -/

/-- What `guardF` does, case by case. -/
theorem guardF_ok {p p' : Prob} {x y : List Dbl} {raw : Res (Prob × List Dbl)}
    (h : guardF p x raw = .ok (p', y)) :
    (x.any Dbl.isInf = true ∧ p' = p ∧ y = List.replicate p.info.nobj .pinf) ∨
    (x.any Dbl.isInf = false ∧ x.any Dbl.isNan = true ∧ p' = p ∧ y = List.replicate p.info.nobj .nan) ∨
    (x.any Dbl.isInf = false ∧ x.any Dbl.isNan = false ∧ ∃ q y0 ys, raw = .ok (q, y) ∧ y = y0 :: ys ∧
      let q1 := q.setInfo { q.info with evals := q.info.evals + 1 }
      ((∃ b, (Dbl.lt y0 q.info.bestF && b) = true ∧ (q.info.ncons > 0 → isFeasible q1 x = .ok (q1, b)) ∧
          (q.info.ncons = 0 → b = true) ∧
          p' = q.setInfo { q.info with evals := q.info.evals + 1, bestF := y0, bestEval := q.info.evals + 1 }) ∨
       (∃ b, (Dbl.lt y0 q.info.bestF && b) = false ∧
          (Dbl.lt y0 q.info.bestF = true → q.info.ncons > 0 ∧ isFeasible q1 x = .ok (q1, b)) ∧ p' = q1))) := by
  unfold guardF at h
  cases h1 : x.any Dbl.isInf with
  | true => simp [h1] at h; exact .inl ⟨rfl, h.1.symm, h.2.symm⟩
  | false =>
    cases h2 : x.any Dbl.isNan with
    | true => simp [h1, h2] at h; exact .inr (.inl ⟨rfl, rfl, h.1.symm, h.2.symm⟩)
    | false =>
      simp only [h1, h2] at h
      simp only [Bool.false_eq_true, if_false] at h
      obtain ⟨⟨q, z⟩, e1, e2⟩ := bind_eq_ok h
      refine .inr (.inr ⟨rfl, rfl, q, ?_⟩)
      cases z with
      | nil => simp at e2
      | cons y0 ys =>
        simp only [setInfo_info] at e2
        by_cases hlt : Dbl.lt y0 q.info.bestF = true
        · simp only [hlt, if_true] at e2
          obtain ⟨⟨p2, b⟩, e3, e4⟩ := bind_eq_ok e2
          simp only [Res.ok.injEq, Prod.mk.injEq] at e4
          have hp2 : p2 = q.setInfo { q.info with evals := q.info.evals + 1 } := by
            split at e3
            · exact isFeasible_same e3
            · simp at e3; exact e3.1.symm
          refine ⟨y0, ys, by rw [e1, e4.2], e4.2.symm, ?_⟩
          cases b with
          | true =>
            left
            refine ⟨true, by simp [hlt], ?_, by simp, ?_⟩
            · intro hc
              simp only [hc, if_true] at e3
              rw [e3, hp2]
            · rw [← e4.1, hp2]; simp
          | false =>
            right
            refine ⟨false, by simp, ?_, ?_⟩
            · intro _
              split at e3
              · rename_i hc
                exact ⟨hc, by rw [e3, hp2]⟩
              · simp at e3
            · rw [← e4.1, hp2]; simp
        · simp only [hlt, Bool.false_eq_true, if_false] at e2
          simp only [Res.ok.injEq, Prod.mk.injEq] at e2
          refine ⟨y0, ys, by rw [e1, e2.2], e2.2.symm, .inr ⟨true, by simp [hlt], ?_, e2.1.symm⟩⟩
          intro h; exact absurd h hlt

theorem guardF_skel {p p' : Prob} {x y : List Dbl} {raw : Res (Prob × List Dbl)}
    (hraw : ∀ q z, raw = .ok (q, z) → skel q = skel p)
    (h : guardF p x raw = .ok (p', y)) : skel p' = skel p := by
  obtain ⟨_, rfl, _⟩ | ⟨_, _, rfl, _⟩ | ⟨_, _, q, y0, ys, e, _, ⟨b, _, _, _, rfl⟩ | ⟨b, _, _, rfl⟩⟩ := guardF_ok h
  · rfl
  · rfl
  · rw [skel_setInfo _ _ (by simp [reset])]; exact hraw _ _ e
  · rw [skel_setInfo _ _ (by simp [reset])]; exact hraw _ _ e

theorem rawF_skel (p : Prob) : ∀ x p' y, rawF p x = .ok (p', y) → skel p' = skel p ∧ p'.info = p.info := by
  induction p with
  | base i f c =>
    intro x p' y h
    simp [rawF] at h
    rw [← h.1]; exact ⟨rfl, rfl⟩
  | wrap i tx ty txc tc q ih =>
    intro x p' y h
    unfold rawF at h
    split at h
    · simp at h; rw [← h.1]; exact ⟨rfl, rfl⟩
    · obtain ⟨⟨q', z⟩, e1, e2⟩ := bind_eq_ok h
      simp at e2
      rw [← e2.1]
      refine ⟨?_, rfl⟩
      simp [skel, guardF_skel (fun r z hr => (ih _ _ _ hr).1) e1]
  | stacked i p1 p2 ih1 ih2 =>
    intro x p' y h
    unfold rawF at h
    obtain ⟨_, _, h⟩ := bind_eq_ok h
    obtain ⟨⟨a, ya⟩, ea, h⟩ := bind_eq_ok h
    obtain ⟨⟨b, yb⟩, eb, h⟩ := bind_eq_ok h
    have ha : skel a = skel p1 := by
      split at ea
      · exact guardF_skel (fun r z hr => (ih1 _ _ _ hr).1) ea
      · simp at ea; rw [← ea.1]
    have hb : skel b = skel p2 := by
      split at eb
      · exact guardF_skel (fun r z hr => (ih2 _ _ _ hr).1) eb
      · simp at eb; rw [← eb.1]
    have hp : p' = .stacked i a b := by
      simp only at h
      split at h
      · obtain ⟨⟨c, fb⟩, ec, h⟩ := bind_eq_ok h
        have hc := isFeasible_same ec
        simp only at h
        split at h
        · split at h
          · obtain ⟨_, _, h⟩ := bind_eq_ok h
            simp at h
            rw [← h.1, hc]
          · simp at h
        · simp at h
          rw [← h.1, hc]
      · simp at h
        exact h.1.symm
    rw [hp]
    exact ⟨by simp [skel, ha, hb], rfl⟩

theorem evalF_skel {p p' : Prob} {x y : List Dbl} (h : evalF p x = .ok (p', y)) : skel p' = skel p :=
  guardF_skel (fun q z hq => (rawF_skel p x q z hq).1) h

theorem evalCons_skel {p p' : Prob} {x y : List Dbl} (h : evalCons p x = .ok (p', y)) : skel p' = skel p := by
  obtain ⟨_, ⟨_, rfl, _⟩ | ⟨_, _, rfl, _⟩ | ⟨_, _, r, hr, hq⟩⟩ := guardCons_ok h
  · rfl
  · rfl
  · simp only [if_true] at hq
    rw [hq, skel_setInfo _ _ (by simp [reset])]
    exact (rawCons_skel _ _ _ _ _ hr).1

theorem getBestParameter_skel (p : Prob) : skel (getBestParameter p).1 = skel p := by
  unfold getBestParameter
  split
  · rfl
  · exact skel_setInfo _ _ (by simp [reset])

theorem step_skel {p p' : Prob} {op : Op} {o : Out} (h : step p op = .ok (p', o)) : skel p' = skel p := by
  cases op with
  | evalF x =>
    obtain ⟨⟨q, y⟩, e1, e2⟩ := bind_eq_ok h
    simp at e2; rw [← e2.1]; exact evalF_skel e1
  | evalC x =>
    obtain ⟨⟨q, y⟩, e1, e2⟩ := bind_eq_ok h
    simp at e2; rw [← e2.1]; exact evalCons_skel e1
  | bestParameter =>
    simp [step] at h; rw [← h.1]; exact getBestParameter_skel p

end Problem
