import Verif.Model.Watched
import Verif.Props.Problem

/-!
# Problems under observers: C94, C95
-/

namespace Watched
open Problem (Prob Info vectorIsFinite bind_eq_ok)

namespace Spec

/-- The problem under all observers. -/
def bottom : Obj → Prob
  | .plain p => p
  | .logger _ _ q => bottom q

/-- A well-formed problem under any number of loggers, as `coco_problem_add_observer` makes them. -/
def Proper : Obj → Prop
  | .plain p => Problem.Spec.WellFormed p
  | .logger _ i q => Proper q ∧ i.ncons = q.info.ncons

/-- An evaluation of the objectives, or of the constraints of a problem that has constraints. -/
def IsEval (ncons : Nat) : Op → Prop
  | .evalF _ => True
  | .evalC _ => ncons > 0
  | _ => False

/-- The solution of an evaluation of the objectives and the values returned for it. -/
def Evaluated (ops : List Op) (outs : List Out) (x y : List Dbl) : Prop :=
  ∃ j : Nat, ops[j]? = some (Op.evalF x) ∧ outs[j]? = some (Out.values y)

/-- The value that the bbob logger takes for the value of a solution: the noise-free value if there is one. -/
def shown (noiseFree : Option (List Dbl → Dbl)) (x : List Dbl) (y : Dbl) : Dbl :=
  match noiseFree with
  | some g => g x
  | none => y

end Spec

/-- An object with all changing fields reset. -/
def skel : Obj → Obj
  | .plain p => .plain (Problem.skel p)
  | .logger k i q => .logger k (Problem.reset i) (skel q)

theorem skel_setInfo (o : Obj) (i : Info) (h : Problem.reset i = Problem.reset o.info) : skel (o.setInfo i) = skel o := by
  cases o with
  | plain p => exact congrArg Obj.plain (Problem.skel_setInfo p i h)
  | logger k j q => simp only [Obj.setInfo, skel]; rw [h]; rfl

@[simp] theorem setInfo_info (o : Obj) (i : Info) : (o.setInfo i).info = i := by
  cases o with
  | plain p => exact Problem.setInfo_info p i
  | logger k j q => rfl

@[simp] theorem setInfo_setInfo (o : Obj) (i j : Info) : (o.setInfo i).setInfo j = o.setInfo j := by
  cases o with
  | plain p => exact congrArg Obj.plain (Problem.setInfo_setInfo p i j)
  | logger k l q => rfl

theorem bottom_skel (o : Obj) : Spec.bottom (skel o) = Problem.skel (Spec.bottom o) := by
  induction o with
  | plain p => rfl
  | logger k i q ih => exact ih

theorem skel_info (o : Obj) : (skel o).info = Problem.reset o.info := by
  cases o with
  | plain p => exact Problem.skel_info p
  | logger k i q => rfl

theorem ncons_of_skel {o o' : Obj} (h : skel o' = skel o) : o'.info.ncons = o.info.ncons := by
  have := congrArg (fun r => r.info.ncons) h
  simpa [skel_info, Problem.reset] using this

theorem wellFormed_skel (p : Prob) : Problem.Spec.WellFormed (Problem.skel p) ↔ Problem.Spec.WellFormed p := by
  induction p with
  | base i f c => simp [Problem.skel, Problem.Spec.WellFormed, Problem.reset]
  | wrap i tx ty txc tc q ih => simp [Problem.skel, Problem.Spec.WellFormed, Problem.reset, ih]
  | stacked i p1 p2 ih1 ih2 => simp [Problem.skel, Problem.Spec.WellFormed, Problem.reset, ih1, ih2]

theorem proper_skel (o : Obj) : Spec.Proper (skel o) ↔ Spec.Proper o := by
  induction o with
  | plain p => exact wellFormed_skel p
  | logger k i q ih => simp only [skel, Spec.Proper, ih, skel_info, Problem.reset]

theorem proper_of_skel {o o' : Obj} (h : skel o' = skel o) (hp : Spec.Proper o) : Spec.Proper o' := by
  rw [← proper_skel, h, proper_skel]
  exact hp

theorem feasible_of_skel {o o' : Obj} (h : skel o' = skel o) (x : List Dbl) :
    Problem.Spec.feasible (Spec.bottom o') x = Problem.Spec.feasible (Spec.bottom o) x :=
  Problem.feasible_of_skel (by rw [← bottom_skel, h, bottom_skel]) x

theorem ncons_bottom {o : Obj} (h : Spec.Proper o) : (Spec.bottom o).info.ncons = o.info.ncons := by
  induction o with
  | plain p => rfl
  | logger k i q ih => exact (ih h.1).trans h.2.symm

theorem hasCons_proper {o : Obj} (h : Spec.Proper o) (hc : o.info.ncons > 0) : o.hasCons = true := by
  cases o with
  | plain p => exact Problem.hasCons_of_wf h hc
  | logger k i q => rfl

/-- The constraint functions can be evaluated without counting, which changes nothing. -/
theorem rawCons_ok (o : Obj) (h : Spec.Proper o) (hc : o.info.ncons > 0) (x : List Dbl) :
    ∃ z, rawCons o x false = .ok (o, z) ∧
      (Problem.Spec.finite x = true → z = Problem.Spec.constraints (Spec.bottom o) x) := by
  induction o with
  | plain p =>
    obtain ⟨⟨q, z⟩, e⟩ := Problem.rawCons_total p h hc x false
    unfold rawCons
    rw [e, Res.ok_bind, Problem.rawCons_false _ _ _ _ e, Problem.rawCons_value _ _ _ _ _ e]
    exact ⟨_, rfl, fun _ => rfl⟩
  | logger k i q ih =>
    have hcq : q.info.ncons > 0 := by have := h.2; simp only [Obj.info] at hc; omega
    obtain ⟨z, e, hz⟩ := ih h.1 hcq
    unfold rawCons guardCons
    rw [if_neg (by rw [hasCons_proper h.1 hcq]; simp)]
    split
    · refine ⟨_, rfl, fun hx => ?_⟩
      rename_i hi
      rw [← Problem.finite_split, hi] at hx
      exact absurd hx.1 (by simp)
    · split
      · refine ⟨_, rfl, fun hx => ?_⟩
        rename_i hi
        rw [← Problem.finite_split, hi] at hx
        exact absurd hx.2 (by simp)
      · rw [e]
        exact ⟨z, rfl, hz⟩

theorem peek_ok (o : Obj) (h : Spec.Proper o) (ncons : Nat) (hc : ncons = o.info.ncons) (x : List Dbl) :
    peek ncons o x = .ok o := by
  unfold peek
  split
  · obtain ⟨z, e, -⟩ := rawCons_ok o h (by omega) x
    rw [e]
    rfl
  · rfl

theorem isFeasible_ok (o : Obj) (h : Spec.Proper o) (x : List Dbl) :
    isFeasible o x = .ok (o, Problem.Spec.feasible (Spec.bottom o) x) := by
  unfold isFeasible Problem.Spec.feasible
  have hn := ncons_bottom h
  split
  · rename_i hx
    have : Problem.Spec.finite x = false := hx
    rw [this]
    rfl
  · rename_i hx
    have hx : Problem.Spec.finite x = true := by simpa [vectorIsFinite, Problem.Spec.finite] using hx
    split
    · rename_i hc
      rw [hx, hn, hc]
      rfl
    · rename_i hc
      obtain ⟨z, e, hz⟩ := rawCons_ok o h (by omega) x
      rw [hasCons_proper h (by omega), e, hx, hn]
      simp only [Res.assert, if_true, Res.ok_bind, hc, decide_false, Bool.false_or, Bool.true_and, hz hx]
      rw [List.not_any_eq_all_not]

/-- The update of the fields in `coco_evaluate_function`. -/
def updated (i : Info) (feasible : Bool) (y0 : Dbl) : Info :=
  if Dbl.lt y0 i.bestF && feasible then { i with evals := i.evals + 1, bestF := y0, bestEval := i.evals + 1 }
  else { i with evals := i.evals + 1 }

theorem reset_updated (i : Info) (b : Bool) (y0 : Dbl) : Problem.reset (updated i b y0) = Problem.reset i := by
  unfold updated
  split <;> rfl

/-- `coco_evaluate_function` after the function of the problem has been evaluated. -/
theorem guardF_finite {o o1 : Obj} {x : List Dbl} {y0 : Dbl} {ys : List Dbl} (hx : Problem.Spec.finite x = true)
    (h1 : Spec.Proper o1) {raw : Res (Obj × List Dbl)} (hraw : raw = .ok (o1, y0 :: ys)) :
    guardF o x raw = .ok (o1.setInfo (updated o1.info (Problem.Spec.feasible (Spec.bottom o1) x) y0), y0 :: ys) := by
  obtain ⟨hi, hn⟩ := (Problem.finite_split x).2 hx
  unfold guardF updated
  rw [if_neg (by simp [hi]), if_neg (by simp [hn]), hraw, Res.ok_bind]
  dsimp only
  rw [setInfo_info]
  dsimp only
  cases hlt : Dbl.lt y0 o1.info.bestF with
  | false => simp
  | true =>
    simp only [if_true, Bool.true_and]
    set e := o1.setInfo { o1.info with evals := o1.info.evals + 1 } with he
    have hs : skel e = skel o1 := skel_setInfo _ _ rfl
    have hp : Spec.Proper e := proper_of_skel hs h1
    have hf : isFeasible e x = .ok (e, Problem.Spec.feasible (Spec.bottom o1) x) := by
      rw [isFeasible_ok e hp x, feasible_of_skel hs]
    have hres : (if o1.info.ncons > 0 then isFeasible e x else .ok (e, true)) =
        .ok (e, Problem.Spec.feasible (Spec.bottom o1) x) := by
      split
      · exact hf
      · rename_i hc
        have h0 : o1.info.ncons = 0 := by omega
        unfold Problem.Spec.feasible
        rw [hx, ncons_bottom h1, h0]
        rfl
    rw [hres, Res.ok_bind]
    dsimp only
    split
    · rw [he]
      simp
    · rfl

theorem guardF_inv {o o' : Obj} {x y : List Dbl} {raw : Res (Obj × List Dbl)} (hx : Problem.Spec.finite x = true)
    (hp : ∀ o1 y, raw = .ok (o1, y) → Spec.Proper o1) (h : guardF o x raw = .ok (o', y)) :
    ∃ o1 y0 ys, raw = .ok (o1, y) ∧ y = y0 :: ys ∧
      o' = o1.setInfo (updated o1.info (Problem.Spec.feasible (Spec.bottom o1) x) y0) := by
  obtain ⟨hi, hn⟩ := (Problem.finite_split x).2 hx
  have h' := h
  unfold guardF at h'
  rw [if_neg (by simp [hi]), if_neg (by simp [hn])] at h'
  obtain ⟨⟨o1, z⟩, e1, e2⟩ := bind_eq_ok h'
  cases z with
  | nil => simp at e2
  | cons y0 ys =>
    rw [guardF_finite hx (hp _ _ e1) e1] at h
    obtain ⟨rfl, rfl⟩ := Prod.mk.inj (Res.ok.inj h)
    exact ⟨o1, y0, ys, e1, rfl, rfl⟩

theorem guardF_nonfinite {o : Obj} {x : List Dbl} (hx : Problem.Spec.finite x = false) (raw : Res (Obj × List Dbl)) :
    guardF o x raw = .ok (o, List.replicate o.info.nobj (if x.any Dbl.isInf then .pinf else .nan)) := by
  unfold guardF
  split
  · rfl
  · rename_i h1
    split
    · rfl
    · rename_i h2
      have := (Problem.finite_split x).1 ⟨by simpa using h1, by simpa using h2⟩
      rw [this] at hx
      simp at hx

/-- Evaluation keeps everything but the counters; an object's own fields are only changed by `coco_evaluate_function`. -/
theorem rawF_skel (o : Obj) (h : Spec.Proper o) : ∀ x, Problem.Spec.finite x = true → ∀ o' y, rawF o x = .ok (o', y) →
    skel o' = skel o ∧ o'.info = o.info := by
  induction o with
  | plain p =>
    intro x _ o' y e
    unfold rawF at e
    obtain ⟨⟨q, z⟩, e1, e2⟩ := bind_eq_ok e
    obtain ⟨rfl, -⟩ := Prod.mk.inj (Res.ok.inj e2)
    obtain ⟨a, b⟩ := Problem.rawF_skel _ _ _ _ e1
    exact ⟨congrArg Obj.plain a, b⟩
  | logger k i q ih =>
    intro x hx o' y e
    have key : ∀ q' y, guardF q x (rawF q x) = .ok (q', y) → skel q' = skel q := by
      intro q' y e
      obtain ⟨o1, y0, ys, e1, -, rfl⟩ := guardF_inv hx (fun o1 y e => proper_of_skel (ih h.1 x hx _ _ e).1 h.1) e
      rw [skel_setInfo _ _ (reset_updated _ _ _)]
      exact (ih h.1 x hx _ _ e1).1
    have fin : ∀ q', skel q' = skel q → peek i.ncons q' x = .ok q' := fun q' hs =>
      peek_ok q' (proper_of_skel hs h.1) _ (by rw [ncons_of_skel hs]; exact h.2) x
    unfold rawF at e
    cases k with
    | toy =>
      obtain ⟨⟨q', z⟩, e1, e2⟩ := bind_eq_ok e
      obtain ⟨rfl, -⟩ := Prod.mk.inj (Res.ok.inj e2)
      exact ⟨by simp only [skel, key _ _ e1], rfl⟩
    | rw =>
      obtain ⟨⟨q', z⟩, e1, e2⟩ := bind_eq_ok e
      dsimp only at e2
      rw [fin _ (key _ _ e1)] at e2
      obtain ⟨rfl, -⟩ := Prod.mk.inj (Res.ok.inj e2)
      exact ⟨by simp only [skel, key _ _ e1], rfl⟩
    | biobj =>
      obtain ⟨⟨q', z⟩, e1, e2⟩ := bind_eq_ok e
      dsimp only at e2
      rw [fin _ (key _ _ e1)] at e2
      obtain ⟨rfl, -⟩ := Prod.mk.inj (Res.ok.inj e2)
      exact ⟨by simp only [skel, key _ _ e1], rfl⟩
    | bbob c m g =>
      obtain ⟨f, -, e⟩ := bind_eq_ok e
      split at e
      · simp at e
      · obtain ⟨⟨q', z⟩, e1, e2⟩ := bind_eq_ok e
        dsimp only at e2
        split at e2
        · simp at e2
        · obtain ⟨-, -, e2⟩ := bind_eq_ok e2
          rw [fin _ (key _ _ e1)] at e2
          obtain ⟨rfl, -⟩ := Prod.mk.inj (Res.ok.inj e2)
          exact ⟨by simp only [skel, key _ _ e1], rfl⟩

theorem evalF_skel {o o' : Obj} {x y : List Dbl} (h : Spec.Proper o) (e : evalF o x = .ok (o', y)) : skel o' = skel o := by
  unfold evalF at e
  cases hx : Problem.Spec.finite x with
  | false =>
    rw [guardF_nonfinite hx] at e
    obtain ⟨rfl, -⟩ := Prod.mk.inj (Res.ok.inj e)
    rfl
  | true =>
    obtain ⟨o1, y0, ys, e1, -, rfl⟩ := guardF_inv hx (fun o1 y e => proper_of_skel (rawF_skel o h x hx _ _ e).1 h) e
    rw [skel_setInfo _ _ (reset_updated _ _ _)]
    exact (rawF_skel o h x hx _ _ e1).1

/-- The object of a logger after its inner object has been evaluated and the logger's function has returned. -/
theorem logger_step {k : Kind} {q q' : Obj} {x y : List Dbl} (hx : Problem.Spec.finite x = true) (h : Spec.Proper q)
    (e : evalF q x = .ok (q', y)) (hraw : rawF (.logger k q.info q) x = .ok (.logger k q.info q', y)) :
    evalF (observe k q) x = .ok (observe k q', y) := by
  have hs := evalF_skel h e
  obtain ⟨o1, y0, ys, e1, rfl, rfl⟩ := guardF_inv hx (fun o1 y e => proper_of_skel (rawF_skel q h x hx _ _ e).1 h) e
  obtain ⟨hs1, hi1⟩ := rawF_skel q h x hx _ _ e1
  have hp : Spec.Proper (.logger k q.info (o1.setInfo (updated o1.info (Problem.Spec.feasible (Spec.bottom o1) x) y0))) :=
    ⟨proper_of_skel hs h, (ncons_of_skel hs).symm⟩
  unfold evalF observe
  rw [guardF_finite hx hp hraw]
  change Res.ok (Obj.logger k (updated q.info (Problem.Spec.feasible (Spec.bottom (o1.setInfo _)) x) y0) _, _) =
    Res.ok (Obj.logger k (o1.setInfo _).info _, _)
  rw [feasible_of_skel hs, setInfo_info, feasible_of_skel hs1, hi1]

/-- Evaluation of the objectives under the toy, the rw or the biobj logger. -/
theorem evalF_observe {k : Kind} (hk : k = .toy ∨ k = .rw ∨ k = .biobj) {q : Obj} (h : Spec.Proper q) (x : List Dbl) :
    evalF (observe k q) x = (evalF q x).bind fun (q', y) => .ok (observe k q', y) := by
  cases hx : Problem.Spec.finite x with
  | false =>
    unfold evalF
    rw [guardF_nonfinite hx, guardF_nonfinite hx]
    rfl
  | true =>
    cases e : evalF q x with
    | ok r =>
      obtain ⟨q', y⟩ := r
      rw [Res.ok_bind]
      refine logger_step hx h e ?_
      have hs := evalF_skel h e
      have hpk := peek_ok q' (proper_of_skel hs h) _ (ncons_of_skel hs).symm x
      unfold evalF at e
      unfold rawF
      rcases hk with rfl | rfl | rfl <;> dsimp only <;> rw [e, Res.ok_bind] <;> dsimp only <;> rw [hpk] <;> rfl
    | _ =>
      obtain ⟨hi, hn⟩ := (Problem.finite_split x).2 hx
      unfold evalF at e
      unfold evalF observe guardF
      rw [if_neg (by simp [hi]), if_neg (by simp [hn])]
      unfold rawF
      rcases hk with rfl | rfl | rfl <;> dsimp only <;> rw [e] <;> rfl

theorem guardCons_ok {o : Obj} (hc : o.hasCons = true) (x : List Dbl) (update : Bool) (raw : Res (Obj × List Dbl)) :
    guardCons o x update raw =
      if Problem.Spec.finite x = true then raw.bind fun (o1, y) =>
        .ok (if update then o1.setInfo { o1.info with evalsCons := o1.info.evalsCons + 1 } else o1, y)
      else .ok (o, List.replicate o.info.ncons (if x.any Dbl.isInf then .pinf else .nan)) := by
  unfold guardCons
  rw [if_neg (by simp [hc])]
  cases hx : Problem.Spec.finite x with
  | true =>
    obtain ⟨hi, hn⟩ := (Problem.finite_split x).2 hx
    rw [if_neg (by simp [hi]), if_neg (by simp [hn])]
    rfl
  | false =>
    simp only [Bool.false_eq_true, if_false]
    by_cases h1 : x.any Dbl.isInf = true
    · rw [if_pos h1, if_pos h1]
    · by_cases h2 : x.any Dbl.isNan = true
      · rw [if_neg h1, if_pos h2, if_neg h1]
      · have := (Problem.finite_split x).1 ⟨by simpa using h1, by simpa using h2⟩
        rw [this] at hx
        simp at hx

theorem rawCons_skel (o : Obj) : ∀ x update o' y, rawCons o x update = .ok (o', y) → skel o' = skel o ∧ o'.info = o.info := by
  induction o with
  | plain p =>
    intro x u o' y e
    unfold rawCons at e
    obtain ⟨⟨q, z⟩, e1, e2⟩ := bind_eq_ok e
    obtain ⟨rfl, -⟩ := Prod.mk.inj (Res.ok.inj e2)
    obtain ⟨a, b⟩ := Problem.rawCons_skel _ _ _ _ _ e1
    exact ⟨congrArg Obj.plain a, b⟩
  | logger k i q ih =>
    intro x u o' y e
    unfold rawCons at e
    obtain ⟨⟨q', z⟩, e1, e2⟩ := bind_eq_ok e
    obtain ⟨rfl, -⟩ := Prod.mk.inj (Res.ok.inj e2)
    refine ⟨?_, rfl⟩
    have : skel q' = skel q := by
      cases hc : q.hasCons with
      | false =>
        unfold guardCons at e1
        rw [if_pos hc] at e1
        simp at e1
      | true =>
        rw [guardCons_ok hc] at e1
        split at e1
        · obtain ⟨⟨o1, z⟩, e3, e4⟩ := bind_eq_ok e1
          obtain ⟨rfl, -⟩ := Prod.mk.inj (Res.ok.inj e4)
          have := (ih _ _ _ _ e3).1
          cases u with
          | true =>
            rw [if_pos rfl, skel_setInfo]
            · exact this
            · rfl
          | false => exact this
        · obtain ⟨rfl, -⟩ := Prod.mk.inj (Res.ok.inj e1)
          rfl
    simp only [skel, this]

theorem evalCons_skel {o o' : Obj} {x y : List Dbl} (hc : o.hasCons = true) (e : evalCons o x = .ok (o', y)) :
    skel o' = skel o := by
  unfold evalCons at e
  rw [guardCons_ok hc] at e
  split at e
  · obtain ⟨⟨o1, z⟩, e3, e4⟩ := bind_eq_ok e
    obtain ⟨rfl, -⟩ := Prod.mk.inj (Res.ok.inj e4)
    rw [if_pos rfl, skel_setInfo]
    · exact (rawCons_skel _ _ _ _ _ e3).1
    · rfl
  · obtain ⟨rfl, -⟩ := Prod.mk.inj (Res.ok.inj e)
    rfl

/-- Evaluation of the constraints under any logger. -/
theorem evalCons_observe (k : Kind) {q : Obj} (hc : q.hasCons = true) (x : List Dbl) :
    evalCons (observe k q) x = (evalCons q x).bind fun (q', y) => .ok (observe k q', y) := by
  unfold evalCons
  rw [guardCons_ok hc, guardCons_ok (show (observe k q).hasCons = true from rfl)]
  split
  · rename_i hx
    have hl : rawCons (observe k q) x true = (guardCons q x true (rawCons q x true)).bind fun (q', y) =>
      .ok (.logger k q.info q', y) := rfl
    rw [hl, guardCons_ok hc, if_pos hx]
    cases e : rawCons q x true with
    | ok r =>
      obtain ⟨q', y⟩ := r
      have := (rawCons_skel _ _ _ _ _ e).2
      simp only [Res.ok_bind, if_true, observe, setInfo_info]
      rw [this]
      rfl
    | _ => rfl
  · rfl

/-! ### C94 -/

theorem step_skel {o o' : Obj} {op : Op} {out : Out} (h : Spec.Proper o) (hop : Spec.IsEval o.info.ncons op)
    (e : step o op = .ok (o', out)) : skel o' = skel o := by
  cases op with
  | evalF x =>
    obtain ⟨⟨q, y⟩, e1, e2⟩ := bind_eq_ok e
    obtain ⟨rfl, -⟩ := Prod.mk.inj (Res.ok.inj e2)
    exact evalF_skel h e1
  | evalC x =>
    obtain ⟨⟨q, y⟩, e1, e2⟩ := bind_eq_ok e
    obtain ⟨rfl, -⟩ := Prod.mk.inj (Res.ok.inj e2)
    exact evalCons_skel (hasCons_proper h hop) e1
  | recommend x => exact hop.elim
  | bestParameter => exact hop.elim

theorem step_observe {k : Kind} (hk : k = .toy ∨ k = .rw ∨ k = .biobj) {o : Obj} (h : Spec.Proper o) {op : Op}
    (hop : Spec.IsEval o.info.ncons op) :
    step (observe k o) op = (step o op).bind fun (o', out) => .ok (observe k o', out) := by
  cases op with
  | evalF x =>
    unfold step
    dsimp only
    rw [evalF_observe hk h]
    cases evalF o x <;> rfl
  | evalC x =>
    unfold step
    dsimp only
    rw [evalCons_observe k (hasCons_proper h hop)]
    cases evalCons o x <;> rfl
  | recommend x => exact hop.elim
  | bestParameter => exact hop.elim

/-- **C94.** Under the toy, the rw or the biobj logger every sequence of evaluations of the objectives and of the constraints returns the
same values as without it, or fails in the same way, and the observed problem has the same counters, best observed value and
other fields as the problem has without it; the problem itself ends in the same state. The problem may have observers already. -/
theorem C94_transparent (k : Kind) (hk : k = .toy ∨ k = .rw ∨ k = .biobj) (o : Obj) (h : Spec.Proper o) (ops : List Op)
    (hops : ∀ op ∈ ops, Spec.IsEval o.info.ncons op) :
    run (observe k o) ops = (run o ops).bind fun (o', outs) => .ok (.logger k o'.info o', outs) := by
  induction ops generalizing o with
  | nil => rfl
  | cons op ops ih =>
    unfold run
    rw [step_observe hk h (hops op (by simp))]
    cases e : step o op with
    | ok r =>
      obtain ⟨o1, out⟩ := r
      have hs := step_skel h (hops op (by simp)) e
      simp only [Res.ok_bind]
      rw [ih o1 (proper_of_skel hs h) (fun op hop => by rw [ncons_of_skel hs]; exact hops op (by simp [hop]))]
      cases run o1 ops <;> rfl
    | _ => rfl

theorem updated_tainted (i : Info) (b : Bool) (y0 : Dbl) : (updated i b y0).tainted = i.tainted := by
  unfold updated
  split <;> rfl

theorem step_tainted {o o' : Obj} {op : Op} {out : Out} (h : Spec.Proper o) (hop : Spec.IsEval o.info.ncons op)
    (e : step o op = .ok (o', out)) : o'.info.tainted = o.info.tainted := by
  cases op with
  | evalF x =>
    obtain ⟨⟨q, y⟩, e1, e2⟩ := bind_eq_ok e
    obtain ⟨rfl, -⟩ := Prod.mk.inj (Res.ok.inj e2)
    unfold evalF at e1
    cases hx : Problem.Spec.finite x with
    | false =>
      rw [guardF_nonfinite hx] at e1
      obtain ⟨rfl, -⟩ := Prod.mk.inj (Res.ok.inj e1)
      rfl
    | true =>
      obtain ⟨o1, y0, ys, e3, -, rfl⟩ := guardF_inv hx (fun o1 y e => proper_of_skel (rawF_skel o h x hx _ _ e).1 h) e1
      rw [setInfo_info, updated_tainted, (rawF_skel o h x hx _ _ e3).2]
  | evalC x =>
    obtain ⟨⟨q, y⟩, e1, e2⟩ := bind_eq_ok e
    obtain ⟨rfl, -⟩ := Prod.mk.inj (Res.ok.inj e2)
    unfold evalCons at e1
    rw [guardCons_ok (hasCons_proper h hop)] at e1
    split at e1
    · obtain ⟨⟨o1, z⟩, e3, e4⟩ := bind_eq_ok e1
      obtain ⟨rfl, -⟩ := Prod.mk.inj (Res.ok.inj e4)
      rw [if_pos rfl, setInfo_info]
      change o1.info.tainted = _
      rw [(rawCons_skel _ _ _ _ _ e3).2]
    · obtain ⟨rfl, -⟩ := Prod.mk.inj (Res.ok.inj e1)
      rfl
  | recommend x => exact hop.elim
  | bestParameter => exact hop.elim

theorem evalF_bbob {o o' : Obj} {x y : List Dbl} {y0 : Dbl} {ys : List Dbl} {c : Bool} {m : ℚ} {g : Option (List Dbl → Dbl)}
    (h : Spec.Proper o) (hx : Problem.Spec.finite x = true) (ht : o.info.tainted = false)
    (e : evalF o x = .ok (o', y)) (hy : y = y0 :: ys) :
    evalF (observe (.bbob c m g) o) x =
      if c = true ∧ Problem.Spec.feasible (Spec.bottom o) x = true ∧
          ¬ LoggerBbob.loggedValue (Spec.shown g x y0) + 1 / 10 ^ 13 ≥ m then .assertFail
      else .ok (observe (.bbob c m g) o', y) := by
  subst hy
  have hs := evalF_skel h e
  have hpk := peek_ok o' (proper_of_skel hs h) _ (ncons_of_skel hs).symm x
  have hfe : feasibility o.info.ncons o x = .ok (Problem.Spec.feasible (Spec.bottom o) x) := by
    unfold feasibility
    split
    · rename_i hc
      unfold Problem.Spec.feasible
      rw [hx, ncons_bottom h, hc]
      rfl
    · rw [isFeasible_ok o h x]
      rfl
  have hraw : rawF (.logger (.bbob c m g) o.info o) x =
      (sane c m (Problem.Spec.feasible (Spec.bottom o) x) (Spec.shown g x y0)).bind fun _ =>
        .ok (.logger (.bbob c m g) o.info o', y0 :: ys) := by
    have e' := e
    unfold evalF at e'
    unfold rawF
    dsimp only
    rw [hfe, Res.ok_bind, ht, e']
    simp only [Bool.or_false, Bool.false_eq_true, if_false, Res.ok_bind]
    rw [hpk]
    rfl
  split
  · rename_i hb
    obtain ⟨rfl, hf, hm⟩ := hb
    obtain ⟨hi, hn⟩ := (Problem.finite_split x).2 hx
    unfold evalF observe guardF
    rw [if_neg (by simp [hi]), if_neg (by simp [hn]), hraw]
    unfold sane
    rw [hf]
    simp only [Bool.and_self, if_true, Res.assert, decide_eq_true_eq]
    rw [if_neg hm]
    rfl
  · rename_i hb
    refine logger_step hx h e ?_
    rw [hraw]
    unfold sane
    split
    · rename_i hc
      simp only [Bool.and_eq_true] at hc
      have : LoggerBbob.loggedValue (Spec.shown g x y0) + 1 / 10 ^ 13 ≥ m := by
        by_contra hm
        exact hb ⟨hc.1, hc.2, hm⟩
      simp only [Res.assert, this, decide_true, if_true]
      rfl
    · rfl

/-- **C94.** Under the bbob logger the same holds if no best parameter has been asked for and, when the logger knows the optimum,
no feasible evaluated solution has a value (a noise-free value for noisy problems) below it by more than 1e-13. -/
theorem C94_bbob (optKnown : Bool) (optimum : ℚ) (noiseFree : Option (List Dbl → Dbl)) (o o' : Obj) (h : Spec.Proper o)
    (ht : o.info.tainted = false) (ops : List Op) (hops : ∀ op ∈ ops, Spec.IsEval o.info.ncons op) (outs : List Out)
    (hrun : run o ops = .ok (o', outs))
    (hopt : optKnown = true → ∀ x y0 ys, Spec.Evaluated ops outs x (y0 :: ys) →
      Problem.Spec.feasible (Spec.bottom o) x = true →
      LoggerBbob.loggedValue (Spec.shown noiseFree x y0) + 1 / 10 ^ 13 ≥ optimum) :
    run (observe (.bbob optKnown optimum noiseFree) o) ops =
      .ok (.logger (.bbob optKnown optimum noiseFree) o'.info o', outs) := by
  induction ops generalizing o outs with
  | nil =>
    obtain ⟨rfl, rfl⟩ := Prod.mk.inj (Res.ok.inj hrun)
    rfl
  | cons op ops ih =>
    unfold run at hrun ⊢
    obtain ⟨⟨o1, out⟩, e1, e2⟩ := bind_eq_ok hrun
    obtain ⟨⟨o2, outs1⟩, e3, e4⟩ := bind_eq_ok e2
    obtain ⟨rfl, rfl⟩ := Prod.mk.inj (Res.ok.inj e4)
    have hs := step_skel h (hops op (by simp)) e1
    have hstep : step (observe (.bbob optKnown optimum noiseFree) o) op =
        .ok (observe (.bbob optKnown optimum noiseFree) o1, out) := by
      cases op with
      | evalF x =>
        obtain ⟨⟨q, y⟩, e5, e6⟩ := bind_eq_ok e1
        obtain ⟨rfl, rfl⟩ := Prod.mk.inj (Res.ok.inj e6)
        unfold step
        dsimp only
        cases hx : Problem.Spec.finite x with
        | false =>
          unfold evalF at e5 ⊢
          rw [guardF_nonfinite hx] at e5 ⊢
          obtain ⟨rfl, rfl⟩ := Prod.mk.inj (Res.ok.inj e5)
          rfl
        | true =>
          have e7 := e5
          unfold evalF at e7
          obtain ⟨-, y0, ys, -, hy, -⟩ :=
            guardF_inv hx (fun o1 y e => proper_of_skel (rawF_skel o h x hx _ _ e).1 h) e7
          rw [evalF_bbob h hx ht e5 hy, if_neg]
          · rfl
          · rintro ⟨hc, hf, hm⟩
            subst hy
            exact hm (hopt hc x y0 ys ⟨0, rfl, rfl⟩ hf)
      | evalC x =>
        obtain ⟨⟨q, y⟩, e5, e6⟩ := bind_eq_ok e1
        obtain ⟨rfl, rfl⟩ := Prod.mk.inj (Res.ok.inj e6)
        unfold step
        dsimp only
        rw [evalCons_observe _ (hasCons_proper h (hops _ List.mem_cons_self)), e5]
        rfl
      | recommend x => exact (hops _ List.mem_cons_self).elim
      | bestParameter => exact (hops _ List.mem_cons_self).elim
    rw [hstep, Res.ok_bind]
    dsimp only
    rw [ih o1 (proper_of_skel hs h) (by rw [step_tainted h (hops op (by simp)) e1]; exact ht)
      (fun op hop => by rw [ncons_of_skel hs]; exact hops op (by simp [hop])) outs1 e3]
    · rfl
    · rintro hc x y0 ys ⟨j, h1, h2⟩ hf
      rw [feasible_of_skel hs] at hf
      exact hopt hc x y0 ys ⟨j + 1, h1, h2⟩ hf

/-- **C94.** Otherwise the bbob logger stops the process: an evaluation at a finite point after the best parameter was asked for, or
an evaluation of a feasible solution with a value below the known optimum by more than 1e-13. -/
theorem C94_bbob_stops (optKnown : Bool) (optimum : ℚ) (noiseFree : Option (List Dbl → Dbl)) (o : Obj) (h : Spec.Proper o)
    (x : List Dbl) (hx : Problem.Spec.finite x = true) :
    (o.info.tainted = true → evalF (observe (.bbob optKnown optimum noiseFree) o) x = .error) ∧
    (o.info.tainted = false → optKnown = true → Problem.Spec.feasible (Spec.bottom o) x = true →
      ∀ o' y0 ys, evalF o x = .ok (o', y0 :: ys) →
      LoggerBbob.loggedValue (Spec.shown noiseFree x y0) + 1 / 10 ^ 13 < optimum →
      evalF (observe (.bbob optKnown optimum noiseFree) o) x = .assertFail) := by
  constructor
  · intro ht
    obtain ⟨hi, hn⟩ := (Problem.finite_split x).2 hx
    have hfe : ∃ b, feasibility o.info.ncons o x = .ok b := by
      unfold feasibility
      split
      · exact ⟨_, rfl⟩
      · rw [isFeasible_ok o h x]
        exact ⟨_, rfl⟩
    obtain ⟨b, hb⟩ := hfe
    unfold evalF observe guardF
    rw [if_neg (by simp [hi]), if_neg (by simp [hn])]
    unfold rawF
    dsimp only
    rw [hb, Res.ok_bind, ht]
    rfl
  · intro ht hc hf o' y0 ys e hlt
    rw [evalF_bbob h hx ht e rfl, if_pos ⟨hc, hf, not_le.2 hlt⟩]

/-- Asking for the best parameter gives the same answer with an observer, but marks only the outermost object. -/
theorem bestParameter_observe (k : Kind) (o : Obj) :
    (getBestParameter (observe k o)).2 = (getBestParameter o).2 ∧
    ∃ i, (getBestParameter (observe k o)).1 = .logger k i o := by
  have hi : (observe k o).info = o.info := rfl
  unfold getBestParameter
  rw [hi]
  by_cases hc : o.info.hasBestParameter = false ∨ o.info.nobj ≠ 1
  · rw [if_pos hc, if_pos hc]
    exact ⟨rfl, _, rfl⟩
  · rw [if_neg hc, if_neg hc]
    exact ⟨rfl, _, rfl⟩

/-- The constrained example of C24 with the optimum 0, and a problem with known best parameter. -/
def exConstrained : Obj := .plain Problem.exConstrained

/-- A problem with one variable and one objective, without constraints, with a best parameter. -/
def exPlain : Obj :=
  .plain (.base { nvar := 1, nobj := 1, ncons := 0, bestValue := some (.fin 0), hasBestParameter := true }
    (fun _ x => x.take 1 ++ List.replicate (1 - x.length) .nan) none)

/-- The fields and returned values that the examples below compare. -/
def view (r : Res (Obj × List Out)) : Res (Nat × Nat × Dbl × Nat × List (List Dbl)) :=
  r.bind fun (o, outs) => .ok (o.info.evals, o.info.evalsCons, o.info.bestF, o.info.bestEval,
    outs.map fun
      | .values y => y
      | _ => [])

/-- C94 is not vacuous: a constrained problem under a bbob, a rw, a toy and a biobj logger. -/
example : Spec.Proper exConstrained ∧
    view (run (observe .biobj (observe .toy (observe .rw (observe (.bbob true 0 none) exConstrained))))
      [.evalF [.fin 2], .evalF [.fin (1 / 2)], .evalC [.fin 3], .evalF [.nan], .evalF [.fin 1]]) =
    .ok (3, 1, .fin (1 / 2), 2, [[.fin 2], [.fin (1 / 2)], [.fin 2], [.nan], [.fin 1]]) ∧
    (evalF (observe (.bbob true 0 none) exConstrained) [.fin (-1)]).bind (fun r => .ok r.2) = .assertFail := by
  refine ⟨⟨fun n x => ?_, by simp, fun g hg x => ?_⟩, ?_, ?_⟩
  · simp only [List.length_append, List.length_take, List.length_replicate]
    omega
  · cases Option.some.inj hg
    dsimp only
    split
    · split <;> rfl
    · rfl
  · decide +kernel
  · decide +kernel

/-- **C94, remark.** The bbob logger's refusal to evaluate after the best parameter was asked for does not work under another logger:
only the outermost object is marked, and the bbob logger below it does not see the mark. -/
theorem C94_mark_not_seen :
    (run (observe (.bbob false 0 none) exPlain) [.bestParameter, .evalF [.fin 3]]).bind (fun r => .ok r.2.length) = .error ∧
    (run (observe .rw (observe (.bbob false 0 none) exPlain)) [.bestParameter, .evalF [.fin 3]]).bind
      (fun r => .ok r.2.length) = .ok 2 := by
  constructor <;> decide +kernel

/-! ### C95 -/

namespace Spec

/-- Only toy and rw loggers. -/
def NoEvaluatingLogger : Obj → Prop
  | .plain _ => True
  | .logger k _ q => (k = .toy ∨ k = .rw) ∧ NoEvaluatingLogger q

end Spec

/-- **C95.** Recommending a solution changes none of the fields of the observed problem: neither the numbers of evaluations nor the best
observed value. -/
theorem C95_getters (o o' : Obj) (x : List Dbl) (h : recommend o x = .ok o') : o'.info = o.info := by
  cases o with
  | plain p =>
    cases Res.ok.inj h
    rfl
  | logger k i q =>
    unfold recommend at h
    cases k with
    | toy => obtain ⟨q', -, e⟩ := bind_eq_ok h; cases Res.ok.inj e; rfl
    | rw => obtain ⟨q', -, e⟩ := bind_eq_ok h; cases Res.ok.inj e; rfl
    | biobj =>
      obtain ⟨⟨q', y⟩, -, e⟩ := bind_eq_ok h
      obtain ⟨q'', -, e⟩ := bind_eq_ok e
      cases Res.ok.inj e
      rfl
    | bbob c m g =>
      obtain ⟨b, -, e⟩ := bind_eq_ok h
      obtain ⟨⟨q', y⟩, -, e⟩ := bind_eq_ok e
      cases y with
      | nil => simp at e
      | cons y0 ys =>
        obtain ⟨-, -, e⟩ := bind_eq_ok e
        obtain ⟨q'', -, e⟩ := bind_eq_ok e
        cases Res.ok.inj e
        rfl

/-- **C95.** Under no, toy and rw loggers recommending a solution does nothing at all. -/
theorem C95_no_effect_partial (o : Obj) (h : Spec.NoEvaluatingLogger o) (x : List Dbl) : recommend o x = .ok o := by
  induction o with
  | plain p => rfl
  | logger k i q ih =>
    unfold recommend
    rcases h with ⟨rfl | rfl, hq⟩ <;> dsimp only <;> rw [ih hq] <;> rfl

/-- **C95, the missing part.** Under the bbob or the biobj logger a recommended solution is evaluated like any other: the problem without
the observer ends in the state in which an evaluation leaves it. -/
theorem C95_recommendation_is_evaluation (k : Kind) (hk : k = .biobj ∨ ∃ c m g, k = .bbob c m g) (o o' : Obj)
    (h : Spec.Proper o) (x : List Dbl) (hr : recommend (observe k o) x = .ok o') :
    ∃ y, evalF o x = .ok (unobserve o', y) := by
  rcases hk with rfl | ⟨c, m, g, rfl⟩
  · unfold observe recommend at hr
    obtain ⟨⟨q', y⟩, e1, e⟩ := bind_eq_ok hr
    obtain ⟨q'', e2, e⟩ := bind_eq_ok e
    have hs := evalF_skel h e1
    rw [peek_ok q' (proper_of_skel hs h) _ (ncons_of_skel hs).symm x] at e2
    cases Res.ok.inj e2
    cases Res.ok.inj e
    exact ⟨y, e1⟩
  · unfold observe recommend at hr
    obtain ⟨b, -, e⟩ := bind_eq_ok hr
    obtain ⟨⟨q', y⟩, e1, e⟩ := bind_eq_ok e
    cases y with
    | nil => simp at e
    | cons y0 ys =>
      obtain ⟨-, -, e⟩ := bind_eq_ok e
      obtain ⟨q'', e2, e⟩ := bind_eq_ok e
      have hs := evalF_skel h e1
      rw [peek_ok q' (proper_of_skel hs h) _ (ncons_of_skel hs).symm x] at e2
      cases Res.ok.inj e2
      cases Res.ok.inj e
      exact ⟨_, e1⟩

/-- **C95, the missing part.** So the problem's number of evaluations increases with every recommendation of a finite point. -/
theorem C95_counted (k : Kind) (hk : k = .biobj ∨ ∃ c m g, k = .bbob c m g) (o o' : Obj)
    (h : Spec.Proper o) (x : List Dbl) (hx : Problem.Spec.finite x = true) (hr : recommend (observe k o) x = .ok o') :
    (unobserve o').info.evals = o.info.evals + 1 := by
  obtain ⟨y, e⟩ := C95_recommendation_is_evaluation k hk o o' h x hr
  unfold evalF at e
  obtain ⟨o1, y0, ys, e1, -, e2⟩ := guardF_inv hx (fun o1 y e => proper_of_skel (rawF_skel o h x hx _ _ e).1 h) e
  rw [e2, setInfo_info, ← (rawF_skel o h x hx _ _ e1).2]
  unfold updated
  split <;> rfl

/-- A recommendation under a bbob logger hits the target of the problem below it, although no evaluation was made, and under two bbob
loggers the inner one takes it for an evaluation. -/
example :
    (run (observe (.bbob true 0 none) exPlain) [.recommend [.fin 0]]).bind (fun r =>
      .ok (r.1.info.evals, r.1.info.bestF == .fin 0, (unobserve r.1).info.evals, (unobserve r.1).info.bestF == .fin 0)) =
      .ok (0, false, 1, true) ∧
    (run (observe (.bbob true 0 none) (observe (.bbob true 0 none) exPlain)) [.recommend [.fin 0]]).bind (fun r =>
      .ok (r.1.info.evals, (unobserve r.1).info.evals, (unobserve (unobserve r.1)).info.evals)) = .ok (0, 1, 1) := by
  constructor <;> decide +kernel

end Watched
