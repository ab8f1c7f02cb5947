import Mathlib.Tactic.Ring
import Verif.Lemmas.Memory
import Verif.Model.MemorySuites

namespace Memory

/-- A problem with `k` objectives that owns `L`. -/
def Made (k : Nat) (p : Prob) (L : Multiset Blk) : Prop := Owns p L ∧ p.fields.nObj = k

theorem wrap_le {p : Prob} {L : Multiset Blk} (e : Env) (t : Transform) (h : Owns p L)
    (hn : p.fields.nObj ≤ 1) :
    Tr L (wrap e t p) (fun q L' => Owns q L' ∧ q.fields.nObj = p.fields.nObj ∧
      q.fields.nCons = p.fields.nCons ∧ q.fields.initial.isSome = p.fields.initial.isSome) := by
  refine Tr.conseq (wrap_ok e t h) ?_
  rintro q _ ⟨k, Lq, rfl, hk, hq, h1, h2, h3⟩
  have : k = 0 := by
    rw [leak, if_neg (by omega)] at hk
    exact Multiset.card_eq_zero.mp hk
  subst this
  rw [add_zero]
  exact ⟨hq, h1, h2, h3⟩

theorem wrapAll_le (e : Env) : ∀ (ts : List Transform) {p : Prob} {L : Multiset Blk}, Owns p L →
    p.fields.nObj ≤ 1 →
    Tr L (wrapAll e ts p) (fun q L' => Owns q L' ∧ q.fields.nObj = p.fields.nObj ∧
      q.fields.nCons = p.fields.nCons ∧ q.fields.initial.isSome = p.fields.initial.isSome)
  | [], p, L, h, _ => Tr.pure' ⟨h, rfl, rfl, rfl⟩
  | t :: ts, p, L, h, hn => by
    unfold wrapAll
    refine Tr.bind' (wrap_le e t h hn) ?_
    rintro q Lq ⟨hq, h1, h2, h3⟩
    refine Tr.conseq (wrapAll_le e ts hq (by omega)) ?_
    rintro r Lr ⟨hr, g1, g2, g3⟩
    exact ⟨hr, g1.trans h1, g2.trans h2, g3.trans h3⟩

/-- Each wrapper of a problem with more than one objective loses one block. -/
theorem wrapAll_ok (e : Env) : ∀ (ts : List Transform) {p : Prob} {L : Multiset Blk}, Owns p L →
    Tr L (wrapAll e ts p) (fun q L' => ∃ k Lq, L' = Lq + k ∧ k.card = ts.length * leak p.fields ∧
      Owns q Lq ∧ q.fields.nObj = p.fields.nObj)
  | [], p, L, h => Tr.pure' ⟨0, L, by simp, by simp, h, rfl⟩
  | t :: ts, p, L, h => by
    unfold wrapAll
    refine Tr.bind' (wrap_ok e t h) ?_
    rintro q _ ⟨k, Lq, rfl, hk, hq, h1, -⟩
    refine Tr.conseq (Tr.frame k (wrapAll_ok e ts hq)) ?_
    rintro r _ ⟨_, rfl, k', Lr, rfl, hk', hr, g1⟩
    refine ⟨k' + k, Lr, by abel, ?_, hr, g1.trans h1⟩
    have : leak q.fields = leak p.fields := by unfold leak; rw [h1]
    rw [Multiset.card_add, hk', hk, this, List.length_cons]
    ring

/-! ### The suites of single-objective problems -/

theorem callFor_ok (e : Env) {o : Option (List Stmt)} (h : (o.all sound && o.isSome) = true) :
    Tr 0 (callFor e o) (Made 1) := by
  cases o with
  | none => simp at h
  | some ss => exact call_ok e (by simpa using h)

theorem bbob_ok {f : Nat} (n : Nat) (h1 : 1 ≤ f) (h2 : f ≤ 24) : Tr 0 (bbobProblem f n) (Made 1) := by
  refine callFor_ok _ ?_
  have : ∀ k < 24, ((bbobScript (k + 1)).all sound && (bbobScript (k + 1)).isSome) = true := by
    decide +kernel
  have := this (f - 1) (by omega)
  rwa [show f - 1 + 1 = f by omega] at this

theorem largescale_ok {f : Nat} (n : Nat) (h1 : 1 ≤ f) (h2 : f ≤ 24) :
    Tr 0 (largescaleProblem f n) (Made 1) := by
  refine callFor_ok _ ?_
  have : ∀ k < 24, ((largescaleScript (k + 1)).all sound && (largescaleScript (k + 1)).isSome) = true := by
    decide +kernel
  have := this (f - 1) (by omega)
  rwa [show f - 1 + 1 = f by omega] at this

theorem toy_ok {f : Nat} (n : Nat) (h1 : 1 ≤ f) (h2 : f ≤ 6) : Tr 0 (toyProblem f n) (Made 1) := by
  refine callFor_ok _ ?_
  have : ∀ k < 6, ((toyScript (k + 1)).all sound && (toyScript (k + 1)).isSome) = true := by
    decide +kernel
  have := this (f - 1) (by omega)
  rwa [show f - 1 + 1 = f by omega] at this

theorem wrap_made {p : Prob} {L : Multiset Blk} (e : Env) (t : Transform) (h : Made 1 p L) :
    Tr L (wrap e t p) (Made 1) := wrap_whole e t h

theorem onFields_made {k : Nat} {m : Fields → M Fields} (hm : Sets m) {p : Prob} {L : Multiset Blk}
    (h : Made k p L) : Tr L (onFields m p) (Made k) := by
  refine Tr.conseq (onFields_ok hm h.1) ?_
  rintro q L' ⟨hq, hn, -⟩
  exact ⟨hq, by rw [hn]; exact h.2⟩

theorem sbox_ok {f : Nat} (n : Nat) (h1 : 1 ≤ f) (h2 : f ≤ 24) : Tr 0 (sboxProblem f n) (Made 1) := by
  refine Tr.bind' (bbob_ok n h1 h2) ?_
  intro p L h
  exact wrap_made _ _ h

theorem noisy_ok {f : Nat} (n : Nat) (h1 : 101 ≤ f) (h2 : f ≤ 130) :
    Tr 0 (noisyProblem f n) (Made 1) := by
  have : ∀ k < 30, ((noisyScript (k + 101)).all (fun r => sound r.1) &&
      (noisyScript (k + 101)).isSome) = true := by
    decide +kernel
  have := this (f - 101) (by omega)
  rw [show f - 101 + 101 = f by omega] at this
  unfold noisyProblem
  cases hs : noisyScript f with
  | none => simp [hs] at this
  | some r =>
    obtain ⟨ss, t⟩ := r
    refine Tr.bind' (call_ok _ (by simpa [hs] using this)) ?_
    intro p L h
    exact wrap_made _ _ h

theorem cont_ok {f : Nat} (n : Nat) (h1 : 1 ≤ f) (h2 : f ≤ 24) : Tr 0 (contProblem f n) (Made 1) := by
  unfold contProblem
  split
  · exact bbob_ok n h1 h2
  · exact largescale_ok n h1 h2

theorem mixint_ok {f n : Nat} (h1 : 1 ≤ f) (h2 : f ≤ 24) (hn : n % 5 = 0) :
    Tr 0 (mixintProblem f n) (Made 1) := by
  unfold mixintProblem
  rw [if_neg (by simp [hn])]
  refine Tr.allocB fun a => ?_
  refine Tr.allocB fun b => ?_
  refine Tr.bindF ({b} + ({a} + 0)) (by abel) (cont_ok n h1 h2) ?_
  intro p L hp
  refine Tr.bindF ({b} + ({a} + 0)) rfl (wrap_made _ _ hp) ?_
  intro p L hp
  refine Tr.bindF ({b} + ({a} + 0)) rfl (wrap_made _ _ hp) ?_
  intro p L hp
  refine Tr.bindF ({b} + ({a} + 0)) rfl (onFields_made setIdF_ok hp) ?_
  intro p L hp
  refine Tr.bindF ({b} + ({a} + 0)) rfl (onFields_made setNameF_ok hp) ?_
  intro p L hp
  refine Tr.freeB (L + {b}) (by abel) ?_
  refine Tr.freeB L (by abel) ?_
  exact Tr.pure' hp

/-! ### Constrained problems -/

/-- Constraints: no objective, at least one constraint, with an initial solution. -/
def IsCons (p : Prob) (L : Multiset Blk) : Prop :=
  Owns p L ∧ p.fields.nObj = 0 ∧ 0 < p.fields.nCons ∧ p.fields.initial.isSome = true

theorem onFields_cons {m : Fields → M Fields} (hm : Sets m) {p : Prob} {L : Multiset Blk}
    (h : IsCons p L) : Tr L (onFields m p) IsCons := by
  refine Tr.conseq (onFields_ok hm h.1) ?_
  rintro q L' ⟨hq, h1, h2, h3⟩
  exact ⟨hq, by rw [h1]; exact h.2.1, by rw [h2]; exact h.2.2.1, by rw [h3]; exact h.2.2.2⟩

theorem sumVariables_ok (e : Env) : Tr 0 (sumVariables e) (fun p L => Owns p L ∧
    p.fields.nObj = 0 ∧ p.fields.nCons = 1 ∧ p.fields.initial.isSome = false) := by
  unfold sumVariables
  refine Tr.bind' (newFields_ok 0 1) ?_
  rintro f _ ⟨rfl, hw, h1, h2, h3, -⟩
  refine Tr.bind' (setIdF_ok f) ?_
  rintro g _ ⟨rfl, g1, g2, g3, g4⟩
  refine Tr.pure' ⟨⟨?_, 0, by simp [Prob.fields], ?_⟩, ?_, ?_, ?_⟩
  · show g.WF
    unfold Fields.WF at *; rw [g1, g3, hw]
  · exact Tr.pure' rfl
  · show g.nObj = 0
    rw [g1, h1]
  · show g.nCons = 1
    rw [g2, h2]
  · show g.initial.isSome = false
    rw [g4, h3]; rfl

theorem setInitial_ok {p : Prob} {L : Multiset Blk} (h : Owns p L)
    (hi : p.fields.initial.isSome = false) :
    Tr L (setInitial p) (fun q L' => Owns q L' ∧ q.fields.nObj = p.fields.nObj ∧
      q.fields.nCons = p.fields.nCons ∧ q.fields.initial.isSome = true) := by
  obtain ⟨hw, Lb, rfl, hf⟩ := h
  unfold setInitial
  refine Tr.allocB fun b => ?_
  refine Tr.pure' ⟨⟨?_, Lb, ?_, ?_⟩, ?_, ?_, ?_⟩
  · rw [fields_withFields]; exact hw
  · rw [fields_withFields]
    cases hin : p.fields.initial with
    | some c => simp [hin] at hi
    | none =>
      simp only [Fields.blocks, hin, ob_none, ob_some]
      abel
  · rw [freeRest_withFields]; exact hf
  · rw [fields_withFields]
  · rw [fields_withFields]
  · rw [fields_withFields]; rfl

theorem withGradient_ok (e : Env) {p : Prob} {L : Multiset Blk} (given : Bool) (h : Owns p L)
    (hn : p.fields.nObj ≤ 1) :
    Tr L (withGradient e p given) (fun q L' => Owns q L' ∧ q.fields.nObj = p.fields.nObj ∧
      q.fields.nCons = p.fields.nCons ∧ q.fields.initial.isSome = p.fields.initial.isSome) := by
  cases given with
  | true => exact wrap_le e _ h hn
  | false =>
    unfold withGradient
    refine Tr.allocB fun b => ?_
    refine Tr.bindF {b} (by abel) (wrap_le e _ h hn) ?_
    rintro q Lq hq
    refine Tr.freeB Lq (by abel) ?_
    exact Tr.pure' hq

theorem single_ok (e : Env) (given : Bool) : Tr 0 (singleConstraint e given) IsCons := by
  unfold singleConstraint
  refine Tr.bind' (sumVariables_ok e) ?_
  rintro p L ⟨hp, h1, h2, h3⟩
  refine Tr.allocB fun g => ?_
  refine Tr.bindF {g} (by abel) (withGradient_ok e given hp (by omega)) ?_
  rintro q Lq ⟨hq, q1, q2, q3⟩
  refine Tr.bindF {g} rfl (setInitial_ok hq (by rw [q3, h3])) ?_
  rintro r Lr ⟨hr, r1, r2, r3⟩
  have hc : IsCons r Lr := ⟨hr, by omega, by omega, r3⟩
  refine Tr.bindF {g} rfl (onFields_cons setIdF_ok hc) ?_
  intro p L hp
  refine Tr.bindF {g} rfl (onFields_cons setNameF_ok hp) ?_
  intro p L hp
  refine Tr.bindF {g} rfl (onFields_cons setTypeF_ok hp) ?_
  intro p L hp
  refine Tr.freeB L (by abel) ?_
  exact Tr.pure' hp

theorem stackConstraints_ok (e : Env) : ∀ (rest : List Bool) {p : Prob} {L : Multiset Blk},
    IsCons p L → Tr L (stackConstraints e p rest) IsCons
  | [], p, L, h => Tr.pure' h
  | given :: rest, p, L, h => by
    unfold stackConstraints
    refine Tr.bindF L (by abel) (single_ok e given) ?_
    intro q Lq hq
    refine Tr.bindF 0 (by abel) (stack_ok h.1 hq.1) ?_
    rintro r Lr ⟨hr, r1, r2, r3⟩
    rw [add_zero]
    have hc : IsCons r Lr := ⟨hr, by rw [r1, h.2.1, hq.2.1], by have := hq.2.2.1; omega,
      by rw [r3 hq.2.2.1]; exact hq.2.2.2⟩
    refine Tr.bind' (onFields_cons setNameF_ok hc) ?_
    intro r L hr
    refine Tr.bind' (onFields_cons setIdF_ok hr) ?_
    intro r L hr
    refine Tr.bind' (onFields_cons setTypeF_ok hr) ?_
    intro r L hr
    exact stackConstraints_ok e rest hr

theorem linearConstraints_ok (e : Env) (first : Bool) (rest : List Bool) :
    Tr 0 (linearConstraints e first rest) IsCons := by
  unfold linearConstraints
  refine Tr.allocB fun a => ?_
  refine Tr.allocB fun b => ?_
  refine Tr.allocB fun c => ?_
  refine Tr.allocB fun d => ?_
  refine Tr.bindF ({d} + ({c} + ({b} + ({a} + 0)))) (by abel) (single_ok e first) ?_
  intro p L hp
  refine Tr.bindF ({d} + ({c} + ({b} + ({a} + 0)))) rfl (stackConstraints_ok e rest hp) ?_
  intro p L hp
  refine Tr.freeB (L + ({d} + ({c} + {a}))) (by abel) ?_
  refine Tr.freeB (L + ({d} + {c})) (by abel) ?_
  refine Tr.freeB (L + {d}) (by abel) ?_
  refine Tr.freeB L (by abel) ?_
  exact Tr.pure' hp

theorem consFrom_ok (e : Env) {ss : List Stmt} (ts : List Transform) (first : Bool)
    (rest : List Bool) (h : sound ss = true) :
    Tr 0 (consFrom e ss ts first rest) (Made 1) := by
  unfold consFrom
  refine Tr.allocB fun z => ?_
  refine Tr.bindF ({z} + 0) (by abel) (call_ok e h) ?_
  intro p L hp
  refine Tr.bindF (L + ({z} + 0)) (by abel) (linearConstraints_ok e first rest) ?_
  intro c Lc hc
  refine Tr.dupOptB fun ty _ => ?_
  refine Tr.bindF (ob ty + {z}) (P := L + Lc) (by abel) (stack_ok hp.1 hc.1) ?_
  rintro r Lr ⟨hr, r1, r2, r3⟩
  have rn : r.fields.nObj = 1 := by rw [r1, hp.2, hc.2.1]
  refine Tr.bindF (ob ty + {z}) rfl (wrapAll_le e ts hr (by omega)) ?_
  rintro q Lq ⟨hq, q1, q2, q3⟩
  have qi : q.fields.initial ≠ none := by
    intro h0
    rw [h0, r3 hc.2.2.1, hc.2.2.2] at q3
    cases q3
  have inv : invInitial ts q = pure () := by
    unfold invInitial
    rw [if_neg (fun h => qi h.2)]
  rw [inv]
  refine Tr.pureB ?_
  have hm : Made 1 q Lq := ⟨hq, q1.trans rn⟩
  refine Tr.bindF (ob ty + {z}) rfl (wrap_made e _ hm) ?_
  intro q Lq hq
  refine Tr.bindF (ob ty + {z}) rfl (onFields_made setTypeF_ok hq) ?_
  intro q Lq hq
  refine Tr.freeOptB (Lq + {z}) (by abel) ?_
  refine Tr.freeB Lq (by abel) ?_
  exact Tr.pure' hq

theorem constrained_ok {f : Nat} (n : Nat) (first : Bool) (rest : List Bool) (h1 : 1 ≤ f)
    (h2 : f ≤ 54) : Tr 0 (constrainedProblem f n first rest) (Made 1) := by
  have : ∀ k < 9, ((consScript (k + 1)).all (fun r => sound r.1) &&
      (consScript (k + 1)).isSome) = true := by
    decide +kernel
  have := this ((f + 5) / 6 - 1) (by omega)
  rw [show (f + 5) / 6 - 1 + 1 = (f + 5) / 6 by omega] at this
  unfold constrainedProblem
  cases hs : consScript ((f + 5) / 6) with
  | none => simp [hs] at this
  | some r =>
    obtain ⟨ss, ts⟩ := r
    refine Tr.allocB fun a => ?_
    refine Tr.allocB fun b => ?_
    refine Tr.bindF ({b} + ({a} + 0)) (by abel)
      (consFrom_ok _ ts first rest (by simpa [hs] using this)) ?_
    intro p L hp
    refine Tr.bindF ({b} + ({a} + 0)) rfl (wrap_made _ _ hp) ?_
    intro p L hp
    refine Tr.freeB (L + {a}) (by abel) ?_
    refine Tr.freeB L (by abel) ?_
    refine Tr.bind' (onFields_made setIdF_ok hp) ?_
    intro p L hp
    exact onFields_made setNameF_ok hp

/-! ### Bi-objective problems -/

/-- Two single-objective problems stacked. -/
def Pair (r : Prob) (L : Multiset Blk) : Prop :=
  ∃ f d p q Lp Lq, r = .stacked f d p q ∧ L = f.blocks + {d} + Lp + Lq ∧ f.WF ∧ f.nObj = 2 ∧
    Made 1 p Lp ∧ Made 1 q Lq

theorem Pair.made {r : Prob} {L : Multiset Blk} (h : Pair r L) : Made 2 r L := by
  obtain ⟨f, d, p, q, Lp, Lq, rfl, rfl, hw, hn, hp, hq⟩ := h
  refine ⟨⟨hw, {d} + Lp + Lq, ?_, ?_⟩, hn⟩
  · show _ = f.blocks + _
    abel
  · refine Tr.bindF ({d} + Lq) (by abel) hp.1.frees ?_
    rintro _ _ rfl
    refine Tr.bindF {d} (by abel) hq.1.frees ?_
    rintro _ _ rfl
    rw [zero_add]
    exact Tr.free' d

theorem stack_pair {p q : Prob} {L L' : Multiset Blk} (hp : Made 1 p L) (hq : Made 1 q L') :
    Tr (L + L') (stack p q) Pair := by
  unfold stack
  refine Tr.bindF (L + L') (by abel) (newFields_ok _ _) ?_
  rintro f _ ⟨rfl, hw, hn, hc, hi, hname, hid, hty⟩
  refine Tr.allocB fun s => ?_
  refine Tr.allocB fun id => ?_
  refine Tr.freeB ({id} + (f.blocks + (L + L'))) (by abel) ?_
  refine Tr.allocB fun s => ?_
  refine Tr.allocB fun name => ?_
  refine Tr.freeB ({name} + ({id} + (f.blocks + (L + L')))) (by abel) ?_
  refine Tr.dupOptB fun initial _ => ?_
  refine Tr.allocB fun d => ?_
  refine Tr.pure' ⟨_, d, p, q, L, L', rfl, ?_, hw, ?_, hp, hq⟩
  · simp only [Fields.blocks, hi, hname, hid, hty, ob_none, ob_some]
    abel
  · show f.nObj = 2
    rw [hn, hp.2, hq.2]

theorem onFields_pair {m : Fields → M Fields} (hm : Sets m) {r : Prob} {L : Multiset Blk}
    (h : Pair r L) : Tr L (onFields m r) Pair := by
  obtain ⟨f, d, p, q, Lp, Lq, rfl, rfl, hw, hn, hp, hq⟩ := h
  refine Tr.bindF ({d} + Lp + Lq) (P := f.blocks) (by abel) (hm f) ?_
  rintro g _ ⟨rfl, g1, g2, g3, -⟩
  refine Tr.pure' ⟨g, d, p, q, Lp, Lq, rfl, by abel, ?_, by rw [g1, hn], hp, hq⟩
  unfold Fields.WF at *; rw [g1, g3, hw]

theorem biobjOf_ok {first second : M Prob} (h1 : Tr 0 first (Made 1)) (h2 : Tr 0 second (Made 1)) :
    Tr 0 (biobjOf first second) Pair := by
  unfold biobjOf
  refine Tr.allocB fun a => ?_
  refine Tr.allocB fun b => ?_
  refine Tr.bindF ({b} + {a}) (by abel) h1 ?_
  intro p L hp
  refine Tr.bindF (L + ({b} + {a})) (by abel) h2 ?_
  intro q L' hq
  refine Tr.bindF ({b} + {a}) (P := L + L') (by abel) (stack_pair hp hq) ?_
  intro r Lr hr
  refine Tr.bindF ({b} + {a}) rfl (onFields_pair setNameF_ok hr) ?_
  intro r Lr hr
  refine Tr.bindF ({b} + {a}) rfl (onFields_pair setIdF_ok hr) ?_
  intro r Lr hr
  refine Tr.bindF ({b} + {a}) rfl (onFields_pair setTypeF_ok hr) ?_
  intro r Lr hr
  refine Tr.freeB (Lr + {b}) (by abel) ?_
  refine Tr.freeB Lr (by abel) ?_
  exact Tr.pure' hr

theorem dup_made {p : Prob} {L : Multiset Blk} (h : Made 1 p L) :
    Tr L (dupFields p.fields) (fun g L' => ∃ Lq, L' = Lq + p.fields.blocks ∧
      Made 1 (p.withFields g) Lq) := by
  obtain ⟨⟨hw, Lb, rfl, hf⟩, hn⟩ := h
  refine Tr.frame' (p.fields.blocks + Lb) (by abel) (dupFields_ok hw) ?_
  rintro g _ ⟨k, rfl, hk, gw, g1, -⟩
  have : k = 0 := by
    rw [leak, if_neg (by omega)] at hk
    exact Multiset.card_eq_zero.mp hk
  subst this
  refine ⟨g.blocks + Lb, by abel, ⟨?_, Lb, ?_, ?_⟩, ?_⟩
  · rw [fields_withFields]; exact gw
  · rw [fields_withFields]
  · rw [freeRest_withFields]; exact hf
  · rw [fields_withFields, g1, hn]

theorem takeApart_ok {r : Prob} {L : Multiset Blk} (h : Pair r L) :
    Tr L (takeApart r) (fun s L' => ∃ Lp Lq, L' = Lp + Lq ∧ Made 1 s.1 Lp ∧ Made 1 s.2 Lq) := by
  obtain ⟨f, d, p, q, Lp, Lq, rfl, rfl, hw, hn, hp, hq⟩ := h
  unfold takeApart
  refine Tr.bindF (f.blocks + {d} + Lq) (P := Lp) (by abel) (dup_made hp) ?_
  rintro g _ ⟨Kp, rfl, kp⟩
  refine Tr.bindF (f.blocks + {d} + Kp + p.fields.blocks) (P := Lq) (by abel) (dup_made hq) ?_
  rintro h _ ⟨Kq, rfl, kq⟩
  refine Tr.bindF (f.blocks + {d} + Kp + Kq + q.fields.blocks) (by abel)
    (freeGeneric_ok p.fields) ?_
  rintro _ _ rfl
  refine Tr.bindF (f.blocks + {d} + Kp + Kq) (by abel) (freeGeneric_ok q.fields) ?_
  rintro _ _ rfl
  refine Tr.freeB (f.blocks + Kp + Kq) (by abel) ?_
  refine Tr.bindF (Kp + Kq) (by abel) (freeGeneric_ok f) ?_
  rintro _ _ rfl
  exact Tr.pure' ⟨Kp, Kq, by abel, kp, kq⟩

theorem biobjMixint_ok {f1 f2 n : Nat} (h1 : 1 ≤ f1) (h2 : f1 ≤ 24) (h3 : 1 ≤ f2) (h4 : f2 ≤ 24)
    (hn : n % 5 = 0) : Tr 0 (biobjMixintProblem f1 f2 n) Pair := by
  unfold biobjMixintProblem
  rw [if_neg (by simp [hn])]
  refine Tr.allocB fun a => ?_
  refine Tr.allocB fun b => ?_
  refine Tr.bindF ({b} + {a}) (by abel) (biobjOf_ok (cont_ok n h1 h2) (cont_ok n h3 h4)) ?_
  intro r L hr
  refine Tr.bindF ({b} + {a}) rfl (takeApart_ok hr) ?_
  rintro ⟨p, q⟩ _ ⟨Lp, Lq, rfl, hp, hq⟩
  refine Tr.bindF (Lq + ({b} + {a})) (P := Lp) (by abel) (wrap_made _ _ hp) ?_
  intro p Lp hp
  refine Tr.bindF (Lp + ({b} + {a})) (P := Lq) (by abel) (wrap_made _ _ hq) ?_
  intro q Lq hq
  refine Tr.bindF (Lq + ({b} + {a})) (P := Lp) (by abel) (wrap_made _ _ hp) ?_
  intro p Lp hp
  refine Tr.bindF (Lp + ({b} + {a})) (P := Lq) (by abel) (wrap_made _ _ hq) ?_
  intro q Lq hq
  refine Tr.bindF ({b} + {a}) (P := Lp + Lq) (by abel) (stack_pair hp hq) ?_
  intro r Lr hr
  refine Tr.bindF ({b} + {a}) rfl (onFields_pair setNameF_ok hr) ?_
  intro r Lr hr
  refine Tr.bindF ({b} + {a}) rfl (onFields_pair setIdF_ok hr) ?_
  intro r Lr hr
  refine Tr.bindF ({b} + {a}) rfl (onFields_pair setTypeF_ok hr) ?_
  intro r Lr hr
  refine Tr.freeB (Lr + {b}) (by abel) ?_
  refine Tr.freeB Lr (by abel) ?_
  exact Tr.pure' hr

end Memory
