import Mathlib.Tactic
import Verif.Model.Tainted

/-!
# Revealing the optimum ends the benchmarking of a problem (C116)
-/

namespace Tainted

/-! ### Specification -/

/-- The observers of the problem after the given calls, the one added last first. -/
def Spec.stack (h : List Op) : List Kind :=
  h.foldl (fun st op => match op with
    | .add k => k :: st
    | .remove _ => st.tail
    | _ => st) []

/-! ### Lemmas -/

theorem run_append (s : State) (h h' : List Op) :
    run s (h ++ h') = (run s h).bind fun (s, os) => (run s h').bind fun (s, os') => .ok (s, os ++ os') := by
  induction h generalizing s with
  | nil =>
    simp only [List.nil_append, run, Res.ok_bind]
    cases run s h' <;> rfl
  | cons op h ih =>
    simp only [List.cons_append, run]
    cases step s op with
    | ok r =>
      obtain ⟨s, o⟩ := r
      simp only [Res.ok_bind]
      rw [ih]
      cases run s h with
      | ok r =>
        obtain ⟨s, os⟩ := r
        simp only [Res.ok_bind]
        cases run s h' <;> rfl
      | error => rfl
      | assertFail => rfl
      | ub => rfl
    | error => rfl
    | assertFail => rfl
    | ub => rfl

theorem run_snoc {s t : State} {h : List Op} {op : Op} {os : List Out} (e : run s (h ++ [op]) = .ok (t, os)) :
    ∃ s' os' o, run s h = .ok (s', os') ∧ step s' op = .ok (t, o) ∧ os = os' ++ [o] := by
  rw [run_append] at e
  cases e1 : run s h with
  | ok r =>
    obtain ⟨s', os'⟩ := r
    rw [e1, Res.ok_bind] at e
    simp only [run] at e
    cases e2 : step s' op with
    | ok r =>
      obtain ⟨t', o⟩ := r
      simp only [e2, Res.ok_bind, Res.ok.injEq, Prod.mk.injEq] at e
      obtain ⟨rfl, rfl⟩ := e
      exact ⟨s', os', o, rfl, e2, rfl⟩
    | error => simp [e2, Res.bind] at e
    | assertFail => simp [e2, Res.bind] at e
    | ub => simp [e2, Res.bind] at e
  | error => simp [e1, Res.bind] at e
  | assertFail => simp [e1, Res.bind] at e
  | ub => simp [e1, Res.bind] at e

theorem stack_snoc (h : List Op) (op : Op) : Spec.stack (h ++ [op]) = match op with
    | .add k => k :: Spec.stack h
    | .remove _ => (Spec.stack h).tail
    | _ => Spec.stack h := by
  unfold Spec.stack
  rw [List.foldl_append]
  cases op <;> rfl

/-- The marks of the loggers, from the outermost, and of the problem. -/
def flags (s : State) : List Bool := s.layers.map (·.tainted) ++ [s.plain]

theorem isTainted_eq (s : State) : (flags s).head? = some (isTainted s) := by
  obtain ⟨x, p, ls⟩ := s
  cases ls <;> simp [flags, isTainted]

/-- What a call does to loggers, marks and optimum. -/
theorem step_effect {s t : State} {op : Op} {o : Out} (e : step s op = .ok (t, o)) :
    t.optimum = s.optimum ∧
    (match op with
      | .add k => t.layers.map (·.kind) = k :: s.layers.map (·.kind) ∧ flags t = isTainted s :: flags s
      | .remove k => s.layers.map (·.kind) = k :: t.layers.map (·.kind) ∧ flags t = (flags s).tail
      | .ask => t.layers.map (·.kind) = s.layers.map (·.kind) ∧ flags t = true :: (flags s).tail
      | _ => t = s) := by
  obtain ⟨x, p, ls⟩ := s
  cases op with
  | add k =>
    simp only [step, add, Res.ok.injEq, Prod.mk.injEq] at e
    obtain ⟨rfl, -⟩ := e
    simp [flags]
  | remove k =>
    cases ls with
    | nil => simp [step, remove, Res.bind] at e
    | cons l ls =>
      by_cases hk : l.kind = k
      · simp only [step, remove, hk, if_true, Res.ok_bind, Res.ok.injEq, Prod.mk.injEq] at e
        obtain ⟨rfl, -⟩ := e
        simp [flags, hk]
      · simp [step, remove, hk, Res.bind] at e
  | ask =>
    simp only [step, ask, Res.ok.injEq, Prod.mk.injEq] at e
    obtain ⟨rfl, -⟩ := e
    cases ls <;> simp [flags]
  | asked =>
    simp only [step, Res.ok.injEq, Prod.mk.injEq] at e
    exact ⟨by rw [e.1], e.1.symm⟩
  | print =>
    simp only [step, Res.ok.injEq, Prod.mk.injEq] at e
    exact ⟨by rw [e.1], e.1.symm⟩
  | evaluate =>
    simp only [step] at e
    cases h : evaluateLayers p ls with
    | ok ks =>
      simp only [h, Res.ok_bind, Res.ok.injEq, Prod.mk.injEq] at e
      exact ⟨by rw [← e.1], e.1.symm⟩
    | error => simp [h, Res.bind] at e
    | assertFail => simp [h, Res.bind] at e
    | ub => simp [h, Res.bind] at e

theorem run_stack (x : List ℝ) (h : List Op) : ∀ (s : State) (os : List Out), run (start x) h = .ok (s, os) →
    s.layers.map (·.kind) = Spec.stack h ∧ s.optimum = x := by
  induction h using List.reverseRecOn with
  | nil =>
    intro s os e
    simp only [run, Res.ok.injEq, Prod.mk.injEq] at e
    obtain ⟨rfl, -⟩ := e
    exact ⟨rfl, rfl⟩
  | append_singleton h op ih =>
    intro t os e
    obtain ⟨s, os', o, e1, e2, -⟩ := run_snoc e
    obtain ⟨i1, i2⟩ := ih s os' e1
    obtain ⟨k2, k1⟩ := step_effect e2
    rw [stack_snoc]
    refine ⟨?_, by rw [k2, i2]⟩
    cases op with
    | add k => rw [k1.1, i1]
    | remove k => rw [← i1, k1.1]; rfl
    | ask => rw [k1.1, i1]
    | asked => rw [k1, i1]
    | print => rw [k1, i1]
    | evaluate => rw [k1, i1]

theorem flags_length (s : State) : (flags s).length = s.layers.length + 1 := by simp [flags]

/-- After the optimum was asked for with `n` observers, all objects from the `n`-th outwards are marked, as long as no
observer below is removed. -/
theorem run_flags (x : List ℝ) (h₁ h₂ : List Op) :
    (∀ q, q <+: h₂ → (Spec.stack h₁).length ≤ (Spec.stack (h₁ ++ .ask :: q)).length) →
    ∀ (s : State) (os : List Out), run (start x) (h₁ ++ .ask :: h₂) = .ok (s, os) →
    ∀ f ∈ (flags s).take (s.layers.length + 1 - (Spec.stack h₁).length), f = true := by
  induction h₂ using List.reverseRecOn with
  | nil =>
    intro _ t os e f hf
    obtain ⟨s, os', o, e1, e2, -⟩ := run_snoc e
    obtain ⟨-, k1, k2⟩ := step_effect e2
    obtain ⟨i1, -⟩ := run_stack x h₁ s os' e1
    have l1 : t.layers.length = (Spec.stack h₁).length := by rw [← i1, ← k1, List.length_map]
    rw [l1, Nat.add_sub_cancel_left, k2] at hf
    simpa using hf
  | append_singleton h₂ op ih =>
    intro hq t os e f hf
    have e' : run (start x) ((h₁ ++ .ask :: h₂) ++ [op]) = .ok (t, os) := by simpa using e
    obtain ⟨s, os', o, e1, e2, -⟩ := run_snoc e'
    have ih' := ih (fun q hp => hq q (hp.trans (List.prefix_append _ _))) s os' e1
    have b1 := hq h₂ (List.prefix_append _ _)
    have b2 := hq (h₂ ++ [op]) List.prefix_rfl
    obtain ⟨i1, -⟩ := run_stack x _ s os' e1
    obtain ⟨i2, -⟩ := run_stack x _ t os e
    have l1 : s.layers.length = (Spec.stack (h₁ ++ .ask :: h₂)).length := by rw [← i1, List.length_map]
    have l2 : t.layers.length = (Spec.stack (h₁ ++ .ask :: (h₂ ++ [op]))).length := by rw [← i2, List.length_map]
    rw [← l1] at b1
    rw [← l2] at b2
    obtain ⟨-, k⟩ := step_effect e2
    have top : isTainted s = true := by
      refine ih' _ ?_
      have hh := isTainted_eq s
      cases hf' : flags s with
      | nil => rw [hf'] at hh; simp at hh
      | cons a l =>
        rw [hf'] at hh
        simp only [List.head?_cons, Option.some.injEq] at hh
        rw [hh, show s.layers.length + 1 - (Spec.stack h₁).length = s.layers.length - (Spec.stack h₁).length + 1 by omega]
        simp
    cases op with
    | add k' =>
      obtain ⟨k1, k2⟩ := k
      have l3 : t.layers.length = s.layers.length + 1 := by
        have := congrArg List.length k1
        simpa using this
      rw [k2, l3, show s.layers.length + 1 + 1 - (Spec.stack h₁).length =
        s.layers.length + 1 - (Spec.stack h₁).length + 1 by omega, List.take_succ_cons, List.mem_cons] at hf
      rcases hf with rfl | hf
      · exact top
      · exact ih' f hf
    | remove k' =>
      obtain ⟨k1, k2⟩ := k
      have l3 : s.layers.length = t.layers.length + 1 := by
        have := congrArg List.length k1
        simpa using this
      refine ih' f ?_
      rw [l3, show t.layers.length + 1 + 1 - (Spec.stack h₁).length =
        t.layers.length + 1 - (Spec.stack h₁).length + 1 by omega]
      cases hf' : flags s with
      | nil => rw [k2, hf'] at hf; simp at hf
      | cons a l =>
        rw [k2, hf', List.tail_cons] at hf
        rw [List.take_succ_cons]
        exact List.mem_cons_of_mem _ hf
    | ask =>
      obtain ⟨k1, k2⟩ := k
      have l3 : t.layers.length = s.layers.length := by
        have := congrArg List.length k1
        simpa using this
      rw [k2, l3, show s.layers.length + 1 - (Spec.stack h₁).length =
        s.layers.length - (Spec.stack h₁).length + 1 by omega, List.take_succ_cons, List.mem_cons] at hf
      rcases hf with rfl | hf
      · rfl
      · refine ih' f ?_
        rw [show s.layers.length + 1 - (Spec.stack h₁).length =
          s.layers.length - (Spec.stack h₁).length + 1 by omega]
        cases hf' : flags s with
        | nil => rw [hf'] at hf; simp at hf
        | cons a l =>
          rw [hf', List.tail_cons] at hf
          rw [List.take_succ_cons]
          exact List.mem_cons_of_mem _ hf
    | asked => rw [show t = s from k] at hf; exact ih' f hf
    | print => rw [show t = s from k] at hf; exact ih' f hf
    | evaluate => rw [show t = s from k] at hf; exact ih' f hf

theorem evaluateLayers_error (p : Bool) (ls : List Layer) (h : ∃ l ∈ ls, l.kind = .bbob ∧ l.tainted = true) :
    evaluateLayers p ls = .error := by
  induction ls with
  | nil => simp at h
  | cons l ls ih =>
    obtain ⟨l', hl, hk, ht⟩ := h
    unfold evaluateLayers
    rcases List.mem_cons.1 hl with rfl | hl
    · rw [if_pos ⟨hk, Or.inl ht⟩]
    · split_ifs
      · rfl
      · rw [ih ⟨l', hl, hk, ht⟩]
        rfl

theorem evaluateLayers_ok (p : Bool) (ls : List Layer) (hp : p = false) (h : ∀ l ∈ ls, l.tainted = false) :
    evaluateLayers p ls = .ok (ls.map (·.kind)) := by
  induction ls with
  | nil => rfl
  | cons l ls ih =>
    unfold evaluateLayers
    have h1 := h l (by simp)
    have h2 : isTainted ⟨[], p, ls⟩ = false := by
      cases ls with
      | nil => exact hp
      | cons a ls => exact h a (by simp)
    rw [if_neg (by rw [h1, h2]; simp), ih fun l hl => h l (by simp [hl]), Res.ok_bind]
    rfl

/-! ### C116 -/

/-- **C116** (partial). After the optimum was asked for, the problem says so, and an evaluation is refused if a bbob
observer is the outermost one at that time or was added later, whatever else is done, as long as none of the observers
present at that time is removed. (For the observers below and after removals this is false: `C116_covered`,
`C116_removed`.) -/
theorem C116_refused_partial (x : List ℝ) (h₁ h₂ : List Op) (s : State) (os : List Out)
    (e : run (start x) (h₁ ++ .ask :: h₂) = .ok (s, os))
    (hq : ∀ q, q <+: h₂ → (Spec.stack h₁).length ≤ (Spec.stack (h₁ ++ .ask :: q)).length) :
    step s .asked = .ok (s, .flag true) ∧
      (.bbob ∈ (Spec.stack (h₁ ++ .ask :: h₂)).take
        ((Spec.stack (h₁ ++ .ask :: h₂)).length + 1 - (Spec.stack h₁).length) → step s .evaluate = .error) := by
  have fl := run_flags x h₁ h₂ hq s os e
  obtain ⟨i1, -⟩ := run_stack x _ s os e
  have l1 : s.layers.length = (Spec.stack (h₁ ++ .ask :: h₂)).length := by rw [← i1, List.length_map]
  have b1 := hq h₂ List.prefix_rfl
  rw [← l1] at b1
  constructor
  · have top : isTainted s = true := by
      refine fl _ ?_
      have hh := isTainted_eq s
      cases hf' : flags s with
      | nil => rw [hf'] at hh; simp at hh
      | cons a l =>
        rw [hf'] at hh
        simp only [List.head?_cons, Option.some.injEq] at hh
        rw [hh, show s.layers.length + 1 - (Spec.stack h₁).length = s.layers.length - (Spec.stack h₁).length + 1 by omega]
        simp
    simp only [step, top]
  · intro hb
    rw [← l1, ← i1, ← List.map_take] at hb
    obtain ⟨l, hl, hk⟩ := List.mem_map.1 hb
    have ht : l.tainted = true := by
      refine fl _ ?_
      unfold flags
      rw [List.take_append, ← List.map_take]
      exact List.mem_append_left _ (List.mem_map_of_mem hl)
    simp only [step, evaluateLayers_error s.plain s.layers ⟨l, List.mem_of_mem_take hl, hk, ht⟩]
    rfl

theorem run_clean (x : List ℝ) (h : List Op) (hn : .ask ∉ h) : ∀ (s : State) (os : List Out),
    run (start x) h = .ok (s, os) → ∀ f ∈ flags s, f = false := by
  induction h using List.reverseRecOn with
  | nil =>
    intro s os e
    simp only [run, Res.ok.injEq, Prod.mk.injEq] at e
    obtain ⟨rfl, -⟩ := e
    simp [flags, start]
  | append_singleton h op ih =>
    intro t os e f hf
    obtain ⟨s, os', o, e1, e2, -⟩ := run_snoc e
    have ih' := ih (fun hm => hn (by simp [hm])) s os' e1
    obtain ⟨-, k⟩ := step_effect e2
    cases op with
    | add k' =>
      rw [k.2, List.mem_cons] at hf
      rcases hf with rfl | hf
      · exact ih' _ (List.mem_of_head? (isTainted_eq s))
      · exact ih' f hf
    | remove k' =>
      rw [k.2] at hf
      exact ih' f (List.mem_of_mem_tail hf)
    | ask => simp at hn
    | asked => rw [show t = s from k] at hf; exact ih' f hf
    | print => rw [show t = s from k] at hf; exact ih' f hf
    | evaluate => rw [show t = s from k] at hf; exact ih' f hf

/-- **C116** (fair). As long as the optimum is not asked for, evaluations are never refused: they are recorded by all
observers of the problem. -/
theorem C116_fair (x : List ℝ) (h : List Op) (hn : .ask ∉ h) (s : State) (os : List Out)
    (e : run (start x) h = .ok (s, os)) :
    step s .evaluate = .ok (s, .logged (Spec.stack h)) ∧ step s .asked = .ok (s, .flag false) := by
  have c := run_clean x h hn s os e
  obtain ⟨i1, -⟩ := run_stack x h s os e
  constructor
  · have := evaluateLayers_ok s.plain s.layers (c _ (by simp [flags]))
      fun l hl => c _ (by simp only [flags, List.mem_append, List.mem_map]; exact Or.inl ⟨l, hl, rfl⟩)
    simp only [step, this, Res.ok_bind, i1]
  · simp only [step, c _ (List.mem_of_head? (isTainted_eq s))]

/-- **C116** (printed). The optimum can be had without being marked: after any calls, printing delivers it in a file,
and an evaluation is refused afterwards only if it was refused before. -/
theorem C116_printed (x : List ℝ) (h : List Op) (s : State) (os : List Out) (e : run (start x) h = .ok (s, os)) :
    run (start x) (h ++ [.print]) = .ok (s, os ++ [.file x]) := by
  rw [run_append, e, Res.ok_bind]
  simp only [run, step, Res.ok_bind, (run_stack x h s os e).2]

/-- **C116** (asked). Asking delivers the optimum after any calls. -/
theorem C116_asked (x : List ℝ) (h : List Op) (s : State) (os : List Out) (e : run (start x) h = .ok (s, os)) :
    ∃ t, run (start x) (h ++ [.ask]) = .ok (t, os ++ [.point x]) := by
  refine ⟨(ask s).1, ?_⟩
  rw [run_append, e, Res.ok_bind]
  simp only [run, step, Res.ok_bind, ask, (run_stack x h s os e).2]

/-- **C116** (removed). The mark is lost with the observer: after removing the observer and adding it again the problem
is benchmarked although the optimum is known. -/
theorem C116_removed (x : List ℝ) : ∃ s, run (start x)
    [.add .bbob, .ask, .remove .bbob, .add .bbob, .asked, .evaluate] =
      .ok (s, [.nothing, .point x, .nothing, .nothing, .flag false, .logged [.bbob]]) :=
  ⟨⟨x, false, [⟨.bbob, false⟩]⟩, rfl⟩

/-- **C116** (covered). A bbob observer below another one does not notice that the optimum was asked for, although the
problem says so. -/
theorem C116_covered (x : List ℝ) : ∃ s, run (start x)
    [.add .bbob, .add .toy, .ask, .asked, .evaluate] =
      .ok (s, [.nothing, .nothing, .point x, .flag true, .logged [.toy, .bbob]]) :=
  ⟨⟨x, false, [⟨.toy, true⟩, ⟨.bbob, false⟩]⟩, rfl⟩

/-- **C116** (others). The other observers record evaluations of a problem whose optimum is known, in any number. -/
theorem C116_others (x : List ℝ) (k : Kind) (hk : k ≠ .bbob) : ∃ s, run (start x)
    [.ask, .add k, .asked, .evaluate] = .ok (s, [.point x, .nothing, .flag true, .logged [k]]) := by
  refine ⟨⟨x, true, [⟨k, true⟩]⟩, ?_⟩
  cases k
  · exact absurd rfl hk
  all_goals rfl

/-! ### Cases that meet the hypotheses -/

/-- Two observers, the upper one is replaced after the optimum was asked for; the bbob observer added last refuses. -/
example : Spec.stack [.add .toy, .ask, .add .rw, .evaluate, .remove .rw, .add .bbob, .add .old] = [.old, .bbob, .toy] ∧
    ∃ s os, run (start [1, 2]) ([.add .toy] ++ .ask :: [.add .rw, .evaluate, .remove .rw, .add .bbob, .add .old]) =
      .ok (s, os) ∧ step s .evaluate = .error := by
  refine ⟨rfl, ?_⟩
  have e : run (start [1, 2]) ([.add .toy] ++ .ask :: [.add .rw, .evaluate, .remove .rw, .add .bbob, .add .old]) =
    .ok (⟨[1, 2], false, [⟨.old, true⟩, ⟨.bbob, true⟩, ⟨.toy, true⟩]⟩,
      [.nothing, .point [1, 2], .nothing, .logged [.rw, .toy], .nothing, .nothing, .nothing]) := rfl
  refine ⟨_, _, e, (C116_refused_partial _ _ _ _ _ e ?_).2 (by decide)⟩
  intro q hq
  have : q ∈ List.inits [Op.add .rw, .evaluate, .remove .rw, .add .bbob, .add .old] := (List.mem_inits _ _).2 hq
  simp only [List.inits, List.map_cons, List.map_nil, List.mem_cons, List.not_mem_nil, or_false] at this
  rcases this with rfl | rfl | rfl | rfl | rfl | rfl <;> decide

example : ∃ s os, run (start [1, 2]) [.add .bbob, .print, .add .toy, .evaluate] = .ok (s, os) ∧
    step s .evaluate = .ok (s, .logged [.toy, .bbob]) := by
  have e : run (start [1, 2]) [.add .bbob, .print, .add .toy, .evaluate] =
    .ok (⟨[1, 2], false, [⟨.toy, false⟩, ⟨.bbob, false⟩]⟩,
      [.nothing, .file [1, 2], .nothing, .logged [.toy, .bbob]]) := rfl
  exact ⟨_, _, e, (C116_fair _ _ (by decide) _ _ e).1⟩

end Tainted
