import Verif.Model.RustWrapper
import Verif.Props.Lifecycle

/-!
# Values of the Rust interface: C124
-/

namespace RustWrapper

open Lifecycle Lifecycle.Spec

/-! ### Specification -/

/-- The observers on the problem of each suite, as the program has put them on, the last one first. -/
abbrev Spec.On := Nat → List Nat

/-- The observers on the problems after a call. -/
def Spec.on (a : Spec.On) : Call → Spec.On
  | .nextProblem s (some _) o => Function.update a s o.toList
  | .problem s (some _) => Function.update a s []
  | .addObserver s o => Function.update a s (o :: a s)
  | .removeObserver s _ => Function.update a s (a s).tail
  | _ => a

/-- The rule that a program has to follow although the compiler does not check it: a problem is evaluated only while the observers
on it are there. -/
def Spec.Rule (v : Vars) (a : Spec.On) : Call → Prop
  | .evaluate s => ∀ o ∈ a s, o ∈ v.observers
  | _ => True

/-- The states of programs that the compiler accepts and that follow the rule. -/
inductive Spec.Reach : Heap → Vars → Spec.On → Prop
  | init : Spec.Reach Heap.init Vars.init fun _ => []
  | step {h h' : Heap} {v v' : Vars} {a : Spec.On} {c : Call} : Spec.Reach h v a → Accepted v c → Spec.Rule v a c →
      RustWrapper.step h v c = .ok (h', v') → Spec.Reach h' v' (Spec.on a c)

/-! ### Proofs -/

/-- The values of the Rust program and what the library knows of its user. -/
structure Rel (v : Vars) (a : Spec.On) (w : View) : Prop where
  suites : w.suites = v.suites
  observers : w.observers = v.observers
  lent : w.lent = fun _ => none
  problem : ∀ s p, v.problem s = some p → s ∈ v.suites ∧ ∃ d ∈ w.held, d.id = p ∧ d.suite = s ∧ d.observers = a s
  kept : v.leaked = 0 → ∀ d ∈ w.held, v.problem d.suite = some d.id

theorem Rel.new {v : Vars} {a : Spec.On} {w : View} (R : Rel v a w) {s p : Nat} (hs : s ∈ v.suites) (hn : v.problem s = none) :
    Rel { v with problem := Function.update v.problem s (some p) } (Function.update a s [])
      { w with held := ⟨p, s, []⟩ :: w.held } := by
  refine ⟨R.suites, R.observers, R.lent, fun s' p' hp => ?_, fun hl d hd => ?_⟩
  · by_cases e : s' = s
    · subst e
      simp only [Function.update_self, Option.some.injEq] at hp
      subst hp
      exact ⟨hs, ⟨p, s', []⟩, by simp, rfl, rfl, by simp⟩
    · simp only [Function.update_of_ne e] at hp ⊢
      obtain ⟨h1, d, h2, h3⟩ := R.problem s' p' hp
      exact ⟨h1, d, by simp [h2], h3⟩
  · rcases List.mem_cons.1 hd with rfl | hd
    · simp
    · have h1 := R.kept hl d hd
      have : d.suite ≠ s := by rintro e; rw [e, hn] at h1; cases h1
      simp only [Function.update_of_ne this, h1]

theorem Rel.replace {h : Heap} {v : Vars} {a : Spec.On} {w : View} (I : Inv h w) (R : Rel v a w) {s p q : Nat}
    (hp : v.problem s = some p) (f : List Nat → List Nat) :
    Rel { v with problem := Function.update v.problem s (some q) } (Function.update a s (f (a s)))
      { w with held := w.held.map fun d => if d.id = p then ⟨q, d.suite, f d.observers⟩ else d } := by
  obtain ⟨hs, d, hd, rfl, rfl, ha⟩ := R.problem s p hp
  refine ⟨R.suites, R.observers, R.lent, fun s' p' hp' => ?_, fun hl d' hd' => ?_⟩
  · by_cases e : s' = d.suite
    · subst e
      simp only [Function.update_self, Option.some.injEq] at hp'
      subst hp'
      exact ⟨hs, ⟨q, d.suite, f d.observers⟩, List.mem_map.2 ⟨d, hd, by simp⟩, rfl, rfl, by simp [ha]⟩
    · simp only [Function.update_of_ne e] at hp' ⊢
      obtain ⟨h1, d', h2, h3, h4, h5⟩ := R.problem s' p' hp'
      have hne : d'.id ≠ d.id := fun e' => e (by rw [← h4, I.held_unique h2 hd e'])
      exact ⟨h1, d', List.mem_map.2 ⟨d', h2, by simp [hne]⟩, h3, h4, h5⟩
  · obtain ⟨d0, h0, rfl⟩ := List.mem_map.1 hd'
    by_cases e : d0.id = d.id
    · rw [I.held_unique h0 hd e]
      simp
    · rw [if_neg e]
      have h1 := R.kept hl d0 h0
      have : d0.suite ≠ d.suite := by
        intro e'
        rw [e', hp] at h1
        exact e (Option.some.inj h1).symm
      simp only [Function.update_of_ne this, h1]

theorem Rel.drop {h : Heap} {v : Vars} {a : Spec.On} {w : View} (I : Inv h w) (R : Rel v a w) {s p : Nat}
    (hp : v.problem s = some p) :
    Rel { v with problem := Function.update v.problem s none } a { w with held := w.held.filter fun d => d.id ≠ p } := by
  obtain ⟨hs, d, hd, rfl, rfl, ha⟩ := R.problem s p hp
  refine ⟨R.suites, R.observers, R.lent, fun s' p' hp' => ?_, fun hl d' hd' => ?_⟩
  · by_cases e : s' = d.suite
    · subst e
      simp at hp'
    · simp only [Function.update_of_ne e] at hp'
      obtain ⟨h1, d', h2, h3, h4, h5⟩ := R.problem s' p' hp'
      have hne : d'.id ≠ d.id := fun e' => e (by rw [← h4, I.held_unique h2 hd e'])
      exact ⟨h1, d', List.mem_filter.2 ⟨h2, by simpa using hne⟩, h3, h4, h5⟩
  · obtain ⟨h0, h1⟩ := List.mem_filter.1 hd'
    have h2 := R.kept hl d' h0
    have : d'.suite ≠ d.suite := by
      intro e'
      rw [e', hp] at h2
      simp at h1
      exact h1 (Option.some.inj h2).symm
    simp only [Function.update_of_ne this, h2]

/-- The calls that the library may refuse with an error message. -/
def Refusable : Call → Prop
  | .addObserver _ _ => True
  | .removeObserver _ _ => True
  | .nextProblem _ (some _) (some _) => True
  | _ => False

/-- The state of a suite whose current problem has been forgotten. -/
theorem Inv.suite_none {h : Heap} {w : View} (I : Inv h w) (hl : w.lent = fun _ => none) {s : Nat} (hs : s ∈ w.suites) :
    h.suite s = some ⟨none⟩ := by
  obtain ⟨so, e⟩ := Option.ne_none_iff_exists'.1 ((I.suites s).2 hs)
  have := I.cur s so e
  rw [hl] at this
  rw [e]
  congr 1
  cases so
  simpa using this

theorem setSuite_back {h : Heap} {s : Nat} {x : Option SuiteObj} (e : h.suite s = some ⟨none⟩) :
    (h.setSuite s x).setSuite s (some ⟨none⟩) = h := by
  cases h
  simp only [Heap.setSuite, Function.update_idem, Heap.mk.injEq, true_and, and_true]
  rw [Function.update_eq_self_iff]
  exact e.symm

theorem step_ok {h : Heap} {v : Vars} {a : Spec.On} {w : View} (I : Inv h w) (R : Rel v a w) (c : Call) (hc : Accepted v c)
    (hr : Spec.Rule v a c) :
    (∃ h' v' w', step h v c = .ok (h', v') ∧ Inv h' w' ∧ Rel v' (Spec.on a c) w') ∨ (step h v c = .error ∧ Refusable c) := by
  cases c with
  | newSuite =>
    left
    rcases I.step .newSuite trivial with ⟨h', out, e, I'⟩ | ⟨e, h1⟩
    · simp only [Lifecycle.step, Res.ok.injEq, Prod.mk.injEq] at e
      obtain ⟨rfl, rfl⟩ := e
      refine ⟨_, _, _, rfl, I', ?_⟩
      refine ⟨by simp [View.after, R.suites], by simp [View.after, R.observers], by simp [View.after, R.lent],
        fun s p hp => ?_, fun hl d hd => R.kept hl d hd⟩
      obtain ⟨h1, h2⟩ := R.problem s p hp
      exact ⟨by simp [h1], h2⟩
    · simp [Lifecycle.step] at e
  | newObserver k name =>
    left
    rcases I.step (.newObserver k name) trivial with ⟨h', out, e, I'⟩ | ⟨e, h1⟩
    · simp only [Lifecycle.step, Res.ok.injEq, Prod.mk.injEq] at e
      obtain ⟨rfl, rfl⟩ := e
      refine ⟨_, _, _, rfl, I', ?_⟩
      exact ⟨by simp [View.after, R.suites], by simp [View.after, R.observers], by simp [View.after, R.lent],
        fun s p hp => R.problem s p hp, fun hl d hd => R.kept hl d hd⟩
    · simp [Lifecycle.step] at e
  | problem s t =>
    left
    obtain ⟨hs, hn⟩ := hc
    cases t with
    | none =>
      have := Inv.suite_none I R.lent (by rw [R.suites]; exact hs)
      refine ⟨h, v, w, ?_, I, R⟩
      simp [step, this, deref]
    | some t =>
      rcases I.step (.getProblem s t) (by simpa [View.Allowed, R.suites] using hs) with ⟨h', out, e, I'⟩ | ⟨e, h1⟩
      · have hsu := Inv.suite_none I R.lent (by rw [R.suites]; exact hs)
        simp only [Lifecycle.step, getProblem, hsu, deref, Res.ok_bind, Res.ok.injEq, Prod.mk.injEq] at e
        obtain ⟨rfl, rfl⟩ := e
        refine ⟨_, _, _, ?_, I', R.new hs hn⟩
        simp only [step, getProblem, hsu, deref, Res.ok_bind]
      · simp at h1
  | nextProblem s next o =>
    obtain ⟨hs, hn, ho⟩ := hc
    have hsu := Inv.suite_none I R.lent (by rw [R.suites]; exact hs)
    cases next with
    | none =>
      left
      refine ⟨h, v, w, ?_, I, R⟩
      simp [step, Lifecycle.nextProblem, hsu, deref]
    | some t =>
      rcases I.step (.getProblem s t) (by simpa [View.Allowed, R.suites] using hs) with ⟨h1, out, e, I1⟩ | ⟨e, h1⟩
      swap
      · simp at h1
      simp only [Lifecycle.step, getProblem, hsu, deref, Res.ok_bind, Res.ok.injEq, Prod.mk.injEq] at e
      obtain ⟨rfl, rfl⟩ := e
      have R1 := R.new (p := (build h (some s) t).2) hs hn
      cases o with
      | none =>
        left
        have hsu1 := Inv.suite_none I1 R1.lent (show s ∈ w.suites by rw [R.suites]; exact hs)
        refine ⟨_, _, _, ?_, I1, R1⟩
        simp only [step, Lifecycle.nextProblem, hsu, deref, freeCurrent, Res.ok_bind, forgetCurrent, Heap.setSuite,
          Function.update_self]
        congr 2
        exact setSuite_back hsu1
      | some o =>
        have hall : View.Allowed (w.after (.getProblem s t) (some (build h (some s) t).2))
            (.addObserver (build h (some s) t).2 o) := by
          refine ⟨⟨⟨(build h (some s) t).2, s, []⟩, by simp [View.after], rfl, ?_⟩, ?_⟩
          · simpa [View.after, R.suites] using hs
          · simpa [View.after, R.observers] using ho o rfl
        rcases I1.step _ hall with ⟨h2, out, e, I2⟩ | ⟨e, -⟩
        · left
          simp only [Lifecycle.step] at e
          rcases hadd : Lifecycle.addObserver (build h (some s) t).1 (build h (some s) t).2 o with ⟨h3, q⟩ | _ | _ | _
          · rw [hadd] at e
            simp only [Res.ok_bind, Res.ok.injEq, Prod.mk.injEq] at e
            obtain ⟨rfl, rfl⟩ := e
            have R2 := Rel.replace I1 R1 (s := s) (p := (build h (some s) t).2) (q := q) (by simp) (fun l => o :: l)
            have hsu2 := Inv.suite_none I2 R2.lent (show s ∈ w.suites by rw [R.suites]; exact hs)
            refine ⟨h3, { v with problem := Function.update v.problem s (some q) }, _, ?_, I2, ?_⟩
            · simp only [step, Lifecycle.nextProblem, hsu, deref, freeCurrent, Res.ok_bind, forgetCurrent, hadd, Heap.setSuite,
                Function.update_self]
              congr 2
              exact setSuite_back hsu2
            · simp only [Function.update_self, Function.update_idem] at R2
              exact R2
          · rw [hadd] at e; cases e
          · rw [hadd] at e; cases e
          · rw [hadd] at e; cases e
        · right
          refine ⟨?_, trivial⟩
          simp only [Lifecycle.step] at e
          rcases hadd : Lifecycle.addObserver (build h (some s) t).1 (build h (some s) t).2 o with ⟨h3, q⟩ | _ | _ | _
          · rw [hadd] at e; simp at e
          · simp only [step, Lifecycle.nextProblem, hsu, deref, freeCurrent, Res.ok_bind, hadd]
            rfl
          · rw [hadd] at e; cases e
          · rw [hadd] at e; cases e
  | addObserver s o =>
    obtain ⟨hp, ho⟩ := hc
    obtain ⟨p, hp⟩ := Option.ne_none_iff_exists'.1 hp
    obtain ⟨hs, d, hd, hdp, hds, hda⟩ := R.problem s p hp
    rcases I.step (.addObserver p o) ⟨⟨d, hd, hdp, by rw [R.suites, hds]; exact hs⟩, by rw [R.observers]; exact ho⟩ with
      ⟨h', out, e, I'⟩ | ⟨e, -⟩
    · left
      simp only [Lifecycle.step] at e
      rcases hadd : Lifecycle.addObserver h p o with ⟨h3, q⟩ | _ | _ | _
      · rw [hadd] at e
        simp only [Res.ok_bind, Res.ok.injEq, Prod.mk.injEq] at e
        obtain ⟨rfl, rfl⟩ := e
        refine ⟨_, _, _, ?_, I', Rel.replace I R hp fun l => o :: l⟩
        simp only [step, hp, hadd, Res.ok_bind]
      · rw [hadd] at e; cases e
      · rw [hadd] at e; cases e
      · rw [hadd] at e; cases e
    · right
      refine ⟨?_, trivial⟩
      simp only [Lifecycle.step] at e
      rcases hadd : Lifecycle.addObserver h p o with ⟨h3, q⟩ | _ | _ | _
      · rw [hadd] at e; simp at e
      · simp only [step, hp, hadd]; rfl
      · rw [hadd] at e; cases e
      · rw [hadd] at e; cases e
  | removeObserver s o =>
    obtain ⟨hp, ho⟩ := hc
    obtain ⟨p, hp⟩ := Option.ne_none_iff_exists'.1 hp
    obtain ⟨hs, d, hd, hdp, hds, hda⟩ := R.problem s p hp
    rcases I.step (.removeObserver p o) ⟨⟨d, hd, hdp⟩, by rw [R.observers]; exact ho⟩ with ⟨h', out, e, I'⟩ | ⟨e, -⟩
    · simp only [Lifecycle.step] at e
      cases out with
      | none =>
        right
        refine ⟨?_, trivial⟩
        simp only [step, hp, e, Res.ok_bind]
      | some q =>
        left
        refine ⟨_, _, _, ?_, I', Rel.replace I R hp List.tail⟩
        simp only [step, hp, e, Res.ok_bind]
    · right
      refine ⟨?_, trivial⟩
      simp only [Lifecycle.step] at e
      simp only [step, hp, e]
      rfl
  | evaluate s =>
    left
    obtain ⟨p, hp⟩ := Option.ne_none_iff_exists'.1 hc
    obtain ⟨hs, d, hd, hdp, hds, hda⟩ := R.problem s p hp
    rcases I.step (.evaluate p) ⟨d, .inl hd, hdp, by rw [R.suites, hds]; exact hs, by rw [hda, R.observers]; exact hr⟩ with
      ⟨h', out, e, I'⟩ | ⟨e, h1⟩
    · simp only [Lifecycle.step] at e
      rcases hev : Lifecycle.evaluate (h.np + 1) h p with h3 | _ | _ | _
      · rw [hev] at e
        simp only [Res.ok_bind, Res.ok.injEq, Prod.mk.injEq] at e
        obtain ⟨rfl, rfl⟩ := e
        refine ⟨_, _, _, ?_, I', R⟩
        simp only [step, hp, hev, Res.ok_bind]
      · rw [hev] at e; cases e
      · rw [hev] at e; cases e
      · rw [hev] at e; cases e
    · simp at h1
  | dropProblem s =>
    left
    obtain ⟨p, hp⟩ := Option.ne_none_iff_exists'.1 hc
    obtain ⟨hs, d, hd, hdp, hds, hda⟩ := R.problem s p hp
    rcases I.step (.freeProblem p) ⟨d, hd, hdp⟩ with ⟨h', out, e, I'⟩ | ⟨e, h1⟩
    · simp only [Lifecycle.step] at e
      rcases hev : Lifecycle.freeProblem h p with h3 | _ | _ | _
      · rw [hev] at e
        simp only [Res.ok_bind, Res.ok.injEq, Prod.mk.injEq] at e
        obtain ⟨rfl, rfl⟩ := e
        refine ⟨_, _, _, ?_, I', Rel.drop I R hp⟩
        simp only [step, hp, hev, Res.ok_bind]
      · rw [hev] at e; cases e
      · rw [hev] at e; cases e
      · rw [hev] at e; cases e
    · simp at h1
  | forgetProblem s =>
    left
    refine ⟨h, _, w, rfl, I, R.suites, R.observers, R.lent, fun s' p' hp' => ?_, fun hl => by simp at hl⟩
    by_cases e : s' = s
    · subst e; simp at hp'
    · simp only [Function.update_of_ne e] at hp'
      exact R.problem s' p' hp'
  | dropObserver o =>
    left
    rcases I.step (.freeObserver o) (show o ∈ w.observers by rw [R.observers]; exact hc) with ⟨h', out, e, I'⟩ | ⟨e, h1⟩
    · simp only [Lifecycle.step] at e
      rcases hev : Lifecycle.freeObserver h o with h3 | _ | _ | _
      · rw [hev] at e
        simp only [Res.ok_bind, Res.ok.injEq, Prod.mk.injEq] at e
        obtain ⟨rfl, rfl⟩ := e
        refine ⟨_, _, _, by simp only [step, hev, Res.ok_bind]; rfl, I', ?_⟩
        exact ⟨R.suites, by simp [View.after, R.observers], R.lent, fun s p hp => R.problem s p hp, fun hl d hd => R.kept hl d hd⟩
      · rw [hev] at e; cases e
      · rw [hev] at e; cases e
      · rw [hev] at e; cases e
    · simp at h1
  | dropSuite s =>
    left
    obtain ⟨hs, hn⟩ := hc
    rcases I.step (.freeSuite s) (by simpa [View.Allowed, R.suites] using hs) with ⟨h', out, e, I'⟩ | ⟨e, h1⟩
    · simp only [Lifecycle.step] at e
      rcases hev : Lifecycle.freeSuite h s with h3 | _ | _ | _
      · rw [hev] at e
        simp only [Res.ok_bind, Res.ok.injEq, Prod.mk.injEq] at e
        obtain ⟨rfl, rfl⟩ := e
        refine ⟨_, _, _, by simp only [step, hev, Res.ok_bind]; rfl, I', ?_⟩
        refine ⟨by simp [View.after, R.suites], R.observers, ?_, fun s' p hp => ?_, fun hl d hd => R.kept hl d hd⟩
        · simp only [View.after, R.lent]
          funext x
          simp [Function.update_apply]
        · obtain ⟨h1, h2⟩ := R.problem s' p hp
          refine ⟨List.mem_filter.2 ⟨h1, ?_⟩, h2⟩
          simp only [ne_eq, decide_not, Bool.not_eq_eq_eq_not, Bool.not_true, decide_eq_false_iff_not]
          rintro rfl
          simp only at hp
          rw [hn] at hp
          cases hp
      · rw [hev] at e; cases e
      · rw [hev] at e; cases e
      · rw [hev] at e; cases e
    · simp at h1

theorem reach_rel {h : Heap} {v : Vars} {a : Spec.On} (r : Spec.Reach h v a) : ∃ w, Inv h w ∧ Rel v a w := by
  induction r with
  | init =>
    refine ⟨View.init, Reach.inv .init, rfl, rfl, rfl, fun s p hp => ?_, fun _ d hd => ?_⟩
    · simp [Vars.init] at hp
    · simp [View.init] at hd
  | step r hc hr e ih =>
    obtain ⟨w, I, R⟩ := ih
    rcases step_ok I R _ hc hr with ⟨h', v', w', e', I', R'⟩ | ⟨e', -⟩
    · rw [e] at e'
      cases e'
      exact ⟨w', I', R'⟩
    · rw [e] at e'
      cases e'

/-! ### C124 -/

/-- **C124** (partial: with the rule about observers). No call that the compiler accepts makes the library use freed objects, free
an object twice or fail an assertion, and calls other than putting on and taking off observers succeed. So values can be
dropped in any order that the compiler accepts. -/
theorem C124_safe_partial {h : Heap} {v : Vars} {a : Spec.On} (r : Spec.Reach h v a) (c : Call) (hc : Accepted v c)
    (hr : Spec.Rule v a c) :
    step h v c ≠ .ub ∧ step h v c ≠ .assertFail ∧
      ((∀ s o, c ≠ .addObserver s o) → (∀ s o, c ≠ .removeObserver s o) → (∀ s t o, c ≠ .nextProblem s (some t) (some o)) →
        ∃ h' v', step h v c = .ok (h', v')) := by
  obtain ⟨w, I, R⟩ := reach_rel r
  rcases step_ok I R c hc hr with ⟨h', v', w', e, -⟩ | ⟨e, h1⟩
  · rw [e]
    exact ⟨by simp, by simp, fun _ _ _ => ⟨h', v', rfl⟩⟩
  · rw [e]
    refine ⟨by simp, by simp, fun h2 h3 h4 => ?_⟩
    cases c with
    | addObserver s o => exact (h2 s o rfl).elim
    | removeObserver s o => exact (h3 s o rfl).elim
    | nextProblem s t o =>
      cases t with
      | none => exact h1.elim
      | some t =>
        cases o with
        | none => exact h1.elim
        | some o => exact (h4 s t o rfl).elim
    | _ => exact h1.elim

/-- **C124** (memory). When all values have been dropped and no problem was forgotten, nothing of the library is left. -/
theorem C124_no_leak {h : Heap} {v : Vars} {a : Spec.On} (r : Spec.Reach h v a) (hl : v.leaked = 0) (hs : v.suites = [])
    (ho : v.observers = []) :
    (∀ p, h.prob p = none) ∧ (∀ s, h.suite s = none) ∧ ∀ o, h.obs o = none := by
  obtain ⟨w, I, R⟩ := reach_rel r
  have hsu : ∀ s, h.suite s = none := by
    intro s
    by_contra e
    have := (I.suites s).1 e
    simp [R.suites, hs] at this
  refine ⟨fun p => ?_, hsu, fun o => ?_⟩
  · by_contra e
    obtain ⟨σ, d, hd, -⟩ := I.forest.cover p e
    cases σ with
    | user =>
      have h1 := R.kept hl d hd
      obtain ⟨h2, -⟩ := R.problem _ _ h1
      simp [hs] at h2
    | suite s => simp [At, R.lent] at hd
  · by_contra e
    have := (I.obs o).1 e
    simp [R.observers, ho] at this

/-- Every call of a program is accepted by the compiler. -/
def Spec.Typed : Heap → Vars → List Call → Prop
  | _, _, [] => True
  | h, v, c :: cs => Accepted v c ∧ match step h v c with | .ok (h, v) => Spec.Typed h v cs | _ => True

/-- **C124** (the full statement is false). A program in safe Rust that drops an observer before it evaluates the problem observed: the
toy logger writes to a closed file, the bbob logger fails an assertion. -/
theorem C124_dropped_observer :
    (Spec.Typed Heap.init Vars.init [.newSuite, .newObserver .toy "toy", .nextProblem 0 (some .base) (some 0), .dropObserver 0,
      .evaluate 0] ∧
     run Heap.init Vars.init [.newSuite, .newObserver .toy "toy", .nextProblem 0 (some .base) (some 0), .dropObserver 0, .evaluate 0]
      = .ub) ∧
    run Heap.init Vars.init [.newSuite, .newObserver .bbob "b", .nextProblem 0 (some .base) (some 0), .dropObserver 0, .evaluate 0]
      = .assertFail := by
  refine ⟨⟨?_, rfl⟩, rfl⟩
  refine ⟨trivial, trivial, ⟨List.Mem.head _, rfl, fun o ho => ?_⟩, List.Mem.head _, ?_, trivial⟩
  · cases ho
    exact List.Mem.head _
  · exact fun h => Option.some_ne_none _ h

/-! ### A case that meets the hypotheses -/

/-- An experiment: two problems of a suite, the second with a second observer, evaluated and dropped. -/
example : ∃ h v, run Heap.init Vars.init [.newSuite, .newObserver .bbob "b", .newObserver .rw "r", .nextProblem 0 (some .base) (some 0),
    .evaluate 0, .dropProblem 0, .nextProblem 0 (some (.wrap .base)) (some 0), .addObserver 0 1, .evaluate 0, .removeObserver 0 1,
    .dropProblem 0, .nextProblem 0 none (some 0), .dropSuite 0, .dropObserver 0, .dropObserver 1] = .ok (h, v) ∧ v.leaked = 0 ∧
    v.suites = [] ∧ v.observers = [] := ⟨_, _, rfl, rfl, rfl, rfl⟩

end RustWrapper
