import Verif.Model.JavaObjects
import Verif.Props.Lifecycle

/-!
# Objects of the Java interface: C129

`/repo/build/java`.
-/

namespace JavaObjects

open Lifecycle Lifecycle.Spec

/-! ### Specification -/

/-- The rules for programs, given what they know of their objects: suites and observers are used until they are finalized and
finalized once, a problem of a benchmark is used until the next one is fetched, problems are evaluated while their suite and their observer are
not finalized, and arrays are as long as the dimension. -/
def Spec.Rule (w : View) : Call → Prop
  | .newSuite => True
  | .newObserver _ _ => True
  | .newBenchmark _ _ => True
  | .getNextProblem s o _ => s ∈ w.suites ∧ o ∈ w.observers
  | .getProblemByFuncDimInst s _ => s ∈ w.suites
  | .evaluateFunction p dim len => w.Usable p ∧ dim ≤ len
  | .recommendSolution p dim len => w.Usable p ∧ dim ≤ len
  | .getEvaluations p _ => ∃ d, (d ∈ w.held ∨ ∃ s, w.lent s = some d) ∧ d.id = p
  | .finalizeObserver o => o ∈ w.observers
  | .finalizeSuite s => s ∈ w.suites
  | .finalizeBenchmark s o => s ∈ w.suites ∧ o ∈ w.observers

/-- What the program knows after a call, given the new pointer. -/
def Spec.after (w : View) (out : Option Nat) : Call → View
  | .newSuite => { w with suites := out.toList ++ w.suites }
  | .newObserver _ _ => { w with observers := out.toList ++ w.observers }
  | .getNextProblem s o _ =>
    match out with
    | some p => { w with lent := Function.update w.lent s (some ⟨p, s, [o]⟩) }
    | none => w
  | .getProblemByFuncDimInst s _ =>
    match out with
    | some p => { w with held := ⟨p, s, []⟩ :: w.held }
    | none => w
  | .finalizeObserver o => { w with observers := w.observers.filter fun o' => o' ≠ o }
  | .finalizeSuite s => { w with suites := w.suites.filter fun s' => s' ≠ s, lent := Function.update w.lent s none }
  | .finalizeBenchmark s o => { w with
      observers := w.observers.filter fun o' => o' ≠ o
      suites := w.suites.filter fun s' => s' ≠ s
      lent := Function.update w.lent s none }
  | _ => w

/-- One step of a program that the compiler accepts and that follows the rules. -/
def Spec.Step (a b : Heap × Java × View) : Prop :=
  ∃ c out, Typed a.2.1 c ∧ Spec.Rule a.2.2 c ∧ step a.1 a.2.1 c = .ok (b.1, b.2.1, out) ∧ b.2.2 = Spec.after a.2.2 out c

/-- Several steps. -/
inductive Spec.Steps : Heap × Java × View → Heap × Java × View → Prop
  | refl (a) : Spec.Steps a a
  | step {a b c} : Spec.Steps a b → Spec.Step b c → Spec.Steps a c

/-- The start of programs. -/
def Spec.start : Heap × Java × View := (Heap.init, Java.init, View.init)

/-! ### Proofs -/

theorem bind_ok' {α β : Type} {a : Res α} {f : α → Res β} {b : β} (h : a.bind f = .ok b) : ∃ x, a = .ok x ∧ f x = .ok b := by
  cases a with
  | ok x => exact ⟨x, rfl, h⟩
  | error => cases h
  | assertFail => cases h
  | ub => cases h

/-- The call succeeds and leads to a state of the library, or `getNextProblem` is refused. -/
theorem step_ok {h : Heap} {j : Java} {w : View} (r : Lifecycle.Spec.Reach h w) (c : Call) (hr : Spec.Rule w c) :
    (∃ h' j' out, step h j c = .ok (h', j', out) ∧ Lifecycle.Spec.Reach h' (Spec.after w out c)) ∨
      (step h j c = .error ∧ ∃ s o t, c = .getNextProblem s o (some t)) := by
  have I := Lifecycle.Reach.inv r
  cases c with
  | newSuite => exact .inl ⟨_, _, _, rfl, r.call .newSuite trivial rfl⟩
  | newObserver k name => exact .inl ⟨_, _, _, rfl, r.call (.newObserver k name) trivial rfl⟩
  | newBenchmark s o => exact .inl ⟨_, _, _, rfl, r⟩
  | getNextProblem s o next =>
    have ha : w.Allowed (.nextProblem s (next.map (·.1)) (some o)) := ⟨hr.1, fun o' e => by cases e; exact hr.2⟩
    rcases I.step _ ha with ⟨h', out, e, -⟩ | ⟨e, hx⟩
    · left
      refine ⟨h', _, out, by simp only [step, e, Res.ok_bind]; rfl, ?_⟩
      have := r.call _ ha e
      cases out with
      | none => exact this
      | some p => exact this
    · right
      refine ⟨by simp only [step, e]; rfl, s, o, ?_⟩
      cases next with
      | none =>
        rcases hx with ⟨_, _, hx⟩ | ⟨_, _, hx⟩ | ⟨_, _, _, hx⟩ <;> cases hx
      | some t => exact ⟨t, rfl⟩
  | getProblemByFuncDimInst s t =>
    left
    cases t with
    | none =>
      obtain ⟨so, e⟩ := Option.ne_none_iff_exists'.1 ((I.suites s).2 hr)
      exact ⟨h, j, none, by simp only [step, e, deref, Res.ok_bind], r⟩
    | some t =>
      have ha : w.Allowed (.getProblem s t.1) := hr
      rcases I.step _ ha with ⟨h', out, e, -⟩ | ⟨e, hx⟩
      · refine ⟨h', _, out, by simp only [step, e, Res.ok_bind]; rfl, ?_⟩
        have := r.call _ ha e
        cases out with
        | none => exact this
        | some p => exact this
      · rcases hx with ⟨_, _, hx⟩ | ⟨_, _, hx⟩ | ⟨_, _, _, hx⟩ <;> cases hx
  | evaluateFunction p dim len =>
    left
    have ha : w.Allowed (.evaluate p) := hr.1
    have hl : ¬ len < dim := Nat.not_lt.mpr hr.2
    rcases I.step _ ha with ⟨h', out, e, -⟩ | ⟨e, hx⟩
    · refine ⟨h', j, none, by simp only [step, readArray, if_neg hl, e, Res.ok_bind], ?_⟩
      have := r.call _ ha e
      exact this
    · rcases hx with ⟨_, _, hx⟩ | ⟨_, _, hx⟩ | ⟨_, _, _, hx⟩ <;> cases hx
  | recommendSolution p dim len =>
    left
    have ha : w.Allowed (.recommend p) := hr.1
    have hl : ¬ len < dim := Nat.not_lt.mpr hr.2
    rcases I.step _ ha with ⟨h', out, e, -⟩ | ⟨e, hx⟩
    · refine ⟨h', j, none, by simp only [step, readArray, if_neg hl, e, Res.ok_bind], ?_⟩
      have := r.call _ ha e
      exact this
    · rcases hx with ⟨_, _, hx⟩ | ⟨_, _, hx⟩ | ⟨_, _, _, hx⟩ <;> cases hx
  | getEvaluations p dim =>
    left
    obtain ⟨d, hd, rfl⟩ := hr
    have : ∃ σ, At w σ d := by
      rcases hd with hd | ⟨s, hd⟩
      · exact ⟨.user, hd⟩
      · exact ⟨.suite s, hd⟩
    obtain ⟨σ, hσ⟩ := this
    obtain ⟨l, t⟩ := I.forest.own σ d hσ
    obtain ⟨v, e⟩ := Option.ne_none_iff_exists'.1 (t.alive _ t.mem)
    exact ⟨h, j, none, by simp only [step, e, deref, Res.ok_bind], r⟩
  | finalizeObserver o =>
    left
    have ha : w.Allowed (.freeObserver o) := hr
    rcases I.step _ ha with ⟨h', out, e, -⟩ | ⟨e, hx⟩
    · exact ⟨h', j, none, by simp only [step, e, Res.ok_bind], r.call _ ha e⟩
    · rcases hx with ⟨_, _, hx⟩ | ⟨_, _, hx⟩ | ⟨_, _, _, hx⟩ <;> cases hx
  | finalizeSuite s =>
    left
    have ha : w.Allowed (.freeSuite s) := hr
    rcases I.step _ ha with ⟨h', out, e, -⟩ | ⟨e, hx⟩
    · exact ⟨h', j, none, by simp only [step, e, Res.ok_bind], r.call _ ha e⟩
    · rcases hx with ⟨_, _, hx⟩ | ⟨_, _, hx⟩ | ⟨_, _, _, hx⟩ <;> cases hx
  | finalizeBenchmark s o =>
    left
    have ha : w.Allowed (.freeObserver o) := hr.2
    rcases I.step _ ha with ⟨h1, out, e, I1⟩ | ⟨e, hx⟩
    · have r1 := r.call _ ha e
      have hb : (w.after (.freeObserver o) out).Allowed (.freeSuite s) := hr.1
      rcases I1.step _ hb with ⟨h2, out2, e2, -⟩ | ⟨e2, hx⟩
      · exact ⟨h2, j, none, by simp only [step, e, e2, Res.ok_bind], r1.call _ hb e2⟩
      · rcases hx with ⟨_, _, hx⟩ | ⟨_, _, hx⟩ | ⟨_, _, _, hx⟩ <;> cases hx
    · rcases hx with ⟨_, _, hx⟩ | ⟨_, _, hx⟩ | ⟨_, _, _, hx⟩ <;> cases hx

theorem Step_reach {a b : Heap × Java × View} (r : Lifecycle.Spec.Reach a.1 a.2.2) (s : Spec.Step a b) :
    Lifecycle.Spec.Reach b.1 b.2.2 := by
  obtain ⟨c, out, -, hr, e, hw⟩ := s
  rcases step_ok (j := a.2.1) r c hr with ⟨h', j', out', e', r'⟩ | ⟨e', -⟩
  · rw [e] at e'
    simp only [Res.ok.injEq, Prod.mk.injEq] at e'
    obtain ⟨h1, h2, rfl⟩ := e'
    rw [hw, h1]
    exact r'
  · rw [e] at e'; cases e'

theorem Steps_reach {a b : Heap × Java × View} (r : Lifecycle.Spec.Reach a.1 a.2.2) (s : Spec.Steps a b) :
    Lifecycle.Spec.Reach b.1 b.2.2 := by
  induction s with
  | refl => exact r
  | step _ s ih => exact Step_reach ih s

theorem after_held (w : View) (out : Option Nat) (c : Call) : ∀ d ∈ w.held, d ∈ (Spec.after w out c).held := by
  intro d hd
  cases c <;> simp only [Spec.after] <;> (try exact hd)
  · cases out <;> exact hd
  · cases out
    · exact hd
    · exact List.mem_cons_of_mem _ hd

/-! ### C129 -/

/-- **C129** (partial: with rules that neither the compiler nor the interface checks). No call makes the library use freed objects, read
beyond an array or fail an assertion, and all calls succeed but `getNextProblem`, which is refused if the observer is on a problem of
another suite. In particular `finalizeBenchmark` can be called at any time. -/
theorem C129_safe_partial {h : Heap} {j : Java} {w : View} (r : Spec.Steps Spec.start (h, j, w)) (c : Call) (hr : Spec.Rule w c) :
    step h j c ≠ .ub ∧ step h j c ≠ .assertFail ∧
      ((∀ s o t, c ≠ .getNextProblem s o (some t)) → ∃ h' j' out, step h j c = .ok (h', j', out)) := by
  have r' : Lifecycle.Spec.Reach h w := Steps_reach .init r
  rcases step_ok (j := j) r' c hr with ⟨h', j', out, e, -⟩ | ⟨e, s, o, t, hc⟩
  · rw [e]
    exact ⟨by simp, by simp, fun _ => ⟨h', j', out, rfl⟩⟩
  · rw [e]
    exact ⟨by simp, by simp, fun hn => absurd hc (hn s o t)⟩

/-- **C129** (sweeps). With one benchmark `getNextProblem` succeeds: an observer that is on no problem other than the suite's current
one can be used for the next problem. -/
theorem C129_sweep {h : Heap} {j : Java} {w : View} (r : Spec.Steps Spec.start (h, j, w)) (s o : Nat) (t : Shape) (dim : Nat)
    (hr : Spec.Rule w (.getNextProblem s o (some (t, dim)))) (hb : ∀ d, (d ∈ w.held ∨ ∃ s', s' ≠ s ∧ w.lent s' = some d) → o ∉ d.observers) :
    ∃ h' p, step h j (.getNextProblem s o (some (t, dim))) = .ok (h', { j with problems := (p, dim) :: j.problems }, some p) := by
  have r' : Lifecycle.Spec.Reach h w := Steps_reach .init r
  obtain ⟨h', q, e⟩ := Lifecycle.C96_iteration r' (t := t) ⟨hr.1, fun o' e => by cases e; exact hr.2⟩ hb
  exact ⟨h', q, by simp only [step, Option.map_some, e, Res.ok_bind]; rfl⟩

/-- **C129** (memory). If all suites and observers are finalized and problems were only fetched from benchmarks, nothing is left. -/
theorem C129_no_leak {h : Heap} {j : Java} {w : View} (r : Spec.Steps Spec.start (h, j, w)) (hs : w.suites = []) (ho : w.observers = [])
    (hn : w.held = []) : (∀ p, h.prob p = none) ∧ (∀ s, h.suite s = none) ∧ ∀ o, h.obs o = none := by
  obtain ⟨h1, h2, h3⟩ := Lifecycle.C96_no_leak (Steps_reach (b := (h, j, w)) .init r) hn hs
  exact ⟨h1, h2, h3 ho⟩

/-- **C129** (the full statement is false). A problem of `getProblemByFuncDimInst` is never freed, whatever the program does. -/
theorem C129_leak {h h' : Heap} {j j' : Java} {w w' : View} (r : Spec.Steps Spec.start (h, j, w)) {d : Handle} (hd : d ∈ w.held)
    (s : Spec.Steps (h, j, w) (h', j', w')) : h'.prob d.id ≠ none := by
  have r' : Lifecycle.Spec.Reach h' w' := Steps_reach (b := (h', j', w')) (Steps_reach (b := (h, j, w)) .init r) s
  have hd' : d ∈ w'.held := by
    have gen : ∀ a b : Heap × Java × View, Spec.Steps a b → d ∈ a.2.2.held → d ∈ b.2.2.held := by
      intro a b s
      induction s with
      | refl => exact id
      | step _ s ih =>
        intro h0
        obtain ⟨c, out, -, -, -, hw⟩ := s
        rw [hw]
        exact after_held _ _ _ _ (ih h0)
    exact gen _ _ s hd
  obtain ⟨l, t⟩ := (Lifecycle.Reach.inv r').forest.own .user d hd'
  exact t.alive _ t.mem

/-- Every call of a program is accepted by the compiler. -/
def Spec.Program : Heap → Java → List Call → Prop
  | _, _, [] => True
  | h, j, c :: cs => Typed j c ∧ match step h j c with | .ok (h, j, _) => Spec.Program h j cs | _ => True

/-- **C129** (the full statement is false). Java programs that use a problem after the next one was fetched, pass an array that is too
short, or evaluate a problem after `finalizeBenchmark`. -/
theorem C129_undefined :
    (∀ c ∈ [Call.evaluateFunction 1 2 2, Call.getEvaluations 1 2],
      let prog := [.newSuite, .newObserver .bbob "b", .newBenchmark 0 0, .getNextProblem 0 0 (some (.base, 2)),
        .getNextProblem 0 0 (some (.base, 2)), c]
      Spec.Program Heap.init Java.init prog ∧ run Heap.init Java.init prog = .ub) ∧
    (∀ c ∈ [[Call.evaluateFunction 1 2 1], [Call.finalizeBenchmark 0 0, .evaluateFunction 1 2 2], [Call.finalizeSuite 0, .finalizeBenchmark 0 0]],
      let prog := [.newSuite, .newObserver .bbob "b", .newBenchmark 0 0, .getNextProblem 0 0 (some (.base, 2))] ++ c
      Spec.Program Heap.init Java.init prog ∧ run Heap.init Java.init prog = .ub) := by
  constructor
  · intro c hc
    simp only [List.mem_cons, List.not_mem_nil, or_false] at hc
    rcases hc with rfl | rfl
    · exact ⟨⟨trivial, trivial, ⟨.head _, .head _⟩, .head _, .head _, .tail _ (.head _), trivial⟩, rfl⟩
    · exact ⟨⟨trivial, trivial, ⟨.head _, .head _⟩, .head _, .head _, .tail _ (.head _), trivial⟩, rfl⟩
  · intro c hc
    simp only [List.mem_cons, List.not_mem_nil, or_false] at hc
    rcases hc with rfl | rfl | rfl
    · exact ⟨⟨trivial, trivial, ⟨.head _, .head _⟩, .head _, .head _, trivial⟩, rfl⟩
    · exact ⟨⟨trivial, trivial, ⟨.head _, .head _⟩, .head _, .head _, .head _, trivial⟩, rfl⟩
    · exact ⟨⟨trivial, trivial, ⟨.head _, .head _⟩, .head _, .head _, .head _, trivial⟩, rfl⟩

/-! ### A case that meets the hypotheses -/

theorem Spec.Steps.call {a : Heap × Java × View} {h : Heap} {j : Java} {w : View} (s : Spec.Steps a (h, j, w)) (c : Call) (ht : Typed j c)
    (hr : Spec.Rule w c) {h' : Heap} {j' : Java} {out : Option Nat} (e : JavaObjects.step h j c = Res.ok (h', j', out)) :
    Spec.Steps a (h', j', Spec.after w out c) := Spec.Steps.step s ⟨c, out, ht, hr, e, rfl⟩

/-- An experiment with two problems, finalized while the second one is observed. -/
example : ∃ h j w, Spec.Steps Spec.start (h, j, w) ∧ w.suites = [] ∧ w.observers = [] ∧ w.held = [] ∧ j.problems.length = 2 := by
  have r : Spec.Steps Spec.start (Heap.init, Java.init, View.init) := .refl _
  have r := r.call .newSuite trivial trivial rfl
  have r := r.call (.newObserver .bbob "b") trivial trivial rfl
  have r := r.call (.newBenchmark 0 0) ⟨.head _, .head _⟩ trivial rfl
  have r := r.call (.getNextProblem 0 0 (some (.base, 2))) (.head _) ⟨.head _, .head _⟩ rfl
  have r := r.call (.evaluateFunction 1 2 2) (.head _)
    ⟨⟨⟨1, 0, [0]⟩, .inr ⟨0, rfl⟩, rfl, .head _, fun o ho => by rw [List.mem_singleton.1 ho]; exact .head _⟩, by decide⟩ rfl
  have r := r.call (.getNextProblem 0 0 (some (.wrap .base, 3))) (.head _) ⟨.head _, .head _⟩ rfl
  have r := r.call (.finalizeBenchmark 0 0) (.head _) ⟨.head _, .head _⟩ rfl
  exact ⟨_, _, _, r, rfl, rfl, rfl, rfl⟩

/-- A problem that stays after everything has been finalized. -/
example : ∃ h j w d, Spec.Steps Spec.start (h, j, w) ∧ d ∈ w.held ∧ w.suites = [] := by
  have r : Spec.Steps Spec.start (Heap.init, Java.init, View.init) := .refl _
  have r := r.call .newSuite trivial trivial rfl
  have r := r.call (.getProblemByFuncDimInst 0 (some (.base, 2))) (.head _) (.head _) rfl
  have r := r.call (.finalizeSuite 0) (.head _) (.head _) rfl
  exact ⟨_, _, _, ⟨0, 0, []⟩, r, .head _, rfl⟩

end JavaObjects
