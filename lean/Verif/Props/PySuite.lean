import Verif.Model.PySuite
import Verif.Props.Identity
import Verif.Props.Suite

/-!
# Suites in Python (C126)

`/repo/build/python/src/cocoex/interface.pyx` lines 98-454 and 855-883.
-/

namespace PySuite

open Suite (State Prob)

/-! ### Specification -/

namespace Spec

/-- The element number `z` of a list; negative numbers count from the end, `-1` is the last one. -/
def at' {α : Type} (l : List α) (z : Int) : Option α :=
  if 0 ≤ z then l[z.toNat]? else l.reverse[(-z - 1).toNat]?

/-- The integers that fit `size_t`. -/
def Fits (z : Int) : Prop := 0 ≤ z ∧ z < 2 ^ 64

instance (z : Int) : Decidable (Fits z) := by unfold Fits; infer_instance

/-- The problem, or the exception. -/
def orElse (e : Exc) (p : Option Prob) : Out :=
  match p with
  | some p => .ok (some p)
  | none => .error e

/-- The answers of a suite with the problems `ps` to the calls. The state is the number of calls of `next_problem` since the last
`reset`, and nothing after `free`. -/
def answer (ps : List Prob) (idOf : Prob → List Char) : Option Nat → Op → Out × Option Nat
  | some n, .next => (.ok ps[n]?, some (n + 1))
  | some n, .get (.int z) => (orElse .noSuchProblem (at' ps z), some n)
  | some n, .get (.str x) => (orElse .value (ps.find? fun p => idOf p = x), some n)
  | some n, .numbers f d i =>
    (if Fits f ∧ Fits d ∧ Fits i then
      orElse .noSuchProblem (ps.find? fun p => (p.function : Int) = f ∧ (p.dimension : Int) = d ∧ (p.inst : Int) = i)
     else .error .overflow, some n)
  | some _, .reset => (.ok none, some 0)
  | none, .reset => (.ok none, none)
  | none, .next | none, .get _ => (.error .value, none)
  | none, .numbers f d i => (.error (if Fits f ∧ Fits d ∧ Fits i then .value else .overflow), none)
  | _, .free => (.ok none, none)

/-- The answers to a sequence of calls. -/
def answers (ps : List Prob) (idOf : Prob → List Char) : Option Nat → List Op → List Out
  | _, [] => []
  | st, o :: os => (answer ps idOf st o).1 :: answers ps idOf (answer ps idOf st o).2 os

/-- A call that only looks up a problem. -/
def LookUp : Op → Prop
  | .get _ | .numbers _ _ _ => True
  | _ => False

/-- A text occurs in another one. -/
def Occurs (y x : List Char) : Prop := ∃ a b, x = a ++ y ++ b

end Spec

/-! ### The problems of a suite -/

theorem mem_problems {s : State} {p : Prob} : p ∈ Suite.Spec.problems s ↔ ∃ f d i, Suite.Active s.functions f ∧
    Suite.Active s.dimensions d ∧ Suite.Active s.instances i ∧ p = Suite.probAt s f d i := by
  rw [Suite.problems_eq_allProbs]
  unfold Suite.allProbs Suite.dimProbs
  simp only [List.mem_flatMap, List.mem_map, Suite.mem_activePos]
  constructor
  · rintro ⟨d, hd, f, hf, i, hi, rfl⟩
    exact ⟨f, d, i, hf, hd, hi, rfl⟩
  · rintro ⟨f, d, i, hf, hd, hi, rfl⟩
    exact ⟨d, hd, f, hf, i, hi, rfl⟩

theorem probAt_active {s : State} {f d i : Nat} (hf : Suite.Active s.functions f) (hd : Suite.Active s.dimensions d)
    (hi : Suite.Active s.instances i) : s.functions[f]? = some (Suite.probAt s f d i).function ∧
      s.dimensions[d]? = some (Suite.probAt s f d i).dimension ∧ s.instances[i]? = some (Suite.probAt s f d i).inst ∧
      (Suite.probAt s f d i).function ≠ 0 ∧ (Suite.probAt s f d i).dimension ≠ 0 ∧ (Suite.probAt s f d i).inst ≠ 0 := by
  obtain ⟨a, ha, ha'⟩ := hf
  obtain ⟨b, hb, hb'⟩ := hd
  obtain ⟨c, hc, hc'⟩ := hi
  simp [Suite.probAt, ha, hb, hc, ha', hb', hc']

theorem get_problem {s : State} {p : Prob} (h : p ∈ Suite.Spec.problems s) : Suite.getProblem s p.index = .ok (some p) ∧
    p.index < Suite.numberOfProblems s := by
  obtain ⟨f, d, i, hf, hd, hi, rfl⟩ := mem_problems.mp h
  have hf' := Suite.active_lt hf
  have hd' := Suite.active_lt hd
  have hi' := Suite.active_lt hi
  refine ⟨?_, (Suite.C03_decode_encode s f d i 0 0 0 hf' hd' hi').1⟩
  have e : (Suite.probAt s f d i).index = Suite.encode s f d i := rfl
  rw [e, Suite.C04_get_problem_partial s f d i hf' hd' hi', if_neg]
  · simp [Suite.probAt, List.getElem?_eq_getElem hf', List.getElem?_eq_getElem hd', List.getElem?_eq_getElem hi']
  · rw [Suite.active_iff_getElem hf'] at hf
    rw [Suite.active_iff_getElem hd'] at hd
    rw [Suite.active_iff_getElem hi'] at hi
    simp [hf, hd, hi]

theorem sorted_length (N : Nat) : ∀ (l : List Nat) (a : Nat), l.Pairwise (· < ·) → (∀ x ∈ l, a ≤ x ∧ x < N) → l.length ≤ N - a := by
  intro l
  induction l with
  | nil => intro a _ _; simp
  | cons x l ih =>
    intro a hp hx
    rw [List.pairwise_cons] at hp
    have h1 := hx x (by simp)
    have := ih (x + 1) hp.2 fun y hy => ⟨hp.1 y hy, (hx y (by simp [hy])).2⟩
    rw [List.length_cons]
    omega

theorem problems_length (s : State) : (Suite.Spec.problems s).length ≤ Suite.numberOfProblems s := by
  have := sorted_length (Suite.numberOfProblems s) _ 0 (Suite.C01_each_once s) (by
    intro x hx
    obtain ⟨p, hp, rfl⟩ := List.mem_map.mp hx
    exact ⟨Nat.zero_le _, (get_problem hp).2⟩)
  simpa using this

/-- The first problem with a property is the one with the smallest index. -/
theorem find_least (P : Prob → Bool) : ∀ (ps : List Prob) (q : Prob), (ps.map (·.index)).Pairwise (· < ·) → q ∈ ps → P q = true →
    (∀ p ∈ ps, P p = true → q.index ≤ p.index) → ps.find? P = some q := by
  intro ps
  induction ps with
  | nil => intro q _ h; simp at h
  | cons p ps ih =>
    intro q hp hq hP hm
    rw [List.map_cons, List.pairwise_cons] at hp
    rw [List.find?_cons]
    rcases List.mem_cons.mp hq with rfl | hq
    · rw [hP]
    · have h1 := hp.1 q.index (List.mem_map_of_mem hq)
      cases h : P p with
      | true =>
        have := hm p (by simp) h
        omega
      | false => exact ih q hp.2 hq hP fun r hr => hm r (by simp [hr])

theorem findFirst_zero {l : List Nat} {j : Nat} (h : Suite.findFirst l 0 = some j) : l[j]? = some 0 :=
  (Suite.findFirst_some h).1

theorem by_numbers (s : State) (f d i : Nat) : Suite.problemByNumbers s f d i =
    .ok ((Suite.Spec.problems s).find? fun p => p.function = f ∧ p.dimension = d ∧ p.inst = i) := by
  by_cases h0 : f ≠ 0 ∧ d ≠ 0 ∧ i ≠ 0
  · obtain ⟨hf, hd, hi⟩ := h0
    obtain ⟨h1, h2⟩ := Suite.C05_lookup s f d i hf hd hi
    by_cases hm : f ∈ s.functions ∧ d ∈ s.dimensions ∧ i ∈ s.instances
    · obtain ⟨fp, dp, ip, e1, e2, e3, e4, e5⟩ := h1 hm
      rw [e4]
      congr 1
      symm
      have ef : Suite.Active s.functions fp := ⟨f, e1, hf⟩
      have ed : Suite.Active s.dimensions dp := ⟨d, e2, hd⟩
      have ei : Suite.Active s.instances ip := ⟨i, e3, hi⟩
      have eq : Suite.probAt s fp dp ip = ⟨f, d, i, Suite.encode s fp dp ip⟩ := by
        simp [Suite.probAt, e1, e2, e3]
      refine find_least _ _ _ (Suite.C01_each_once s) (mem_problems.mpr ⟨fp, dp, ip, ef, ed, ei, eq.symm⟩) (by simp) ?_
      intro p hp hP
      obtain ⟨f', d', i', af, ad, ai, rfl⟩ := mem_problems.mp hp
      obtain ⟨g1, g2, g3, -, -, -⟩ := probAt_active af ad ai
      simp only [decide_eq_true_eq] at hP
      rw [hP.1] at g1
      rw [hP.2.1] at g2
      rw [hP.2.2] at g3
      exact e5 f' d' i' g1 g2 g3
    · rw [h2 hm]
      congr 1
      symm
      rw [List.find?_eq_none]
      intro p hp hP
      obtain ⟨f', d', i', af, ad, ai, rfl⟩ := mem_problems.mp hp
      obtain ⟨g1, g2, g3, -, -, -⟩ := probAt_active af ad ai
      simp only [decide_eq_true_eq] at hP
      rw [hP.1] at g1
      rw [hP.2.1] at g2
      rw [hP.2.2] at g3
      exact hm ⟨List.mem_of_getElem? g1, List.mem_of_getElem? g2, List.mem_of_getElem? g3⟩
  · have hn : (Suite.Spec.problems s).find? (fun p => p.function = f ∧ p.dimension = d ∧ p.inst = i) = none := by
      rw [List.find?_eq_none]
      intro p hp hP
      obtain ⟨f', d', i', af, ad, ai, rfl⟩ := mem_problems.mp hp
      obtain ⟨-, -, -, g1, g2, g3⟩ := probAt_active af ad ai
      simp only [decide_eq_true_eq] at hP
      exact h0 ⟨hP.1 ▸ g1, hP.2.1 ▸ g2, hP.2.2 ▸ g3⟩
    rw [hn]
    unfold Suite.problemByNumbers
    cases e1 : Suite.findFirst s.functions f with
    | none => rfl
    | some a =>
      cases e2 : Suite.findFirst s.dimensions d with
      | none => rfl
      | some b =>
        cases e3 : Suite.findFirst s.instances i with
        | none => rfl
        | some c =>
          have g1 := (Suite.findFirst_some e1).1
          have g2 := (Suite.findFirst_some e2).1
          have g3 := (Suite.findFirst_some e3).1
          show Suite.problemFromIndices s a b c = _
          unfold Suite.problemFromIndices
          simp only [Res.readNat, g1, g2, g3, Res.bind_ok]
          by_cases hf : f = 0
          · simp [hf]
          · by_cases hd : d = 0
            · simp [hf, hd]
            · have hi : i = 0 := by
                by_contra hi
                exact h0 ⟨hf, hd, hi⟩
              simp [hf, hd, hi]

/-! ### Construction -/

theorem collect_runN : ∀ (ps : List Prob) (n : Nat) (s t : State), ps.length < n →
    Suite.runN (ps.length + 1) s = .ok (ps.map some ++ [none], t) → collect n s = .ok ps := by
  intro ps
  induction ps with
  | nil =>
    intro n s t hn h
    obtain ⟨m, rfl⟩ : ∃ m, n = m + 1 := ⟨n - 1, by simp at hn; omega⟩
    unfold Suite.runN at h
    unfold collect
    cases e : Suite.nextProblem s with
    | ok r =>
      rw [e] at h
      simp [Suite.runN] at h
      simp [h.1]
    | _ => rw [e] at h; cases h
  | cons p ps ih =>
    intro n s t hn h
    obtain ⟨m, rfl⟩ : ∃ m, n = m + 1 := ⟨n - 1, by simp at hn; omega⟩
    unfold Suite.runN at h
    unfold collect
    cases e : Suite.nextProblem s with
    | ok r =>
      rw [e] at h
      simp only [Res.bind_ok, List.length_cons] at h
      cases e' : Suite.runN (ps.length + 1) r.2 with
      | ok q =>
        rw [e'] at h
        simp only [Res.bind_ok, Res.pure_eq, Res.ok.injEq, Prod.mk.injEq, List.map_cons, List.cons_append, List.cons.injEq] at h
        have := ih m r.2 q.2 (by simp at hn; omega) (by rw [e']; congr 1; exact Prod.ext h.1.2 rfl)
        simp only [Res.bind_ok, h.1.1, this, Res.pure_eq]
      | _ => rw [e'] at h; cases h
    | _ => rw [e] at h; cases h

/-- Two states of the same suite. -/
def Same (c s : State) : Prop := c.functions = s.functions ∧ c.dimensions = s.dimensions ∧ c.instances = s.instances

theorem Same.problems {c s : State} (h : Same c s) : Suite.Spec.problems c = Suite.Spec.problems s := by
  obtain ⟨h1, h2, h3⟩ := h
  simp only [Suite.Spec.problems, h1, h2, h3]

theorem Same.number {c s : State} (h : Same c s) : Suite.numberOfProblems c = Suite.numberOfProblems s := by
  obtain ⟨h1, h2, h3⟩ := h
  simp only [Suite.numberOfProblems, h1, h2, h3]

theorem create_ok (idOf : Prob → List Char) (s : State) (hs : Suite.Spec.Unstarted s) (hn : Suite.Spec.NonEmpty s) :
    ∃ c, Same c s ∧ create idOf s = .ok (.ok ⟨some c, (Suite.Spec.problems s).map (·.index), (Suite.Spec.problems s).map idOf,
      (Suite.Spec.problems s).map (·.dimension), none⟩) := by
  obtain ⟨c, t, h1, h2⟩ := Suite.C01_iteration_complete s hs hn
  have hc : Same c s := by
    obtain ⟨hF, hD, hI⟩ := hn
    obtain ⟨f0, postF, hF0⟩ := Suite.exists_activePos_cons hF
    obtain ⟨d0, postD, hD0⟩ := Suite.exists_activePos_cons hD
    obtain ⟨i0, postI, hI0⟩ := Suite.exists_activePos_cons hI
    rw [Suite.finishConstruction_eq hs hI0 hF0 hD0] at h1
    cases h1
    exact ⟨rfl, rfl, rfl⟩
  refine ⟨c, hc, ?_⟩
  have hl := problems_length s
  rw [← hc.number] at hl
  have := collect_runN _ (Suite.numberOfProblems c + 1) c t (by omega) h2
  unfold create
  simp only [h1, Res.bind_ok, this, Res.pure_eq]

/-! ### Calls -/

/-- The object and the state of the specification. -/
def Rel (ps : List Prob) (idOf : Prob → List Char) (s : State) (v : Obj) (st : Option Nat) : Prop :=
  v.indices = ps.map (·.index) ∧ v.ids = ps.map idOf ∧
    (match st with
     | none => v.suite = none
     | some n => (∃ c, v.suite = some c ∧ Same c s) ∧ v.current.getD (-1) = (n : Int) - 1)

theorem pyIndex_eq (ps : List Prob) (z : Int) : pyIndex (ps.map (·.index)) z = (Spec.at' ps z).map (·.index) := by
  unfold pyIndex Spec.at'
  by_cases h : 0 ≤ z
  · simp [h]
  · rw [if_neg h, if_neg h, List.length_map]
    by_cases h2 : (0 : Int) ≤ ps.length + z
    · rw [if_pos h2, List.getElem?_map, List.getElem?_reverse (by omega)]
      congr 2
      omega
    · rw [if_neg h2, List.getElem?_eq_none (by rw [List.length_reverse]; omega)]
      rfl

theorem findIdx_eq (idOf : Prob → List Char) (x : List Char) : ∀ ps : List Prob,
    ((ps.map idOf).findIdx? (· == x)).bind (fun k => ps[k]?) = ps.find? (fun p => idOf p = x) ∧
      ((ps.map idOf).findIdx? (· == x) = none ↔ ps.find? (fun p => idOf p = x) = none) := by
  intro ps
  induction ps with
  | nil => simp
  | cons p ps ih =>
    rw [List.map_cons, List.findIdx?_cons, List.find?_cons]
    by_cases h : idOf p = x
    · simp [h]
    · have h' : (idOf p == x) = false := by simpa using h
      simp only [h', h, decide_false, Bool.false_eq_true, if_false]
      rw [← ih.1]
      constructor
      · cases (ps.map idOf).findIdx? (· == x) <;> simp
      · rw [Option.map_eq_none_iff, ih.2, ih.1]

theorem at_mem {α : Type} {l : List α} {z : Int} {a : α} (h : Spec.at' l z = some a) : a ∈ l := by
  unfold Spec.at' at h
  split at h
  · exact List.mem_of_getElem? h
  · exact List.mem_reverse.mp (List.mem_of_getElem? h)

theorem step_ok (idOf : Prob → List Char) (s : State) (v : Obj) (st : Option Nat) (o : Op)
    (hr : Rel (Suite.Spec.problems s) idOf s v st) : ∃ v', step v o = .ok ((Spec.answer (Suite.Spec.problems s) idOf st o).1, v') ∧
      Rel (Suite.Spec.problems s) idOf s v' (Spec.answer (Suite.Spec.problems s) idOf st o).2 ∧ (Spec.LookUp o → v' = v) := by
  obtain ⟨h1, h2, h3⟩ := hr
  have hget : ∀ c, Same c s → ∀ p ∈ Suite.Spec.problems s, Suite.getProblem c p.index = .ok (some p) := by
    intro c hc p hp
    exact (get_problem (hc.problems ▸ hp)).1
  cases st with
  | none =>
    have h3 : v.suite = none := h3
    cases o with
    | next => exact ⟨v, by simp [step, nextProblem, h3, Spec.answer], ⟨h1, h2, h3⟩, fun h => h.elim⟩
    | reset => exact ⟨reset v, rfl, ⟨h1, h2, h3⟩, fun h => h.elim⟩
    | free => exact ⟨free v, rfl, ⟨h1, h2, rfl⟩, fun h => h.elim⟩
    | get key => exact ⟨v, by simp [step, getProblem, h3, Spec.answer, Except.map], ⟨h1, h2, h3⟩, fun _ => rfl⟩
    | numbers f d i =>
      refine ⟨v, ?_, ⟨h1, h2, h3⟩, fun _ => rfl⟩
      by_cases hf : Spec.Fits f ∧ Spec.Fits d ∧ Spec.Fits i
      · have : ¬ (f < 0 ∨ d < 0 ∨ i < 0 ∨ f ≥ 2 ^ 64 ∨ d ≥ 2 ^ 64 ∨ i ≥ 2 ^ 64) := by
          unfold Spec.Fits at hf
          omega
        simp only [step, byNumbers, if_neg this, h3, Spec.answer, if_pos hf, Res.bind_ok, Res.pure_eq, Except.map]
      · have : f < 0 ∨ d < 0 ∨ i < 0 ∨ f ≥ 2 ^ 64 ∨ d ≥ 2 ^ 64 ∨ i ≥ 2 ^ 64 := by
          unfold Spec.Fits at hf
          omega
        simp only [step, byNumbers, if_pos this, Spec.answer, if_neg hf, Res.bind_ok, Res.pure_eq, Except.map]
  | some n =>
    obtain ⟨⟨c, hc, hs⟩, hn⟩ := h3
    cases o with
    | reset => exact ⟨reset v, rfl, ⟨h1, h2, ⟨c, hc, hs⟩, rfl⟩, fun h => h.elim⟩
    | free => exact ⟨free v, rfl, ⟨h1, h2, rfl⟩, fun h => h.elim⟩
    | next =>
      have hk : v.current.getD (-1) + 1 = (n : Int) := by omega
      refine ⟨{ v with current := some n }, ?_, ⟨h1, h2, ⟨c, hc, hs⟩, by simp⟩, fun h => h.elim⟩
      simp only [step, nextProblem, hc, hk, h1, List.length_map, Spec.answer]
      by_cases hlt : n < (Suite.Spec.problems s).length
      · rw [if_neg (by omega)]
        have e : Res.readNat ((Suite.Spec.problems s).map (·.index)) (n : Int).toNat = .ok ((Suite.Spec.problems s)[n]).index := by
          simp [Res.readNat, List.getElem?_eq_getElem hlt]
        rw [e, Res.bind_ok, hget c hs _ (List.getElem_mem hlt), Res.bind_ok, List.getElem?_eq_getElem hlt]
        rfl
      · rw [if_pos (by omega), List.getElem?_eq_none (by omega)]
    | get key =>
      refine ⟨v, ?_, by cases key <;> exact ⟨h1, h2, ⟨c, hc, hs⟩, hn⟩, fun _ => rfl⟩
      cases key with
      | int z =>
        simp only [step, getProblem, hc, h1, pyIndex_eq, Spec.answer]
        cases e : Spec.at' (Suite.Spec.problems s) z with
        | none => rfl
        | some p =>
          simp only [Option.map_some, hget c hs p (at_mem e), Res.bind_ok, problemInit]
          rfl
      | str x =>
        obtain ⟨g1, g2⟩ := findIdx_eq idOf x (Suite.Spec.problems s)
        simp only [step, getProblem, hc, h2, Spec.answer]
        cases e : ((Suite.Spec.problems s).map idOf).findIdx? (· == x) with
        | none =>
          rw [g2.mp e]
          rfl
        | some k =>
          rw [e, Option.bind_some] at g1
          rw [← g1]
          cases e' : (Suite.Spec.problems s)[k]? with
          | none =>
            rw [e'] at g1
            rw [g2.mpr g1.symm] at e
            cases e
          | some p =>
            have : pyIndex v.indices (k : Int) = some p.index := by
              rw [h1, pyIndex_eq]
              simp [Spec.at', e']
            simp only [this, hget c hs p (List.mem_of_getElem? e'), Res.bind_ok, problemInit]
            rfl
    | numbers f d i =>
      refine ⟨v, ?_, ⟨h1, h2, ⟨c, hc, hs⟩, hn⟩, fun _ => rfl⟩
      by_cases hf : Spec.Fits f ∧ Spec.Fits d ∧ Spec.Fits i
      · have : ¬ (f < 0 ∨ d < 0 ∨ i < 0 ∨ f ≥ 2 ^ 64 ∨ d ≥ 2 ^ 64 ∨ i ≥ 2 ^ 64) := by
          unfold Spec.Fits at hf
          omega
        have eP : (fun p : Prob => decide (p.function = f.toNat ∧ p.dimension = d.toNat ∧ p.inst = i.toNat)) =
            fun p : Prob => decide ((p.function : Int) = f ∧ (p.dimension : Int) = d ∧ (p.inst : Int) = i) := by
          funext p
          unfold Spec.Fits at hf
          rw [decide_eq_decide]
          omega
        simp only [step, byNumbers, if_neg this, hc, by_numbers, hs.problems, eP, Spec.answer, if_pos hf, Res.bind_ok]
        cases (Suite.Spec.problems s).find? fun p => decide ((p.function : Int) = f ∧ (p.dimension : Int) = d ∧ (p.inst : Int) = i)
          <;> rfl
      · have : f < 0 ∨ d < 0 ∨ i < 0 ∨ f ≥ 2 ^ 64 ∨ d ≥ 2 ^ 64 ∨ i ≥ 2 ^ 64 := by
          unfold Spec.Fits at hf
          omega
        simp only [step, byNumbers, if_pos this, Spec.answer, if_neg hf, Res.bind_ok, Res.pure_eq, Except.map]

theorem run_ok (idOf : Prob → List Char) (s : State) (os : List Op) : ∀ (v : Obj) (st : Option Nat),
    Rel (Suite.Spec.problems s) idOf s v st → ∃ v' st', run v os = .ok (Spec.answers (Suite.Spec.problems s) idOf st os, v') ∧
      Rel (Suite.Spec.problems s) idOf s v' st' ∧ ((∀ o ∈ os, Spec.LookUp o) → v' = v) ∧
      (.free ∉ os → st ≠ none → st' ≠ none) := by
  induction os with
  | nil => intro v st h; exact ⟨v, st, rfl, h, fun _ => rfl, fun _ h => h⟩
  | cons o os ih =>
    intro v st h
    obtain ⟨v1, e1, h1, l1⟩ := step_ok idOf s v st o h
    obtain ⟨v2, st2, e2, h2, l2, f2⟩ := ih v1 _ h1
    refine ⟨v2, st2, ?_, h2, ?_, ?_⟩
    · simp only [run, e1, Res.bind_ok, e2, Res.pure_eq, Spec.answers]
    · intro hl
      rw [l2 fun o ho => hl o (by simp [ho]), l1 (hl o (by simp))]
    · intro hf hst
      rw [List.mem_cons, not_or] at hf
      refine f2 hf.2 ?_
      obtain ⟨n, rfl⟩ := Option.ne_none_iff_exists'.mp hst
      cases o with
      | get key => cases key <;> simp [Spec.answer]
      | free => exact absurd rfl hf.1
      | _ => simp [Spec.answer]

/-! ### Loops -/

theorem loop_ok (idOf : Prob → List Char) (s : State) (body : Prob → List Op) (hb : ∀ p, ∀ o ∈ body p, Spec.LookUp o) :
    ∀ (m fuel n : Nat) (v : Obj), m + n = (Suite.Spec.problems s).length → m < fuel →
      Rel (Suite.Spec.problems s) idOf s v (some n) → ∃ v', loop body fuel v = .ok ((Suite.Spec.problems s).drop n, v') ∧
        Rel (Suite.Spec.problems s) idOf s v' (some ((Suite.Spec.problems s).length + 1)) := by
  intro m
  induction m with
  | zero =>
    intro fuel n v hm hf hr
    obtain ⟨k, rfl⟩ : ∃ k, fuel = k + 1 := ⟨fuel - 1, by omega⟩
    obtain ⟨v1, e1, h1, -⟩ := step_ok idOf s v _ .next hr
    have en : (Suite.Spec.problems s)[n]? = none := List.getElem?_eq_none (by omega)
    simp only [Spec.answer, en, step] at e1 h1
    refine ⟨v1, ?_, by have : n = (Suite.Spec.problems s).length := by omega
                       rw [← this]; exact h1⟩
    simp only [loop, e1, Res.bind_ok, Res.pure_eq]
    rw [List.drop_eq_nil_of_le (by omega)]
  | succ m ih =>
    intro fuel n v hm hf hr
    obtain ⟨k, rfl⟩ : ∃ k, fuel = k + 1 := ⟨fuel - 1, by omega⟩
    obtain ⟨v1, e1, h1, -⟩ := step_ok idOf s v _ .next hr
    have hn : n < (Suite.Spec.problems s).length := by omega
    have en : (Suite.Spec.problems s)[n]? = some (Suite.Spec.problems s)[n] := List.getElem?_eq_getElem hn
    simp only [Spec.answer, en, step] at e1 h1
    obtain ⟨v2, st2, e2, -, l2, -⟩ := run_ok idOf s (body (Suite.Spec.problems s)[n]) v1 _ h1
    rw [l2 (hb _)] at e2
    obtain ⟨v3, e3, h3⟩ := ih k (n + 1) v1 (by omega) (by omega) h1
    refine ⟨v3, ?_, h3⟩
    simp only [loop, e1, Res.bind_ok, e2, e3, Res.pure_eq]
    rw [List.drop_eq_getElem_cons hn]

theorem rel_create {idOf : Prob → List Char} {s : State} {v : Obj} (hs : Suite.Spec.Unstarted s) (hn : Suite.Spec.NonEmpty s)
    (h : create idOf s = .ok (.ok v)) : Rel (Suite.Spec.problems s) idOf s v (some 0) := by
  obtain ⟨c, hc, e⟩ := create_ok idOf s hs hn
  rw [e] at h
  cases h
  exact ⟨rfl, rfl, ⟨c, rfl, hc⟩, rfl⟩

theorem rel_reset {ps : List Prob} {idOf : Prob → List Char} {s : State} {v : Obj} {n : Nat} (h : Rel ps idOf s v (some n)) :
    Rel ps idOf s (reset v) (some 0) := ⟨h.1, h.2.1, h.2.2.1, rfl⟩

/-- The calls of `next_problem` of a complete loop after `k` calls. -/
theorem run_nexts (idOf : Prob → List Char) (s : State) : ∀ (m n : Nat) (v : Obj), Rel (Suite.Spec.problems s) idOf s v (some n) →
    ∃ r v', run v (List.replicate m .next) = .ok (r, v') ∧ Rel (Suite.Spec.problems s) idOf s v' (some (n + m)) := by
  intro m
  induction m with
  | zero => intro n v h; exact ⟨[], v, rfl, h⟩
  | succ m ih =>
    intro n v h
    obtain ⟨v1, e1, h1, -⟩ := step_ok idOf s v _ .next h
    obtain ⟨r, v2, e2, h2⟩ := ih (n + 1) v1 h1
    refine ⟨(Spec.answer (Suite.Spec.problems s) idOf (some n) .next).1 :: r, v2, ?_,
      by rw [show n + (m + 1) = n + 1 + m by omega]; exact h2⟩
    rw [List.replicate_succ]
    simp only [run, e1, Res.bind_ok, e2, Res.pure_eq]

/-! ### Texts -/

theorem find_isSome (y : List Char) : ∀ x : List Char, (find y x).isSome = true ↔ Spec.Occurs y x := by
  intro x
  induction x with
  | nil =>
    unfold find
    constructor
    · intro h
      split at h
      · rename_i e; exact ⟨[], [], by simp [e]⟩
      · cases h
    · rintro ⟨a, b, h⟩
      have : y = [] := by
        have := congrArg List.length h
        simp at this
        exact List.eq_nil_of_length_eq_zero (by omega)
      simp [this]
  | cons c x ih =>
    unfold find
    by_cases h : y.isPrefixOf (c :: x) = true
    · rw [if_pos h]
      obtain ⟨b, hb⟩ := List.isPrefixOf_iff_prefix.mp h
      exact ⟨fun _ => ⟨[], b, by simp [hb]⟩, fun _ => rfl⟩
    · rw [if_neg h, Option.isSome_map, ih]
      constructor
      · rintro ⟨a, b, rfl⟩
        exact ⟨c :: a, b, rfl⟩
      · rintro ⟨a, b, e⟩
        cases a with
        | nil => exact absurd (List.isPrefixOf_iff_prefix.mpr ⟨b, e.symm⟩) h
        | cons c' a =>
          simp only [List.cons_append, List.cons.injEq] at e
          exact ⟨a, b, e.2⟩

theorem insertDim_mem (d x : Nat) : ∀ l, x ∈ insertDim d l ↔ x = d ∨ x ∈ l := by
  intro l
  induction l with
  | nil => simp [insertDim]
  | cons a l ih =>
    unfold insertDim
    split
    · simp
    · split
      · rename_i h; subst h; simp
      · rw [List.mem_cons, ih, List.mem_cons]
        tauto

theorem insertDim_sorted (d : Nat) : ∀ l : List Nat, l.Pairwise (· < ·) → (insertDim d l).Pairwise (· < ·) := by
  intro l
  induction l with
  | nil => intro _; simp [insertDim]
  | cons a l ih =>
    intro h
    have h' := List.pairwise_cons.mp h
    unfold insertDim
    split
    · rename_i hd
      refine List.pairwise_cons.mpr ⟨?_, h⟩
      intro x hx
      rcases List.mem_cons.mp hx with rfl | hx
      · exact hd
      · have := h'.1 x hx; omega
    · split
      · exact h
      · refine List.pairwise_cons.mpr ⟨?_, ih h'.2⟩
        intro x hx
        rcases (insertDim_mem d x l).mp hx with rfl | hx
        · omega
        · exact h'.1 x hx

theorem dims_ok (l : List Nat) : (l.foldr insertDim []).Pairwise (· < ·) ∧ ∀ d, d ∈ l.foldr insertDim [] ↔ d ∈ l := by
  induction l with
  | nil => simp
  | cons a l ih =>
    refine ⟨insertDim_sorted a _ ih.1, fun d => ?_⟩
    rw [List.foldr_cons, insertDim_mem, ih.2, List.mem_cons]

/-- No `_` in the text, followed by another `_`, is followed by the given character. -/
def clean (c : Char) : List Char → Bool
  | [] => true
  | x :: a => !(x == '_' && (a ++ ['_']).head? == some c) && clean c a

theorem find_clean (c : Char) (b : List Char) : ∀ a : List Char, clean c a = true →
    find ['_', c] (a ++ '_' :: c :: b) = some a.length := by
  intro a
  induction a with
  | nil => intro _; simp [find, List.isPrefixOf]
  | cons x a ih =>
    intro h
    rw [clean, Bool.and_eq_true] at h
    have hn : ¬ (['_', c].isPrefixOf (x :: (a ++ '_' :: c :: b)) = true) := by
      intro hp
      have h1 := h.1
      cases a with
      | nil =>
        simp [List.isPrefixOf] at hp h1
        exact h1.elim (fun h => h hp.1.symm) fun h => h hp.2.symm
      | cons y a =>
        simp [List.isPrefixOf] at hp h1
        exact h1.elim (fun h => h hp.1.symm) fun h => h hp.2.symm
    rw [List.cons_append, find, if_neg hn, ih h.2]
    rfl

theorem clean_append (c : Char) (b : List Char) (hb : clean c ('_' :: b) = true) : ∀ a : List Char, clean c a = true →
    clean c (a ++ '_' :: b) = true := by
  intro a
  induction a with
  | nil => intro _; exact hb
  | cons x a ih =>
    intro h
    rw [clean, Bool.and_eq_true] at h
    rw [List.cons_append, clean, ih h.2, Bool.and_true]
    cases a with
    | nil => exact h.1
    | cons y a => exact h.1

theorem clean_digits (c : Char) : ∀ a : List Char, (∀ x ∈ a, x.isDigit = true) → clean c a = true := by
  intro a
  induction a with
  | nil => intro _; rfl
  | cons x a ih =>
    intro h
    have hx : (x == '_') = false := by
      have := h x (by simp)
      rw [beq_eq_false_iff_ne]
      rintro rfl
      revert this
      decide
    rw [clean, hx, Bool.false_and, ih fun y hy => h y (by simp [hy])]
    rfl

theorem int_pad (w n : Nat) (b : List Char) : pyInt (upToBar (BiobjFiles.Spec.pad w n ++ '_' :: b)) = some n := by
  have hd := BiobjFiles.pad_digit w n
  have hu : upToBar (BiobjFiles.Spec.pad w n ++ '_' :: b) = BiobjFiles.Spec.pad w n := by
    unfold upToBar
    rw [List.takeWhile_append_of_pos]
    · simp
    · intro x hx
      have := hd x hx
      simp only [decide_not, Bool.not_eq_true', decide_eq_false_iff_not]
      rintro rfl
      revert this
      decide
  rw [hu, pyInt, if_pos, BiobjFiles.decimal_pad]
  refine ⟨?_, List.all_eq_true.mpr hd⟩
  intro h
  have := congrArg List.length h
  simp only [BiobjFiles.Spec.pad, List.length_append, List.length_nil] at this
  exact InfoFile.dec_ne_nil n (List.eq_nil_of_length_eq_zero (by omega))

theorem triple_ident (t : String) (h1 : clean 'f' t.toList = true) (h2 : clean 'i' t.toList = true) (wf wi wd f i d : Nat) :
    idTriple (Identity.Spec.ident t wf wi wd f i d) d = some (f, d, i) := by
  have e1 : "_f".toList = ['_', 'f'] := by decide +kernel
  have e2 : "_i".toList = ['_', 'i'] := by decide +kernel
  have e3 : "_d".toList = ['_', 'd'] := by decide +kernel
  have p1 : parseId (Identity.Spec.ident t wf wi wd f i d) ['_', 'f'] = some f := by
    have e : Identity.Spec.ident t wf wi wd f i d = t.toList ++ '_' :: 'f' :: (BiobjFiles.Spec.pad wf f ++ '_' :: ('i' ::
        (BiobjFiles.Spec.pad wi i ++ ['_', 'd'] ++ BiobjFiles.Spec.pad wd d))) := by
      simp [Identity.Spec.ident, e1, e2, e3]
    rw [parseId, e, find_clean 'f' _ _ h1]
    have : (t.toList ++ '_' :: 'f' :: (BiobjFiles.Spec.pad wf f ++ '_' :: ('i' ::
        (BiobjFiles.Spec.pad wi i ++ ['_', 'd'] ++ BiobjFiles.Spec.pad wd d)))).drop (t.toList.length + ['_', 'f'].length) =
        BiobjFiles.Spec.pad wf f ++ '_' :: ('i' :: (BiobjFiles.Spec.pad wi i ++ ['_', 'd'] ++ BiobjFiles.Spec.pad wd d)) := by
      rw [List.drop_append]
      simp
    simp only [this, int_pad]
  have p2 : parseId (Identity.Spec.ident t wf wi wd f i d) ['_', 'i'] = some i := by
    have e : Identity.Spec.ident t wf wi wd f i d = (t.toList ++ '_' :: 'f' :: BiobjFiles.Spec.pad wf f) ++ '_' :: 'i' ::
        (BiobjFiles.Spec.pad wi i ++ '_' :: ('d' :: BiobjFiles.Spec.pad wd d)) := by
      simp [Identity.Spec.ident, e1, e2, e3]
    have hc : clean 'i' (t.toList ++ '_' :: 'f' :: BiobjFiles.Spec.pad wf f) = true := by
      refine clean_append _ _ ?_ _ h2
      rw [clean, clean, clean_digits _ _ (BiobjFiles.pad_digit wf f)]
      simp
    rw [parseId, e, find_clean 'i' _ _ hc]
    have : ((t.toList ++ '_' :: 'f' :: BiobjFiles.Spec.pad wf f) ++ '_' :: 'i' ::
        (BiobjFiles.Spec.pad wi i ++ '_' :: ('d' :: BiobjFiles.Spec.pad wd d))).drop
          ((t.toList ++ '_' :: 'f' :: BiobjFiles.Spec.pad wf f).length + ['_', 'i'].length) =
        BiobjFiles.Spec.pad wi i ++ '_' :: ('d' :: BiobjFiles.Spec.pad wd d) := by
      rw [List.drop_append]
      simp
    simp only [this, int_pad]
  rw [idTriple, e1, e2, p1, p2]
  rfl

theorem find_none {y x : List Char} (h : ¬ Spec.Occurs y x) : find y x = none := by
  cases e : find y x with
  | none => rfl
  | some k => exact absurd ((find_isSome y x).mp (by rw [e]; rfl)) h

/-! ### C126 -/

/-- **C126** A suite has the problems that its options leave, in the order of the C library: its length, its ids and its dimensions,
ascending and each once, are theirs. -/
theorem C126_content (idOf : Prob → List Char) (s : State) (hs : Suite.Spec.Unstarted s) (hn : Suite.Spec.NonEmpty s) :
    ∃ v, create idOf s = .ok (.ok v) ∧ v.indices = (Suite.Spec.problems s).map (·.index) ∧ ids v [] = (Suite.Spec.problems s).map idOf ∧
      (dimensions v).Pairwise (· < ·) ∧ ∀ d, d ∈ dimensions v ↔ ∃ p ∈ Suite.Spec.problems s, p.dimension = d := by
  obtain ⟨c, -, e⟩ := create_ok idOf s hs hn
  refine ⟨_, e, rfl, ?_, (dims_ok _).1, fun d => ?_⟩
  · simp [ids]
  · rw [dimensions, (dims_ok _).2]
    simp

/-- **C126** Every sequence of calls is answered as specified: `next_problem` walks through the problems from the first one after a
`reset`, and returns `None` from then on; indices, ids and numbers give the (first) problem with that index, id or numbers, whatever
was called before; anything else raises an exception. -/
theorem C126_calls (idOf : Prob → List Char) (s : State) (hs : Suite.Spec.Unstarted s) (hn : Suite.Spec.NonEmpty s) (v : Obj)
    (hv : create idOf s = .ok (.ok v)) (os : List Op) :
    ∃ v', run v os = .ok (Spec.answers (Suite.Spec.problems s) idOf (some 0) os, v') := by
  obtain ⟨v', -, e, -⟩ := run_ok idOf s os v _ (rel_create hs hn hv)
  exact ⟨v', e⟩

/-- **C126** After any calls, a loop over the suite whose body only looks up problems is run for every problem of the suite exactly
once, in order. -/
theorem C126_loop (idOf : Prob → List Char) (s : State) (hs : Suite.Spec.Unstarted s) (hn : Suite.Spec.NonEmpty s) (v : Obj)
    (hv : create idOf s = .ok (.ok v)) (os : List Op) (ho : .free ∉ os) (body : Prob → List Op)
    (hb : ∀ p, ∀ o ∈ body p, Spec.LookUp o) (fuel : Nat) (hf : (Suite.Spec.problems s).length < fuel) :
    ∃ rs v1 v2, run v os = .ok (rs, v1) ∧ sweep body fuel v1 = .ok (Suite.Spec.problems s, v2) := by
  obtain ⟨v1, st, e1, h1, -, g1⟩ := run_ok idOf s os v _ (rel_create hs hn hv)
  obtain ⟨n, rfl⟩ := Option.ne_none_iff_exists'.mp (g1 ho (by simp))
  obtain ⟨v2, e2, -⟩ := loop_ok idOf s body hb (Suite.Spec.problems s).length fuel 0 (reset v1) (by omega) hf (rel_reset h1)
  exact ⟨_, v1, v2, e1, by simpa [sweep] using e2⟩

/-- **C126** A loop over a suite in the body of a loop over the same suite ends the outer loop: its body is run for the first
problem only. -/
theorem C126_nested (idOf : Prob → List Char) (s : State) (hs : Suite.Spec.Unstarted s) (hn : Suite.Spec.NonEmpty s) (v : Obj)
    (hv : create idOf s = .ok (.ok v)) (fuel : Nat) (hf : 2 ≤ fuel) :
    ∃ p v', (Suite.Spec.problems s).head? = some p ∧
      sweep (fun _ => .reset :: List.replicate ((Suite.Spec.problems s).length + 1) .next) fuel v = .ok ([p], v') := by
  have hr := rel_reset (rel_create hs hn hv)
  have hpos : 0 < (Suite.Spec.problems s).length := by
    obtain ⟨⟨a, ha, ha'⟩, ⟨b, hb, hb'⟩, ⟨c, hc, hc'⟩⟩ := hn
    obtain ⟨f, hf, ef⟩ := List.getElem_of_mem ha
    obtain ⟨d, hd, ed⟩ := List.getElem_of_mem hb
    obtain ⟨i, hi, ei⟩ := List.getElem_of_mem hc
    exact List.length_pos_of_mem (mem_problems.mpr ⟨f, d, i, (Suite.active_iff_getElem hf).mpr (ef ▸ ha'),
      (Suite.active_iff_getElem hd).mpr (ed ▸ hb'), (Suite.active_iff_getElem hi).mpr (ei ▸ hc'), rfl⟩)
  obtain ⟨k, rfl⟩ : ∃ k, fuel = k + 1 + 1 := ⟨fuel - 2, by omega⟩
  obtain ⟨v1, e1, h1, -⟩ := step_ok idOf s (reset v) _ .next hr
  have en : (Suite.Spec.problems s)[0]? = some (Suite.Spec.problems s)[0] := List.getElem?_eq_getElem hpos
  simp only [Spec.answer, en, step] at e1 h1
  obtain ⟨r, v2, e2, h2⟩ := run_nexts idOf s ((Suite.Spec.problems s).length + 1) 0 _ (rel_reset h1)
  obtain ⟨v3, e3, h3, -⟩ := step_ok idOf s v2 _ .next h2
  have en' : (Suite.Spec.problems s)[0 + ((Suite.Spec.problems s).length + 1)]? = none := List.getElem?_eq_none (by omega)
  simp only [Spec.answer, en', step] at e3
  refine ⟨(Suite.Spec.problems s)[0], v3, by rw [List.head?_eq_getElem?, en], ?_⟩
  simp only [sweep, loop, e1, Res.bind_ok, run, step, e2, Res.pure_eq, e3]

/-- **C126** `ids` returns the ids in which all given texts occur, in order; with `get_problem` the first problem with the first such
id. -/
theorem C126_ids (idOf : Prob → List Char) (s : State) (hs : Suite.Spec.Unstarted s) (hn : Suite.Spec.NonEmpty s) (v : Obj)
    (hv : create idOf s = .ok (.ok v)) (ys : List (List Char)) :
    (∀ P : Prob → Bool, (∀ p, P p = true ↔ ∀ y ∈ ys, Spec.Occurs y (idOf p)) →
      ids v ys = ((Suite.Spec.problems s).filter P).map idOf ∧
      ∀ p, (Suite.Spec.problems s).find? P = some p → idsProblem v ys = some (.ok (.ok p))) := by
  intro P hP
  have hr := rel_create hs hn hv
  have eP : (fun x => ys.all fun y => (find y x).isSome) ∘ idOf = P := by
    funext p
    rw [Bool.eq_iff_iff, hP]
    simp only [Function.comp, List.all_eq_true, find_isSome]
  have e : ids v ys = ((Suite.Spec.problems s).filter P).map idOf := by
    rw [ids, hr.2.1, List.filter_map, eP]
  refine ⟨e, fun p hp => ?_⟩
  have hh : ((Suite.Spec.problems s).filter P)[0]? = some p := by
    rw [← List.head?_eq_getElem?, List.head?_filter, hp]
  rw [idsProblem, e, List.getElem?_map, hh, Option.map_some, Option.map_some]
  congr 1
  obtain ⟨v', e', -, -⟩ := step_ok idOf s v _ (.get (.str (idOf p))) hr
  have hf : (Suite.Spec.problems s).find? (fun q => idOf q = idOf p) = some p := by
    obtain ⟨hp1, as, bs, hsplit, hlt⟩ := List.find?_eq_some_iff_append.mp hp
    rw [List.find?_eq_some_iff_append]
    refine ⟨by simp, as, bs, hsplit, fun q hq => ?_⟩
    have := hlt q hq
    simp only [Bool.not_eq_true', decide_eq_false_iff_not] at this ⊢
    intro he
    have : P q = true := (hP q).mpr (he ▸ (hP p).mp hp1)
    simp_all
  simp only [step, Spec.answer, hf, Spec.orElse] at e'
  cases eg : getProblem v (.str (idOf p)) with
  | ok r =>
    rw [eg] at e'
    simp only [Res.bind_ok, Res.pure_eq, Res.ok.injEq, Prod.mk.injEq] at e'
    cases r with
    | ok q => have := e'.1; simp only [Except.map] at this; cases this; rfl
    | error x => have := e'.1; cases this
  | _ => rw [eg] at e'; cases e'

/-- **C126** In all suites but toy, the three numbers read in the id of a problem are its function, its dimension and its
instance. -/
theorem C126_triple (r : Identity.Request) (h : Identity.Spec.Valid r) (ht : Identity.Spec.suite r ≠ "toy") (x : Identity.Texts)
    (hx : Identity.create r = .ok x) : ∃ id, x.id = some id ∧ idTriple id (Identity.Spec.numbers r).2.2 =
      some ((Identity.Spec.numbers r).1, (Identity.Spec.numbers r).2.2, (Identity.Spec.numbers r).2.1) := by
  obtain ⟨t, e, -⟩ := Identity.C103_texts_partial r h
  rw [e] at hx
  cases hx
  refine ⟨_, rfl, ?_⟩
  cases r with
  | toy f i d => exact absurd rfl ht
  | bbob f i d => exact triple_ident _ (by decide +kernel) (by decide +kernel) _ _ _ _ _ _
  | largescale f i d => exact triple_ident _ (by decide +kernel) (by decide +kernel) _ _ _ _ _ _
  | sbox f i d => exact triple_ident _ (by decide +kernel) (by decide +kernel) _ _ _ _ _ _
  | noisy f i d => exact triple_ident _ (by decide +kernel) (by decide +kernel) _ _ _ _ _ _
  | mixint f i d => exact triple_ident _ (by decide +kernel) (by decide +kernel) _ _ _ _ _ _
  | biobj f i d => exact triple_ident _ (by decide +kernel) (by decide +kernel) _ _ _ _ _ _
  | biobjMixint f i d => exact triple_ident _ (by decide +kernel) (by decide +kernel) _ _ _ _ _ _
  | constrained s f i d =>
    cases s <;> exact triple_ident _ (by decide +kernel) (by decide +kernel) _ _ _ _ _ _

/-- **C126** The ids of the toy suite have neither a function nor an instance to be read: `ValueError`. -/
theorem C126_toy_triple (f i d : Nat) (h : Identity.Spec.Valid (.toy f i d)) (x : Identity.Texts)
    (hx : Identity.create (.toy f i d) = .ok x) : ∃ id, x.id = some id ∧ parseId id "_f".toList = none ∧
      parseId id "_i".toList = none ∧ idTriple id d = none := by
  obtain ⟨t, e, -⟩ := Identity.C103_texts_partial _ h
  rw [e] at hx
  cases hx
  refine ⟨_, rfl, ?_⟩
  have e1 : "_f".toList = ['_', 'f'] := by decide +kernel
  have e2 : "_i".toList = ['_', 'i'] := by decide +kernel
  have e3 : "_d".toList = ['_', 'd'] := by decide +kernel
  have key : ∀ c, c = 'f' ∨ c = 'i' → find ['_', c] (Identity.Spec.id (.toy f i d)) = none := by
    intro c hc
    have hd : c.isDigit = false ∧ c ≠ 'd' ∧ c ≠ 's' := by rcases hc with rfl | rfl <;> decide
    have digits : ∀ a : List Char, (∀ x ∈ a, x.isDigit = true) → find ['_', c] a = none := by
      intro a
      induction a with
      | nil => intro _; rfl
      | cons x a ih =>
        intro ha
        have hx : x ≠ '_' := by
          rintro rfl
          exact absurd (ha '_' (by simp)) (by decide)
        rw [find, if_neg (by simp [List.isPrefixOf, hx.symm]), ih fun y hy => ha y (by simp [hy])]
        rfl
    have tail : find ['_', c] ('_' :: 'd' :: BiobjFiles.Spec.pad 2 d) = none := by
      rw [find, if_neg (by simp [List.isPrefixOf, hd.2.1]), find, if_neg (by simp [List.isPrefixOf]),
        digits _ (BiobjFiles.pad_digit 2 d)]
      rfl
    have pre : ∀ a : List Char, clean c a = true → find ['_', c] (a ++ '_' :: 'd' :: BiobjFiles.Spec.pad 2 d) = none := by
      intro a
      induction a with
      | nil => intro _; exact tail
      | cons x a ih =>
        intro h
        rw [clean, Bool.and_eq_true] at h
        have hn : ¬ (['_', c].isPrefixOf (x :: (a ++ '_' :: 'd' :: BiobjFiles.Spec.pad 2 d)) = true) := by
          intro hp
          have h1 := h.1
          cases a with
          | nil =>
            simp [List.isPrefixOf] at hp h1
            exact h1.elim (fun h => h hp.1.symm) fun h => h hp.2.symm
          | cons y a =>
            simp [List.isPrefixOf] at hp h1
            exact h1.elim (fun h => h hp.1.symm) fun h => h hp.2.symm
        rw [List.cons_append, find, if_neg hn, ih h.2]
        rfl
    have hclean : ∀ f c, c = 'f' ∨ c = 'i' → clean c (Identity.Spec.toyTexts f).1.toList = true := by
      intro f c hc
      unfold Identity.Spec.toyTexts
      rcases hc with rfl | rfl <;> split <;> decide +kernel
    rw [Identity.Spec.id, e3]
    simpa using pre _ (hclean f c hc)
  have p1 : parseId (Identity.Spec.id (.toy f i d)) "_f".toList = none := by
    rw [parseId, e1, key 'f' (.inl rfl)]
  have p2 : parseId (Identity.Spec.id (.toy f i d)) "_i".toList = none := by
    rw [parseId, e2, key 'i' (.inr rfl)]
  exact ⟨p1, p2, by rw [idTriple, p1]; rfl⟩

/-- **C126** In all suites but toy, the id of a problem gives back a problem with its function, dimension and instance. -/
theorem C126_id (idOf : Prob → List Char) (s : State) (hs : Suite.Spec.Unstarted s) (hn : Suite.Spec.NonEmpty s) (v : Obj)
    (hv : create idOf s = .ok (.ok v)) (req : Prob → Identity.Request) (hreq : ∀ p ∈ Suite.Spec.problems s,
      Identity.Spec.Valid (req p) ∧ Identity.Spec.suite (req p) ≠ "toy" ∧
      Identity.Spec.numbers (req p) = (p.function, p.inst, p.dimension) ∧ p.dimension < 1000 ∧
      ∃ x, Identity.create (req p) = .ok x ∧ x.id = some (idOf p)) (p : Prob) (hp : p ∈ Suite.Spec.problems s) :
    ∃ q, getProblem v (.str (idOf p)) = .ok (.ok q) ∧ q ∈ Suite.Spec.problems s ∧ q.function = p.function ∧
      q.dimension = p.dimension ∧ q.inst = p.inst := by
  obtain ⟨v', e', -, -⟩ := step_ok idOf s v _ (.get (.str (idOf p))) (rel_create hs hn hv)
  cases hf : (Suite.Spec.problems s).find? (fun q => idOf q = idOf p) with
  | none => exact absurd (List.find?_eq_none.mp hf p hp) (by simp)
  | some q =>
    have hq := List.mem_of_find?_eq_some hf
    have hid : idOf q = idOf p := by simpa using List.find?_some hf
    obtain ⟨a1, a2, a3, a4, x, a5, a6⟩ := hreq p hp
    obtain ⟨b1, b2, b3, b4, y, b5, b6⟩ := hreq q hq
    have hu := (Identity.C103_unique_partial (req q) (req p) b1 a1 (by rw [b3]; exact b4) y x b5 a5
      (by rw [a6, b6, hid])).2 b2
    rw [a3, b3] at hu
    simp only [Prod.mk.injEq] at hu
    refine ⟨q, ?_, hq, hu.1, hu.2.2, hu.2.1⟩
    simp only [step, Spec.answer, hf, Spec.orElse] at e'
    cases eg : getProblem v (.str (idOf p)) with
    | ok r =>
      rw [eg] at e'
      simp only [Res.bind_ok, Res.pure_eq, Res.ok.injEq, Prod.mk.injEq] at e'
      cases r with
      | ok q' => have := e'.1; simp only [Except.map] at this; cases this; rfl
      | error x => have := e'.1; cases this
    | _ => rw [eg] at e'; cases e'

/-! ### Cases -/

/-- The function `idOf` of a bbob suite. -/
def bbobId (p : Prob) : List Char := Identity.Spec.id (.bbob p.function p.inst p.dimension)

/-- The filtered suite of C01 as a Python object: the hypotheses of the theorems are met, and the calls have different answers. -/
example : ∃ v, create bbobId Suite.exSuite = .ok (.ok v) ∧ (Suite.Spec.problems Suite.exSuite).length = 8 ∧
    (run v [.next, .get (.int (-1)), .next, .get (.str "bbob_f003_i01_d02".toList), .get (.int 8), .get (.str "f1".toList),
      .numbers 3 5 3, .numbers 1 5 3, .numbers (-1) 5 3, .reset, .next, .free, .next]).bind (fun r => .ok r.1) =
    .ok [.ok (some ⟨2, 2, 1, 3⟩), .ok (some ⟨3, 5, 3, 26⟩), .ok (some ⟨2, 2, 3, 5⟩), .ok (some ⟨3, 2, 1, 6⟩), .error .noSuchProblem,
      .error .value, .ok (some ⟨3, 5, 3, 26⟩), .error .noSuchProblem, .error .overflow, .ok none, .ok (some ⟨2, 2, 1, 3⟩),
      .ok none, .error .value] ∧
    ids v ["f002".toList, "d05".toList] = ["bbob_f002_i01_d05".toList, "bbob_f002_i03_d05".toList] ∧ dimensions v = [2, 5] := by
  have hn : Suite.Spec.NonEmpty Suite.exSuite :=
    ⟨⟨2, by decide, by decide⟩, ⟨2, by decide, by decide⟩, ⟨1, by decide, by decide⟩⟩
  obtain ⟨c, -, e⟩ := create_ok bbobId Suite.exSuite ⟨rfl, rfl, rfl⟩ hn
  refine ⟨_, e, by decide, ?_, by simp only [ids]; decide +kernel, by simp only [dimensions]; decide +kernel⟩
  obtain ⟨v', h⟩ := C126_calls bbobId Suite.exSuite ⟨rfl, rfl, rfl⟩ hn _ e
    [.next, .get (.int (-1)), .next, .get (.str "bbob_f003_i01_d02".toList), .get (.int 8), .get (.str "f1".toList),
      .numbers 3 5 3, .numbers 1 5 3, .numbers (-1) 5 3, .reset, .next, .free, .next]
  rw [h]
  show Res.ok _ = _
  congr 1

/-- All hypotheses of `C126_id` are met by the same suite. -/
example : ∀ p ∈ Suite.Spec.problems Suite.exSuite, Identity.Spec.Valid (.bbob p.function p.inst p.dimension) ∧
    Identity.Spec.suite (.bbob p.function p.inst p.dimension) ≠ "toy" ∧
    Identity.Spec.numbers (.bbob p.function p.inst p.dimension) = (p.function, p.inst, p.dimension) ∧ p.dimension < 1000 ∧
    ∃ x, Identity.create (.bbob p.function p.inst p.dimension) = .ok x ∧ x.id = some (bbobId p) := by
  intro p hp
  have hb : (1 ≤ p.function ∧ p.function ≤ 24) ∧ p.inst < 1000 ∧ p.dimension < 1000 := by
    revert p
    decide
  have hv : Identity.Spec.Valid (.bbob p.function p.inst p.dimension) := by
    refine ⟨hb.1.1, hb.1.2, ?_⟩
    intro n hn
    simp only [List.mem_cons, List.not_mem_nil, or_false] at hn
    rcases hn with rfl | rfl <;> omega
  obtain ⟨t, e, -⟩ := Identity.C103_texts_partial _ hv
  exact ⟨hv, by show "bbob" ≠ "toy"; decide, rfl, hb.2.2, _, e, rfl⟩

example : idTriple "bbob-biobj-mixint_f092_i15_d160".toList 160 = some (92, 160, 15) ∧
    idTriple "linear_slope_d02".toList 2 = none := by decide +kernel

end PySuite
