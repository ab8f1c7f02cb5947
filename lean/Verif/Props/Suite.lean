import Verif.Lemmas.Suite

/-!
Properties C01-C07 and C09: suite iteration, indexing, look-up and filtering
(`/repo/src/coco_suite.c`).
-/

namespace Suite

/-! ### Specification (independent of the model's loops) -/

/-- The entries that are not filtered out, as (number, position), in order of position. -/
def Spec.active (l : List Nat) : List (Nat × Nat) := l.zipIdx.filter fun e => decide (e.1 ≠ 0)

/-- The active problems of a suite in the documented order: by dimension, then by function, then by
instance. -/
def Spec.problems (s : State) : List Prob :=
  (Spec.active s.dimensions).flatMap fun (d, dpos) =>
    (Spec.active s.functions).flatMap fun (f, fpos) =>
      (Spec.active s.instances).map fun (i, ipos) =>
        { function := f, dimension := d, inst := i,
          index := dpos * (s.functions.length * s.instances.length) + fpos * s.instances.length + ipos }

/-- At least one entry of each of the three arrays is active. -/
def Spec.NonEmpty (s : State) : Prop :=
  (∃ v ∈ s.functions, v ≠ 0) ∧ (∃ v ∈ s.dimensions, v ≠ 0) ∧ (∃ v ∈ s.instances, v ≠ 0)

/-- A suite as it is just before the end of its constructor: no position set yet. -/
def Spec.Unstarted (s : State) : Prop :=
  s.curFunction = -1 ∧ s.curDimension = -1 ∧ s.curInstance = -1

/-! ### Linking lemmas -/

theorem active_eq_map (l : List Nat) :
    Spec.active l = (activePos l).map fun j => (l[j]?.getD 0, j) := by
  unfold Spec.active activePos
  have : l.zipIdx = (List.range l.length).map fun j => (l[j]?.getD 0, j) := by
    apply List.ext_getElem
    · simp
    · intro i h1 h2
      simp at h1
      simp [List.getElem?_eq_getElem h1]
  rw [this, List.filter_map]
  congr 1

theorem problems_eq_allProbs (s : State) : Spec.problems s = allProbs s := by
  unfold Spec.problems allProbs dimProbs
  rw [active_eq_map, active_eq_map, active_eq_map]
  simp only [List.flatMap_map, List.map_map]
  congr 1; funext d
  congr 1; funext f
  congr 1; funext i
  simp only [probAt, encode, Function.comp, Prob.mk.injEq, true_and]
  rw [show d * (s.functions.length * s.instances.length) = d * s.instances.length * s.functions.length by
    rw [Nat.mul_assoc, Nat.mul_comm s.functions.length]]
  omega

theorem exists_activePos_cons {l : List Nat} (h : ∃ v ∈ l, v ≠ 0) :
    ∃ c post, activePos l = c :: post := by
  obtain ⟨v, hv, h0⟩ := h
  obtain ⟨j, hj, e⟩ := List.getElem_of_mem hv
  have : j ∈ activePos l := mem_activePos.2 ⟨v, by rw [List.getElem?_eq_getElem hj, e], h0⟩
  cases hp : activePos l with
  | nil => rw [hp] at this; simp at this
  | cons c post => exact ⟨c, post, rfl⟩

theorem finishConstruction_eq {s : State} (hs : Spec.Unstarted s)
    {f0 d0 i0 : Nat} {postI postF postD : List Nat}
    (hI0 : activePos s.instances = i0 :: postI) (hF0 : activePos s.functions = f0 :: postF)
    (hD0 : activePos s.dimensions = d0 :: postD) :
    finishConstruction s
      = .ok (some { s with curFunction := f0, curDimension := d0, curInstance := -1 }) := by
  obtain ⟨h1, h2, h3⟩ := hs
  have hf := active_lt (mem_activePos.1 (show f0 ∈ activePos s.functions by rw [hF0]; simp))
  have hi := active_lt (mem_activePos.1 (show i0 ∈ activePos s.instances by rw [hI0]; simp))
  have hd' := mem_activePos.1 (show d0 ∈ activePos s.dimensions by rw [hD0]; simp)
  have hd := active_lt hd'
  have hcount : ¬ (s.dimensions.filter (· ≠ 0)).length < 1 := by
    obtain ⟨v, hv, hv0⟩ := hd'
    have : v ∈ s.dimensions.filter (· ≠ 0) :=
      List.mem_filter.2 ⟨List.mem_of_getElem? hv, by simpa using hv0⟩
    have := List.length_pos_of_mem this
    omega
  unfold finishConstruction
  have c2 : ¬ s.dimensions.length < 1 := by omega
  have c3 : ¬ s.functions.length < 1 := by omega
  have c4 : ¬ s.instances.length < 1 := by omega
  simp only [hcount, c2, c3, c4, or_self, if_false]
  have e1 : nextFunction s = .ok (true, { s with curFunction := f0 }) := by
    unfold nextFunction
    rw [h1, nextItem_first hF0]
    rfl
  rw [e1]
  simp only [Res.bind_ok]
  have e2 : nextDimension { s with curFunction := f0 }
      = .ok (true, { s with curFunction := f0, curDimension := d0 }) := by
    unfold nextDimension
    simp only [h2, nextItem_first hD0]
    rfl
  rw [e2]
  simp only [Res.bind_ok, Res.pure_eq, ← h3]

/-! ### C01 -/

/-- **C01.** A freshly constructed suite returns exactly its active problems, in the documented order,
and then NULL. -/
theorem C01_iteration_complete (s : State) (hs : Spec.Unstarted s) (hne : Spec.NonEmpty s) :
    ∃ s0 s1, finishConstruction s = .ok (some s0) ∧
      runN ((Spec.problems s).length + 1) s0 = .ok ((Spec.problems s).map some ++ [none], s1) := by
  obtain ⟨hF, hD, hI⟩ := hne
  obtain ⟨f0, postF, hF0⟩ := exists_activePos_cons hF
  obtain ⟨d0, postD, hD0⟩ := exists_activePos_cons hD
  obtain ⟨i0, postI, hI0⟩ := exists_activePos_cons hI
  refine ⟨_, at' s f0 d0 i0, finishConstruction_eq hs hI0 hF0 hD0, ?_⟩
  rw [problems_eq_allProbs]
  obtain ⟨e, h⟩ := run_from_first hI0 hF0 hD0
  have hst := step_start (s := s) (f0 := f0) (d0 := d0) hI0 (by rw [hF0]; simp) (by rw [hD0]; simp)
  have h1 := Runs.one hst
  unfold Runs at h1
  have h2 := runN_add h1 h
  rw [e]
  simp only [List.map_cons, List.length_cons, List.cons_append] at *
  rw [show (allProbs s).tail.length + 1 + 1 = 0 + 1 + ((allProbs s).tail.length + 1) by omega]
  exact h2

/-- **C01** (each once). The returned problems have strictly increasing indices, hence no problem is
returned twice. -/
theorem C01_each_once (s : State) : ((Spec.problems s).map (·.index)).Pairwise (· < ·) := by
  rw [problems_eq_allProbs]
  have hi := activePos_sorted s.instances
  have hf := activePos_sorted s.functions
  have hd := activePos_sorted s.dimensions
  have hidx : ∀ f d i, i < s.instances.length → f < s.functions.length →
      encode s f d i < (d + 1) * s.instances.length * s.functions.length := by
    intro f d i h1 h2
    unfold encode
    have a1 : i + f * s.instances.length < (f + 1) * s.instances.length := by
      rw [Nat.add_mul]; omega
    have a2 : (f + 1) * s.instances.length ≤ s.functions.length * s.instances.length :=
      Nat.mul_le_mul_right _ h2
    have a3 : (d + 1) * s.instances.length * s.functions.length
        = d * s.instances.length * s.functions.length + s.functions.length * s.instances.length := by
      rw [Nat.add_mul, Nat.add_mul, Nat.one_mul, Nat.mul_comm s.instances.length s.functions.length]
    omega
  unfold allProbs dimProbs
  rw [List.map_flatMap, List.pairwise_flatMap]
  refine ⟨?_, ?_⟩
  · intro d _
    rw [List.map_flatMap, List.pairwise_flatMap]
    refine ⟨?_, ?_⟩
    · intro f _
      rw [List.map_map, List.pairwise_map]
      refine hi.imp ?_
      intro a b hab
      simp only [Function.comp, probAt, encode]
      omega
    · refine hf.imp ?_
      intro f f' hff x hx y hy
      simp only [List.map_map, List.mem_map, Function.comp] at hx hy
      obtain ⟨i, hi1, rfl⟩ := hx
      obtain ⟨i', hi2, rfl⟩ := hy
      have hil := active_lt (mem_activePos.1 hi1)
      simp only [probAt, encode]
      have : (f + 1) * s.instances.length ≤ f' * s.instances.length := Nat.mul_le_mul_right _ hff
      rw [Nat.add_mul] at this
      omega
  · refine hd.imp ?_
    intro d d' hdd x hx y hy
    simp only [List.map_flatMap, List.mem_flatMap, List.map_map, List.mem_map, Function.comp] at hx hy
    obtain ⟨f, hf1, i, hi1, rfl⟩ := hx
    obtain ⟨f', hf2, i', hi2, rfl⟩ := hy
    have h1 := hidx f d i (active_lt (mem_activePos.1 hi1)) (active_lt (mem_activePos.1 hf1))
    have h2 : (d + 1) * s.instances.length * s.functions.length
        ≤ d' * s.instances.length * s.functions.length :=
      Nat.mul_le_mul_right _ (Nat.mul_le_mul_right _ hdd)
    simp only [probAt]
    have h3 : d' * s.instances.length * s.functions.length ≤ encode s f' d' i' := by
      unfold encode; omega
    omega

/-- A suite with filtered entries: functions {2,3} of 3, dimensions {2,5}, instances {1,3}. -/
def exSuite : State :=
  { functions := [0, 2, 3], dimensions := [2, 0, 5], instances := [1, 0, 3],
    curFunction := -1, curDimension := -1, curInstance := -1 }

example : Spec.Unstarted exSuite ∧ Spec.NonEmpty exSuite ∧ (Spec.problems exSuite).length = 8 := by
  refine ⟨⟨rfl, rfl, rfl⟩, ⟨⟨2, by decide, by decide⟩, ⟨2, by decide, by decide⟩, ⟨1, by decide, by decide⟩⟩, ?_⟩
  decide

/-! ### C02 -/

/-- `k` copies of a list. -/
def Spec.repeatList {α : Type} : Nat → List α → List α
  | 0, _ => []
  | k + 1, l => l ++ Spec.repeatList k l

/-- **C02** (exact behaviour; the claim as stated is refuted below). After the first pass (ending with
NULL), every further pass returns the active problems *except the first one*, then NULL; this holds for
any number of passes. -/
theorem C02_later_passes_partial (s : State) (hs : Spec.Unstarted s) (hne : Spec.NonEmpty s) (k : Nat) :
    ∃ s0 s1, finishConstruction s = .ok (some s0) ∧
      runN ((Spec.problems s).length + 1 + k * (Spec.problems s).length) s0
        = .ok ((Spec.problems s).map some ++ [none]
            ++ Spec.repeatList k ((Spec.problems s).tail.map some ++ [none]), s1) := by
  obtain ⟨hF, hD, hI⟩ := hne
  obtain ⟨f0, postF, hF0⟩ := exists_activePos_cons hF
  obtain ⟨d0, postD, hD0⟩ := exists_activePos_cons hD
  obtain ⟨i0, postI, hI0⟩ := exists_activePos_cons hI
  refine ⟨_, at' s f0 d0 i0, finishConstruction_eq hs hI0 hF0 hD0, ?_⟩
  rw [problems_eq_allProbs]
  obtain ⟨e, h⟩ := run_from_first hI0 hF0 hD0
  have hlen : (allProbs s).length = (allProbs s).tail.length + 1 := by
    conv => lhs; rw [e]
    simp
  have hk : ∀ k, runN (k * (allProbs s).length) (at' s f0 d0 i0)
      = .ok (Spec.repeatList k ((allProbs s).tail.map some ++ [none]), at' s f0 d0 i0) := by
    intro k
    induction k with
    | zero => simp [runN, Spec.repeatList]
    | succ k ih =>
      rw [show (k + 1) * (allProbs s).length = ((allProbs s).tail.length + 1) + k * (allProbs s).length by
        rw [Nat.add_mul]; omega]
      exact runN_add h ih
  have hst := step_start (s := s) (f0 := f0) (d0 := d0) hI0 (by rw [hF0]; simp) (by rw [hD0]; simp)
  have h1 := Runs.one hst
  unfold Runs at h1
  have h2 := runN_add h1 h
  have h3 := runN_add h2 (hk k)
  have e2 : (allProbs s).map some = [probAt s f0 d0 i0].map some ++ (allProbs s).tail.map some := by
    conv => lhs; rw [e]
    simp
  rw [e2, List.append_assoc ([probAt s f0 d0 i0].map some)]
  rw [show (allProbs s).length + 1 + k * (allProbs s).length
      = [probAt s f0 d0 i0].length + ((allProbs s).tail.length + 1) + k * (allProbs s).length by
    rw [List.length_singleton]; omega]
  exact h3

/-- **C02** (refutation). It is not the case that a second pass repeats the first one: for the suite below
(one function, one dimension, two instances) the second pass returns only the second problem. -/
theorem C02_second_pass_differs :
    ∃ s s0 : State, Spec.Unstarted s ∧ Spec.NonEmpty s ∧ finishConstruction s = .ok (some s0) ∧
      ∀ s1, runN (2 * ((Spec.problems s).length + 1)) s0
        ≠ .ok (Spec.repeatList 2 ((Spec.problems s).map some ++ [none]), s1) := by
  let s : State := { functions := [1], dimensions := [2], instances := [1, 2],
                     curFunction := -1, curDimension := -1, curInstance := -1 }
  have hU : Spec.Unstarted s := ⟨rfl, rfl, rfl⟩
  have hN : Spec.NonEmpty s := ⟨⟨1, by decide, by decide⟩, ⟨2, by decide, by decide⟩, ⟨1, by decide, by decide⟩⟩
  obtain ⟨s0, s1, h0, h1⟩ := C02_later_passes_partial s hU hN 1
  refine ⟨s, s0, hU, hN, h0, ?_⟩
  intro s2 h2
  obtain ⟨t1, e1⟩ := runN_prefix (m := 4) (n := 1) h1
  obtain ⟨t2, e2⟩ := runN_prefix (m := 4) (n := 2) h2
  rw [e1] at e2
  simp only [Res.ok.injEq, Prod.mk.injEq] at e2
  exact absurd e2.1 (by decide)

example : Spec.Unstarted exSuite ∧ Spec.NonEmpty exSuite ∧ (Spec.problems exSuite).tail.length = 7 := by
  refine ⟨⟨rfl, rfl, rfl⟩, ⟨⟨2, by decide, by decide⟩, ⟨2, by decide, by decide⟩, ⟨1, by decide, by decide⟩⟩, ?_⟩
  decide

/-! ### C03 -/

/-- **C03.** Decoding an encoded triple gives the triple back (whatever the output variables held
before), and the encoded index is below the number of problems. -/
theorem C03_decode_encode (s : State) (f d i : Nat) (f' d' i' : Nat)
    (hf : f < s.functions.length) (hd : d < s.dimensions.length) (hi : i < s.instances.length) :
    encode s f d i < numberOfProblems s ∧ decode s (encode s f d i) f' d' i' = .ok (f, d, i) := by
  have hfi : i + f * s.instances.length < s.instances.length * s.functions.length := by
    have a1 : (f + 1) * s.instances.length ≤ s.functions.length * s.instances.length :=
      Nat.mul_le_mul_right _ hf
    rw [Nat.add_mul, Nat.mul_comm s.functions.length] at a1
    omega
  have e : encode s f d i = (i + f * s.instances.length) + (s.instances.length * s.functions.length) * d := by
    unfold encode
    rw [Nat.mul_comm (s.instances.length * s.functions.length) d, Nat.mul_assoc]
  have hlt : encode s f d i < numberOfProblems s := by
    have a2 : (s.instances.length * s.functions.length) * (d + 1)
        ≤ s.instances.length * s.functions.length * s.dimensions.length := Nat.mul_le_mul_left _ hd
    rw [Nat.mul_add] at a2
    unfold numberOfProblems
    omega
  refine ⟨hlt, ?_⟩
  have hipos : 0 < s.instances.length := by omega
  have hN : numberOfProblems s ≠ 0 := by omega
  unfold decode
  simp only [hN, if_false]
  have hgt : ¬ encode s f d i > numberOfProblems s - 1 := by omega
  simp only [hgt, if_false]
  have e2 : encode s f d i = i + s.instances.length * (f + s.functions.length * d) := by
    rw [e, Nat.mul_add, Nat.mul_comm f, Nat.mul_assoc]; omega
  have m1 : encode s f d i % s.instances.length = i := by
    rw [e2, Nat.add_mul_mod_self_left, Nat.mod_eq_of_lt hi]
  have m2 : encode s f d i / s.instances.length = f + s.functions.length * d := by
    rw [e2, Nat.add_mul_div_left _ _ hipos, Nat.div_eq_of_lt hi, Nat.zero_add]
  have m3 : encode s f d i / (s.instances.length * s.functions.length) = d := by
    rw [e, Nat.add_mul_div_left _ _ (by omega), Nat.div_eq_of_lt hfi, Nat.zero_add]
  rw [m1, m2, m3, Nat.add_mul_mod_self_left, Nat.mod_eq_of_lt hf]

/-- **C03.** Every index below the number of problems decodes to a triple of positions in range whose
encoding is that index. -/
theorem C03_encode_decode (s : State) (k : Nat) (f' d' i' : Nat) (hk : k < numberOfProblems s) :
    ∃ f d i, decode s k f' d' i' = .ok (f, d, i) ∧ f < s.functions.length ∧ d < s.dimensions.length ∧
      i < s.instances.length ∧ encode s f d i = k := by
  have hN : numberOfProblems s ≠ 0 := by omega
  have hi : 0 < s.instances.length := by
    apply Nat.pos_of_ne_zero; intro h; apply hN; simp [numberOfProblems, h]
  have hf : 0 < s.functions.length := by
    apply Nat.pos_of_ne_zero; intro h; apply hN; simp [numberOfProblems, h]
  refine ⟨(k / s.instances.length) % s.functions.length, k / (s.instances.length * s.functions.length),
    k % s.instances.length, ?_, Nat.mod_lt _ hf, ?_, Nat.mod_lt _ hi, ?_⟩
  · unfold decode
    have : ¬ k > numberOfProblems s - 1 := by omega
    simp only [hN, this, if_false]
  · unfold numberOfProblems at hk
    exact Nat.div_lt_of_lt_mul hk
  · unfold encode
    rw [← Nat.div_div_eq_div_mul, Nat.mul_assoc, Nat.mul_comm s.instances.length s.functions.length,
      ← Nat.mul_assoc]
    have h1 := Nat.div_add_mod (k / s.instances.length) s.functions.length
    have h2 := Nat.div_add_mod k s.instances.length
    generalize hq : k / s.instances.length = q at *
    generalize hr : k % s.instances.length = r at *
    have h3 : q % s.functions.length * s.instances.length
        + q / s.functions.length * s.functions.length * s.instances.length = q * s.instances.length := by
      rw [← Nat.add_mul, Nat.mul_comm (q / s.functions.length), Nat.add_comm]
      rw [h1]
    rw [Nat.mul_comm s.instances.length q] at h2
    omega

example : 1 < exSuite.functions.length ∧ 2 < exSuite.dimensions.length ∧ 0 < exSuite.instances.length ∧
    encode exSuite 1 2 0 = 21 ∧ 21 < numberOfProblems exSuite := by decide

/-! ### C04 -/

/-- **C04** (in-range part). For an index in range `coco_suite_get_problem` returns NULL exactly when one
of the three entries is filtered out, and otherwise the problem with the decoded numbers and this very
index. -/
theorem C04_get_problem_partial (s : State) (f d i : Nat) (hf : f < s.functions.length)
    (hd : d < s.dimensions.length) (hi : i < s.instances.length) :
    getProblem s (encode s f d i) =
      .ok (if s.functions[f] = 0 ∨ s.dimensions[d] = 0 ∨ s.instances[i] = 0 then none
           else some { function := s.functions[f], dimension := s.dimensions[d],
                       inst := s.instances[i], index := encode s f d i }) := by
  unfold getProblem
  rw [(C03_decode_encode s f d i 0 0 0 hf hd hi).2]
  simp only [Res.bind_ok, problemFromIndices, Res.readNat, List.getElem?_eq_getElem hf,
    List.getElem?_eq_getElem hd, List.getElem?_eq_getElem hi]
  by_cases h1 : s.functions[f] = 0
  · simp [h1]
  · by_cases h2 : s.dimensions[d] = 0
    · simp [h1, h2]
    · by_cases h3 : s.instances[i] = 0
      · simp [h1, h2, h3]
      · simp [h1, h2, h3]

example : getProblem exSuite 21 = .ok (some { function := 2, dimension := 5, inst := 1, index := 21 }) ∧
    getProblem exSuite 22 = .ok none := by decide

/-- **C04** (out-of-range part: what the code does). Every index beyond the last one silently yields
problem 0. -/
theorem C04_out_of_range_is_problem_zero (s : State) (k : Nat) (hk : numberOfProblems s ≤ k)
    (hN : 0 < numberOfProblems s) : getProblem s k = getProblem s 0 := by
  unfold getProblem decode
  have h0 : numberOfProblems s ≠ 0 := by omega
  have h1 : k > numberOfProblems s - 1 := by omega
  have h2 : ¬ 0 > numberOfProblems s - 1 := by omega
  simp only [h0, h1, h2, if_false, if_true, Nat.zero_div, Nat.zero_mod]

example : numberOfProblems exSuite ≤ 1000 ∧ 0 < numberOfProblems exSuite := by decide

/-- **C04** (refutation). "For an index beyond the last one no problem is returned" is false. -/
theorem C04_out_of_range_not_null :
    ∃ (s : State) (k : Nat), numberOfProblems s ≤ k ∧
      getProblem s k = .ok (some { function := 1, dimension := 2, inst := 1, index := 0 }) :=
  ⟨{ functions := [1], dimensions := [2], instances := [1], curFunction := 0, curDimension := 0,
     curInstance := -1 }, 7, by decide, by decide⟩

/-! ### C05 -/

theorem findFirst_some {l : List Nat} {v j : Nat} (h : findFirst l v = some j) :
    l[j]? = some v ∧ ∀ k, k < j → l[k]? ≠ some v := by
  induction l generalizing j with
  | nil => simp [findFirst] at h
  | cons a l ih =>
    unfold findFirst at h
    by_cases ha : a = v
    · simp only [ha, if_true, Option.some.injEq] at h
      subst h
      simp [ha]
    · simp only [ha, if_false, Option.map_eq_some_iff] at h
      obtain ⟨j', hj', rfl⟩ := h
      obtain ⟨h1, h2⟩ := ih hj'
      refine ⟨by simpa using h1, ?_⟩
      intro k hk
      cases k with
      | zero => simpa using ha
      | succ k => simpa using h2 k (by omega)

theorem findFirst_none {l : List Nat} {v : Nat} : findFirst l v = none ↔ v ∉ l := by
  induction l with
  | nil => simp [findFirst]
  | cons a l ih =>
    unfold findFirst
    by_cases ha : a = v
    · simp [ha]
    · simp only [ha, if_false, Option.map_eq_none_iff, ih, List.mem_cons, not_or]
      constructor
      · intro h; exact ⟨fun e => ha e.symm, h⟩
      · intro h; exact h.2

/-- **C05.** Look-up by positive numbers succeeds iff all three numbers occur among the unfiltered
entries; the result carries exactly these numbers and is the first such problem of the suite. -/
theorem C05_lookup (s : State) (f d i : Nat) (hf : f ≠ 0) (hd : d ≠ 0) (hi : i ≠ 0) :
    (f ∈ s.functions ∧ d ∈ s.dimensions ∧ i ∈ s.instances →
      ∃ fp dp ip, s.functions[fp]? = some f ∧ s.dimensions[dp]? = some d ∧ s.instances[ip]? = some i ∧
        problemByNumbers s f d i = .ok (some { function := f, dimension := d, inst := i,
                                               index := encode s fp dp ip }) ∧
        (∀ fp' dp' ip', s.functions[fp']? = some f → s.dimensions[dp']? = some d →
          s.instances[ip']? = some i → encode s fp dp ip ≤ encode s fp' dp' ip')) ∧
    (¬ (f ∈ s.functions ∧ d ∈ s.dimensions ∧ i ∈ s.instances) → problemByNumbers s f d i = .ok none) := by
  constructor
  · rintro ⟨mf, md, mi⟩
    cases hF : findFirst s.functions f with
    | none => exact absurd mf (findFirst_none.1 hF)
    | some fp =>
      cases hD : findFirst s.dimensions d with
      | none => exact absurd md (findFirst_none.1 hD)
      | some dp =>
        cases hI : findFirst s.instances i with
        | none => exact absurd mi (findFirst_none.1 hI)
        | some ip =>
          obtain ⟨f1, f2⟩ := findFirst_some hF
          obtain ⟨d1, d2⟩ := findFirst_some hD
          obtain ⟨i1, i2⟩ := findFirst_some hI
          refine ⟨fp, dp, ip, f1, d1, i1, ?_, ?_⟩
          · unfold problemByNumbers
            simp only [hF, hD, hI]
            simp [problemFromIndices, Res.readNat, f1, d1, i1, hf, hd, hi]
          · intro fp' dp' ip' g1 g2 g3
            have a1 : fp ≤ fp' := Nat.le_of_not_lt fun h => f2 fp' h g1
            have a2 : dp ≤ dp' := Nat.le_of_not_lt fun h => d2 dp' h g2
            have a3 : ip ≤ ip' := Nat.le_of_not_lt fun h => i2 ip' h g3
            unfold encode
            have b1 := Nat.mul_le_mul_right s.instances.length a1
            have b2 := Nat.mul_le_mul_right s.functions.length (Nat.mul_le_mul_right s.instances.length a2)
            omega
  · intro h
    unfold problemByNumbers
    cases hF : findFirst s.functions f with
    | none => rfl
    | some fp =>
      cases hD : findFirst s.dimensions d with
      | none => rfl
      | some dp =>
        cases hI : findFirst s.instances i with
        | none => rfl
        | some ip =>
          exfalso
          apply h
          have f1 := (findFirst_some hF).1
          have d1 := (findFirst_some hD).1
          have i1 := (findFirst_some hI).1
          exact ⟨List.mem_of_getElem? f1, List.mem_of_getElem? d1, List.mem_of_getElem? i1⟩

example : (3 ∈ exSuite.functions ∧ 5 ∈ exSuite.dimensions ∧ 3 ∈ exSuite.instances) ∧
    ¬ (1 ∈ exSuite.functions ∧ 5 ∈ exSuite.dimensions ∧ 3 ∈ exSuite.instances) := by decide

/-! ### C06 -/

theorem filterIndicesFrom_get (k : Nat) (items idx : List Nat) (j : Nat) :
    (filterIndicesFrom k items idx)[j]? = items[j]?.map fun v => if k + j ∈ idx then v else 0 := by
  induction items generalizing k j with
  | nil => simp [filterIndicesFrom]
  | cons a items ih =>
    unfold filterIndicesFrom
    cases j with
    | zero =>
      simp only [List.getElem?_cons_zero, Option.map_some, Nat.add_zero, Option.some.injEq]
      by_cases h : k ∈ idx
      · have : idx.any (fun j => k == j) = true := by
          rw [List.any_eq_true]; exact ⟨k, h, by simp⟩
        simp [this, h]
      · have : idx.any (fun j => k == j) = false := by
          rw [List.any_eq_false]; intro x hx; simp; intro e; exact h (e ▸ hx)
        simp [this, h]
    | succ j =>
      simp only [List.getElem?_cons_succ]
      rw [ih (k + 1) j]
      rw [show k + 1 + j = k + (j + 1) by omega]

/-- **C06.** Filtering by (1-based) indices: the entry at position `j` keeps its value iff `j+1` is
listed, and becomes 0 otherwise; the number of entries does not change. -/
theorem C06_filter_indices (items idx : List Nat) (j : Nat) :
    (filterIndices items idx)[j]? = items[j]?.map fun v => if j + 1 ∈ idx then v else 0 := by
  unfold filterIndices
  rw [filterIndicesFrom_get, Nat.add_comm]

/-- **C06.** Filtering by dimension numbers. -/
theorem C06_filter_dimensions (dims numbers : List Nat) (j : Nat) :
    (filterDimensions dims numbers)[j]? = dims[j]?.map fun v => if v ∈ numbers then v else 0 := by
  unfold filterDimensions
  rw [List.getElem?_map]
  congr 1
  funext v
  by_cases h : v ∈ numbers
  · have : numbers.any (fun n => v == n) = true := by
      rw [List.any_eq_true]; exact ⟨v, h, by simp⟩
    simp [this, h]
  · have : numbers.any (fun n => v == n) = false := by
      rw [List.any_eq_false]; intro x hx; simp; intro e; exact h (e ▸ hx)
    simp [this, h]

/-- **C06.** Filters never resurrect an entry, are idempotent and commute. -/
theorem C06_filter_laws (items idx idx' : List Nat) :
    (∀ j : Nat, items[j]? = some 0 → (filterIndices items idx)[j]? = some 0) ∧
    filterIndices (filterIndices items idx) idx = filterIndices items idx ∧
    filterIndices (filterIndices items idx) idx' = filterIndices (filterIndices items idx') idx := by
  refine ⟨?_, ?_, ?_⟩
  · intro j hj
    rw [C06_filter_indices, hj]; simp
  · apply List.ext_getElem?
    intro j
    rw [C06_filter_indices, C06_filter_indices, Option.map_map]
    congr 1
    funext v
    simp only [Function.comp]
    split <;> rfl
  · apply List.ext_getElem?
    intro j
    rw [C06_filter_indices, C06_filter_indices, C06_filter_indices, C06_filter_indices, Option.map_map,
      Option.map_map]
    congr 1
    funext v
    simp only [Function.comp]
    split <;> split <;> rfl

/-- **C06** (observable effect). A problem is returned by the iteration after function filtering iff it
was returned before and its (1-based) function position is listed. -/
theorem C06_filter_effect (s : State) (idx : List Nat) (p : Prob) :
    p ∈ Spec.problems { s with functions := filterIndices s.functions idx } ↔
      p ∈ Spec.problems s ∧
        ∃ f d i, decode s p.index 0 0 0 = .ok (f, d, i) ∧ f + 1 ∈ idx := by
  have hlen : (filterIndices s.functions idx).length = s.functions.length := by
    have : ∀ k (l : List Nat), (filterIndicesFrom k l idx).length = l.length := by
      intro k l
      induction l generalizing k with
      | nil => rfl
      | cons a l ih => simp [filterIndicesFrom, ih]
    exact this 1 _
  have hact : ∀ j : Nat, Active (filterIndices s.functions idx) j ↔ Active s.functions j ∧ j + 1 ∈ idx := by
    intro j
    unfold Active
    rw [C06_filter_indices]
    constructor
    · rintro ⟨v, hv, hv0⟩
      rw [Option.map_eq_some_iff] at hv
      obtain ⟨w, hw, e⟩ := hv
      by_cases h : j + 1 ∈ idx
      · simp only [h, if_true] at e
        exact ⟨⟨w, hw, e ▸ hv0⟩, h⟩
      · simp only [h, if_false] at e
        exact absurd e.symm hv0
    · rintro ⟨⟨v, hv, hv0⟩, h⟩
      exact ⟨v, by rw [hv]; simp [h], hv0⟩
  have hmem : ∀ t : State, p ∈ Spec.problems t ↔
      ∃ f d i, Active t.functions f ∧ Active t.dimensions d ∧ Active t.instances i ∧ p = probAt t f d i := by
    intro t
    rw [problems_eq_allProbs]
    unfold allProbs dimProbs
    simp only [List.mem_flatMap, List.mem_map, mem_activePos]
    constructor
    · rintro ⟨d, hd, f, hf, i, hi, rfl⟩
      exact ⟨f, d, i, hf, hd, hi, rfl⟩
    · rintro ⟨f, d, i, hf, hd, hi, rfl⟩
      exact ⟨d, hd, f, hf, i, hi, rfl⟩
  rw [hmem, hmem]
  have hprob : ∀ f d i, f + 1 ∈ idx →
      probAt { s with functions := filterIndices s.functions idx } f d i = probAt s f d i := by
    intro f d i h
    unfold probAt encode
    simp only [hlen, C06_filter_indices, h, if_true, Prob.mk.injEq, and_true]
    cases s.functions[f]? <;> rfl
  constructor
  · rintro ⟨f, d, i, hf, hd, hi, rfl⟩
    obtain ⟨hf1, hf2⟩ := (hact f).1 hf
    rw [hprob f d i hf2]
    refine ⟨⟨f, d, i, hf1, hd, hi, rfl⟩, f, d, i, ?_, hf2⟩
    exact (C03_decode_encode s f d i 0 0 0 (active_lt hf1) (active_lt hd) (active_lt hi)).2
  · rintro ⟨⟨f, d, i, hf, hd, hi, rfl⟩, f', d', i', hdec, hidx⟩
    have := (C03_decode_encode s f d i 0 0 0 (active_lt hf) (active_lt hd) (active_lt hi)).2
    have e : (probAt s f d i).index = encode s f d i := rfl
    rw [e, this] at hdec
    simp only [Res.ok.injEq, Prod.mk.injEq] at hdec
    obtain ⟨rfl, rfl, rfl⟩ := hdec
    exact ⟨f, d, i, (hact f).2 ⟨hf, hidx⟩, hd, hi, (hprob f d i hidx).symm⟩

example : filterIndices [1, 2, 3, 4] [2, 4, 9] = [0, 2, 0, 4] ∧ filterDimensions [2, 3, 5] [5, 2] = [2, 0, 5] := by
  decide

/-! ### C07 -/

/-- **C07** (functions and dimensions). The index getters return the number at the position and abort for
an index out of range. -/
theorem C07_index_getters_partial (s : State) (k : Nat) :
    functionFromIndex s k = (match s.functions[k]? with | some v => .ok v | none => .error) ∧
    dimensionFromIndex s k = (match s.dimensions[k]? with | some v => .ok v | none => .error) := by
  constructor
  · unfold functionFromIndex Res.readNat
    by_cases h : k ≥ s.functions.length
    · simp [h]
    · have h' : k < s.functions.length := by omega
      simp [h, List.getElem?_eq_getElem h']
  · unfold dimensionFromIndex Res.readNat
    by_cases h : k ≥ s.dimensions.length
    · simp [h]
    · have h' : k < s.dimensions.length := by omega
      simp [h, List.getElem?_eq_getElem h']

example : functionFromIndex exSuite 2 = .ok 3 ∧ dimensionFromIndex exSuite 3 = .error := by decide

/-- **C07** (instances: what the code does). The instance getter returns the *function* number at the given
position; if there are more instances than functions, in-range instance positions read past the
functions array. -/
theorem C07_instance_getter_exact (s : State) (k : Nat) (hk : k < s.instances.length) :
    instanceFromIndex s k = (match s.functions[k]? with | some v => .ok v | none => .ub) := by
  unfold instanceFromIndex Res.readNat
  have : ¬ k ≥ s.instances.length := by omega
  simp only [this, if_false]
  cases s.functions[k]? <;> rfl

/-- **C07** (refutation). The instance getter does not return the instance number, and can read out of
bounds for an in-range instance position. -/
theorem C07_instance_getter_wrong :
    (∃ (s : State) (k v : Nat), s.instances[k]? = some v ∧ instanceFromIndex s k ≠ .ok v) ∧
    (∃ (s : State) (k v : Nat), s.instances[k]? = some v ∧ instanceFromIndex s k = .ub) :=
  ⟨⟨exSuite, 0, 1, by decide, by decide⟩,
   ⟨{ functions := [1], dimensions := [2], instances := [1, 2], curFunction := 0, curDimension := 0,
      curInstance := -1 }, 1, 2, by decide, by decide⟩⟩

/-! ### C09 -/

/-- **C09.** Advancing the cursor (from "before the array" or any position in it): if a later active entry
exists, the nearest one is reached and reported; otherwise, if any entry is active, the first active one
is reached and exhaustion is reported; otherwise (all entries filtered) the program aborts with an error.
In no case is the array read out of bounds. -/
theorem C09_next_item (items : List Nat) (cur : Int) (h1 : -1 ≤ cur) (h2 : cur < items.length)
    (hpos : 0 < items.length) :
    (∃ j : Nat, nextItem items cur = .ok (true, (j : Int)) ∧ cur < j ∧ Active items j ∧
        ∀ i : Nat, cur < i → i < j → ¬ Active items i) ∨
    (∃ j : Nat, nextItem items cur = .ok (false, (j : Int)) ∧ Active items j ∧
        (∀ i : Nat, i < j → ¬ Active items i) ∧ ∀ i : Nat, cur < i → ¬ Active items i) ∨
    (nextItem items cur = .error ∧ ∀ i, ¬ Active items i) := by
  obtain ⟨k, hk⟩ : ∃ k : Nat, cur = (k : Int) - 1 := ⟨(cur + 1).toNat, by omega⟩
  subst hk
  have least : ∀ m : Nat, (∃ j, m ≤ j ∧ Active items j) →
      ∃ j, m ≤ j ∧ Active items j ∧ ∀ i, m ≤ i → i < j → ¬ Active items i := by
    rintro m ⟨j, hj, ha⟩
    induction j using Nat.strongRecOn with
    | _ j ih =>
      by_cases h : ∃ i, m ≤ i ∧ i < j ∧ Active items i
      · obtain ⟨i, a1, a2, a3⟩ := h
        exact ih i a2 a1 a3
      · refine ⟨j, hj, ha, ?_⟩
        intro i a1 a2 a3
        exact h ⟨i, a1, a2, a3⟩
  by_cases hex : ∃ j, k ≤ j ∧ Active items j
  · obtain ⟨j, a1, a2, a3⟩ := least k hex
    left
    refine ⟨j, nextItem_found items k j a1 a2 a3, by omega, a2, ?_⟩
    intro i hi1 hi2
    exact a3 i (by omega) hi2
  · by_cases hany : ∃ j, 0 ≤ j ∧ Active items j
    · obtain ⟨j, _, b2, b3⟩ := least 0 hany
      right; left
      refine ⟨j, nextItem_wrap items k j (by omega) ?_ b2 (fun i hi => b3 i (by omega) hi), b2,
        fun i hi => b3 i (by omega) hi, ?_⟩
      · intro i hi ha; exact hex ⟨i, hi, ha⟩
      · intro i hi ha; exact hex ⟨i, by omega, ha⟩
    · right; right
      refine ⟨nextItem_error items k (by omega) hpos ?_, ?_⟩ <;>
      · intro i ha; exact hany ⟨i, by omega, ha⟩

example : (-1 : Int) ≤ 1 ∧ (1 : Int) < [0, 4, 0, 7].length ∧ 0 < [0, 4, 0, 7].length ∧
    Active [0, 4, 0, 7] 3 := by
  refine ⟨by decide, by decide, by decide, 7, rfl, by decide⟩

end Suite
