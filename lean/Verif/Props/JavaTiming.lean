import Mathlib.Tactic
import Verif.Model.JavaTiming

/-!
# The timing table of the example experiment in Java (C138)
-/

namespace JavaTiming

/-! ### Specification -/

/-- The problems of one dimension, at least one: the first and the others, each with evaluations and the time it was recorded. -/
structure Spec.Block where
  dimension : Nat
  first : Nat × Int
  rest : List (Nat × Int)

/-- The problems of a block in order. -/
def Spec.Block.problems (b : Spec.Block) : List Done :=
  (b.first :: b.rest).map fun p => ⟨b.dimension, p.1, p.2⟩

/-- All evaluations of a block. -/
def Spec.Block.evaluations (b : Spec.Block) : Nat := ((b.first :: b.rest).map (·.1)).sum

/-- Dimensions are positive and consecutive blocks have different dimensions. -/
def Spec.Separate : List Spec.Block → Prop
  | [] => True
  | [b] => 0 < b.dimension
  | b :: c :: bs => 0 < b.dimension ∧ b.dimension ≠ c.dimension ∧ Spec.Separate (c :: bs)

/-- The table: one line per dimension with evaluations, with the number of all its evaluations. The time is that from the end
of the first problem of this dimension to the end of the first problem of the next one. -/
def Spec.lines (end_ : Int) : List Spec.Block → List Line
  | [] => []
  | b :: bs =>
    (if 0 < b.evaluations then
      [⟨b.dimension, (match bs with | [] => end_ | c :: _ => c.first.2) - b.first.2, b.evaluations⟩] else []) ++
      Spec.lines end_ bs

/-! ### Proofs -/

/-- The other problems of a dimension. -/
theorem rest_ok (d : Nat) (rest : List (Nat × Int)) (s : Timing) (hs : s.previousDimension = d) :
    (rest.map fun p => (⟨d, p.1, p.2⟩ : Done)).foldl timeProblem s =
      { s with cumulativeEvaluations := s.cumulativeEvaluations + (rest.map (·.1)).sum } := by
  induction rest generalizing s with
  | nil => simp
  | cons p rest ih =>
    simp only [List.map_cons, List.foldl_cons, timeProblem, hs, ne_eq, not_true_eq_false, if_false]
    rw [ih _ rfl]
    simp [Nat.add_assoc]

theorem emit_output (s : Timing) (now : Int) : (emit s now).output = s.output ++
    (if 0 < s.cumulativeEvaluations then [⟨s.previousDimension, now - s.startTime, s.cumulativeEvaluations⟩] else []) := by
  unfold emit
  split_ifs <;> simp

theorem emit_overall (s : Timing) (now : Int) : (emit s now).overallStartTime = s.overallStartTime := by
  unfold emit
  split_ifs <;> rfl

/-- The blocks that follow, and the end. -/
theorem blocks_ok (end_ : Int) (bs : List Spec.Block) : ∀ (s : Timing), Spec.Separate bs →
    (∀ b ∈ bs.head?, s.previousDimension ≠ b.dimension) →
    output ((bs.flatMap Spec.Block.problems).foldl timeProblem s) end_ =
    (s.output ++ (if 0 < s.cumulativeEvaluations then [⟨s.previousDimension,
      (match bs with | [] => end_ | c :: _ => c.first.2) - s.startTime, s.cumulativeEvaluations⟩] else []) ++
      Spec.lines end_ bs, end_ - s.overallStartTime) := by
  induction bs with
  | nil =>
    intro s _ _
    simp [output, timeNull, emit_output, emit_overall, Spec.lines]
  | cons b bs ih =>
    intro s hsep hne
    have hne : s.previousDimension ≠ b.dimension := hne b (by simp)
    have hsep2 : Spec.Separate bs := by
      cases bs with
      | nil => trivial
      | cons c bs => exact hsep.2.2
    have hne2 : ∀ c ∈ bs.head?, b.dimension ≠ c.dimension := by
      intro c hc
      cases bs with
      | nil => simp at hc
      | cons c' bs => simp at hc; subst hc; exact hsep.2.1
    have hev : b.first.1 + (b.rest.map (·.1)).sum = b.evaluations := by simp [Spec.Block.evaluations]
    have := ih { emit s b.first.2 with
      previousDimension := b.dimension, cumulativeEvaluations := b.evaluations, startTime := b.first.2 } hsep2 hne2
    simp only [List.flatMap_cons, List.foldl_append, Spec.Block.problems, List.map_cons, List.foldl_cons, timeProblem, ne_eq,
      hne, not_false_eq_true, if_true]
    rw [rest_ok b.dimension b.rest _ rfl]
    simp only [hev]
    refine this.trans ?_
    simp only [emit_output, emit_overall, Spec.lines, List.append_assoc]

/-- **C138** (partial). For every experiment whose problems come dimension by dimension (C01), the table printed by the Java example
has a line for each dimension with evaluations, in order, with the right number of evaluations, and the total time is right.
(The full statement also says that the time of a line is that spent on the problems of the dimension. It is not: see
`Spec.lines` and `C138_wrong_dimension`.) -/
theorem C138_table_partial (begin_ end_ : Int) (bs : List Spec.Block) (hs : Spec.Separate bs) :
    experiment begin_ (bs.flatMap Spec.Block.problems) end_ = (Spec.lines end_ bs, end_ - begin_) := by
  have := blocks_ok end_ bs (new begin_) hs (by
    intro b hb
    show 0 ≠ b.dimension
    cases bs with
    | nil => simp at hb
    | cons c bs =>
      simp at hb
      subst hb
      cases bs with
      | nil => exact Nat.ne_of_lt hs
      | cons _ _ => exact Nat.ne_of_lt hs.1)
  exact this.trans (by simp [new])

theorem fold_count (ps : List Done) (s : Timing) :
    (((ps.foldl timeProblem s).output.map (·.evaluations)).sum + (ps.foldl timeProblem s).cumulativeEvaluations =
      (s.output.map (·.evaluations)).sum + s.cumulativeEvaluations + (ps.map (·.evaluations)).sum) ∧
    ((∀ l ∈ s.output, 0 < l.evaluations) → ∀ l ∈ (ps.foldl timeProblem s).output, 0 < l.evaluations) := by
  induction ps generalizing s with
  | nil => simp
  | cons p ps ih =>
    obtain ⟨h1, h2⟩ := ih (timeProblem s p)
    simp only [List.foldl_cons, List.map_cons, List.sum_cons]
    refine ⟨h1.trans ?_, fun h => h2 ?_⟩
    · unfold timeProblem
      split_ifs
      · simp only [emit_output]
        split_ifs
        · simp
          omega
        · simp
          omega
      · simp
        omega
    · unfold timeProblem
      split_ifs
      · simp only [emit_output]
        intro l hl
        rcases List.mem_append.1 hl with hl | hl
        · exact h l hl
        · split_ifs at hl with hc
          · simp only [List.mem_singleton] at hl
            subst hl
            exact hc
          · simp at hl
      · exact h

/-- **C138** (no evaluation is lost). For every sequence of problems, in whatever order, the evaluations of the lines add up to those
of all problems, and no line divides by 0. -/
theorem C138_every_evaluation (begin_ end_ : Int) (ps : List Done) :
    ((experiment begin_ ps end_).1.map (·.evaluations)).sum = (ps.map (·.evaluations)).sum ∧
    ∀ l ∈ (experiment begin_ ps end_).1, 0 < l.evaluations := by
  obtain ⟨h1, h2⟩ := fold_count ps (new begin_)
  have h2 := h2 (by simp [new])
  have h0 : ((new begin_).output.map (·.evaluations)).sum + (new begin_).cumulativeEvaluations = 0 := rfl
  rw [h0, Nat.zero_add] at h1
  simp only [experiment, output, timeNull, emit_output]
  generalize ps.foldl timeProblem (new begin_) = t at h1 h2 ⊢
  refine ⟨?_, ?_⟩
  · rw [← h1]
    by_cases hc : 0 < t.cumulativeEvaluations
    · simp [hc]
    · simp [Nat.eq_zero_of_not_pos hc]
  · intro l hl
    rcases List.mem_append.1 hl with hl | hl
    · exact h2 l hl
    · split_ifs at hl with hc
      · simp only [List.mem_singleton] at hl
        subst hl
        exact hc
      · simp at hl

/-- **C138** (the time belongs to other problems). In an experiment with one problem in each of two dimensions, beginning at time
`t0`, the first problem taking `a` and the second `b` nanoseconds, the line of the first dimension reports the time `b` of the
second dimension and the line of the second reports 0. -/
theorem C138_wrong_dimension (d e k l : Nat) (t0 a b : Int) (hd : 0 < d) (he : 0 < e) (hne : d ≠ e) (hk : 0 < k)
    (hl : 0 < l) :
    experiment t0 [⟨d, k, t0 + a⟩, ⟨e, l, t0 + a + b⟩] (t0 + a + b) = ([⟨d, b, k⟩, ⟨e, 0, l⟩], a + b) := by
  have := C138_table_partial t0 (t0 + a + b) [⟨d, (k, t0 + a), []⟩, ⟨e, (l, t0 + a + b), []⟩] ⟨hd, hne, he⟩
  refine this.trans ?_
  simp only [Spec.lines, Spec.Block.evaluations, List.map_cons, List.map_nil, List.sum_cons, List.sum_nil, Nat.add_zero, if_pos hk,
    if_pos hl, List.cons_append, List.nil_append]
  congr 2
  · congr 1; ring
  · congr 2; ring
  · ring

/-- **C138** (total time). Hours, minutes and seconds are those of the total time, less than a second being left out. -/
theorem C138_clock (t : Nat) : ∃ h m s, clock t = (h, m, s) ∧ m < 60 ∧ s < 60 ∧
    (h * 3600 + m * 60 + s) * 1000000000 ≤ t ∧ t < (h * 3600 + m * 60 + s + 1) * 1000000000 := by
  refine ⟨_, _, _, rfl, ?_⟩
  omega

/-! ### Cases that meet the hypotheses -/

/-- Three dimensions, the second without evaluations. -/
example : Spec.Separate [⟨2, (10, 5), [(10, 7)]⟩, ⟨3, (0, 8), []⟩, ⟨5, (20, 10), [(30, 40)]⟩] :=
  ⟨by decide, by decide, by decide, by decide, show 0 < 5 by decide⟩

example : experiment 0 [⟨2, 10, 5⟩, ⟨2, 10, 7⟩, ⟨3, 0, 8⟩, ⟨5, 20, 10⟩, ⟨5, 30, 40⟩] 40 =
    ([⟨2, 3, 20⟩, ⟨5, 30, 50⟩], 40) := by
  decide

/-- A dimension that comes back has two lines. -/
example : experiment 0 [⟨2, 10, 5⟩, ⟨3, 1, 7⟩, ⟨2, 4, 8⟩] 9 = ([⟨2, 2, 10⟩, ⟨3, 1, 1⟩, ⟨2, 1, 4⟩], 9) := by
  decide

example : clock 7384999999999 = (2, 3, 4) := by decide

end JavaTiming
