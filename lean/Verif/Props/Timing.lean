import Mathlib.Tactic
import Verif.Model.Timing

/-!
# The timing table of the example experiment (C120)
-/

namespace Timing

/-! ### Specification -/

/-- The problems of one dimension, at least one: the first and the others, each with evaluations and the time it was finished. -/
structure Spec.Block where
  dimension : Nat
  first : Nat × Int
  rest : List (Nat × Int)

/-- The problems of a block in order. -/
def Spec.Block.problems (b : Spec.Block) : List Done :=
  (b.first :: b.rest).map fun p => ⟨b.dimension, p.1, p.2⟩

/-- All evaluations of a block. -/
def Spec.Block.evaluations (b : Spec.Block) : Nat := ((b.first :: b.rest).map (·.1)).sum

/-- Dimensions are positive and consecutive blocks have different dimensions. -/
def Spec.Separate : List Spec.Block → Prop
  | [] => True
  | [b] => 0 < b.dimension
  | b :: c :: bs => 0 < b.dimension ∧ b.dimension ≠ c.dimension ∧ Spec.Separate (c :: bs)

/-- The table: one line per dimension with evaluations, with the number of all its evaluations. The seconds are those from the end
of the first problem of this dimension to the end of the first problem of the next one. -/
def Spec.lines (end_ : Int) : List Spec.Block → List Line
  | [] => []
  | b :: bs =>
    (if 0 < b.evaluations then
      [⟨b.dimension, (match bs with | [] => end_ | c :: _ => c.first.2) - b.first.2, b.evaluations⟩] else []) ++
      Spec.lines end_ bs

/-! ### Proofs -/

theorem timeAll_append (s : State) (ps qs : List Done) :
    timeAll s (ps ++ qs) = (timeAll s ps).bind fun s => timeAll s qs := by
  induction ps generalizing s with
  | nil => rfl
  | cons p ps ih =>
    simp only [List.cons_append, timeAll]
    cases timeProblem s p <;> simp [Res.bind, ih]

/-- The other problems of a dimension. -/
theorem rest_ok (d : Nat) (rest : List (Nat × Int)) (s : State) (hs : s.previousDimension = d) :
    timeAll s (rest.map fun p => ⟨d, p.1, p.2⟩) =
      .ok { s with cumulativeEvaluations := s.cumulativeEvaluations + (rest.map (·.1)).sum } := by
  induction rest generalizing s with
  | nil => simp [timeAll]
  | cons p rest ih =>
    simp only [List.map_cons, timeAll, timeProblem, hs, ne_eq, not_true_eq_false, if_false, Res.ok_bind]
    rw [ih _ rfl]
    simp [Nat.add_assoc]

/-- The blocks that follow, and the end. -/
theorem blocks_ok (end_ : Int) (bs : List Spec.Block) : ∀ (s : State), Spec.Separate bs →
    (∀ b ∈ bs.head?, s.previousDimension ≠ b.dimension) →
    s.output.length + (if 0 < s.cumulativeEvaluations then 1 else 0) + bs.length ≤ s.numberOfDimensions →
    ((timeAll s (bs.flatMap Spec.Block.problems)).bind fun s => (flush s end_).bind fun s =>
      .ok (s.output, end_ - s.overallStartTime)) =
    .ok (s.output ++ (if 0 < s.cumulativeEvaluations then [⟨s.previousDimension,
      (match bs with | [] => end_ | c :: _ => c.first.2) - s.startTime, s.cumulativeEvaluations⟩] else []) ++
      Spec.lines end_ bs, end_ - s.overallStartTime) := by
  induction bs with
  | nil =>
    intro s _ _ hl
    simp only [List.flatMap_nil, timeAll, Res.ok_bind, flush, Spec.lines, List.append_nil]
    by_cases h : 0 < s.cumulativeEvaluations
    · rw [if_pos h] at hl
      simp only [List.length_nil, Nat.add_zero] at hl
      rw [if_pos h, if_pos (by omega), if_pos h]
      simp
    · simp [if_neg h]
  | cons b bs ih =>
    intro s hsep hne hl
    have hne : s.previousDimension ≠ b.dimension := hne b (by simp)
    have hsep2 : Spec.Separate bs := by
      cases bs with
      | nil => trivial
      | cons c bs => exact hsep.2.2
    have hne2 : ∀ c ∈ bs.head?, b.dimension ≠ c.dimension := by
      intro c hc
      cases bs with
      | nil => simp at hc
      | cons c' bs => simp at hc; subst hc; exact hsep.2.1
    obtain ⟨s1, hf, ho, hc, hn, hoo⟩ : ∃ s1, flush s b.first.2 = .ok s1 ∧ s1.output = s.output ++
        (if 0 < s.cumulativeEvaluations then [⟨s.previousDimension, b.first.2 - s.startTime,
          s.cumulativeEvaluations⟩] else []) ∧
        s1.output.length = s.output.length + (if 0 < s.cumulativeEvaluations then 1 else 0) ∧
        s1.numberOfDimensions = s.numberOfDimensions ∧ s1.overallStartTime = s.overallStartTime := by
      unfold flush
      by_cases h : 0 < s.cumulativeEvaluations
      · rw [if_pos h] at hl
        simp only [List.length_cons] at hl
        rw [if_pos h, if_pos (by omega)]
        exact ⟨_, rfl, by simp [if_pos h], by simp [if_pos h], rfl, rfl⟩
      · rw [if_neg h]
        exact ⟨_, rfl, by simp [if_neg h], by simp [if_neg h], rfl, rfl⟩
    simp only [List.flatMap_cons, Spec.Block.problems, List.map_cons, List.cons_append, timeAll, timeProblem, ne_eq, hne,
      not_false_eq_true, if_true, hf, Res.ok_bind, timeAll_append]
    rw [rest_ok b.dimension b.rest _ rfl]
    simp only [Res.ok_bind]
    have hev : b.first.1 + (b.rest.map (·.1)).sum = b.evaluations := by simp [Spec.Block.evaluations]
    have := ih { s1 with previousDimension := b.dimension, cumulativeEvaluations := b.evaluations, startTime := b.first.2 }
      hsep2 hne2 (by
        simp only [List.length_cons] at hl ⊢
        rw [hc, hn]
        have : (if 0 < b.evaluations then 1 else 0) ≤ 1 := by split_ifs <;> omega
        omega)
    rw [hev]
    refine this.trans ?_
    simp only [ho, hoo, Spec.lines, List.append_assoc]

/-- **C120** (partial). For every experiment whose problems come dimension by dimension (C01), in at most as many blocks as the
suite has dimensions, the table of times is written without leaving its memory, has a line for each dimension with evaluations,
in order, with the right number of evaluations, and the total time is right. (The full statement also says that the
seconds of a line are those spent on the problems of the dimension. They are not: see `Spec.lines` and
`C120_wrong_dimension`.) -/
theorem C120_table_partial (n : Nat) (begin_ end_ : Int) (bs : List Spec.Block) (hs : Spec.Separate bs) (hn : bs.length ≤ n) :
    table n begin_ (bs.flatMap Spec.Block.problems) end_ = .ok (Spec.lines end_ bs, end_ - begin_) := by
  have := blocks_ok end_ bs (start n begin_) hs (by
    intro b hb
    show 0 ≠ b.dimension
    cases bs with
    | nil => simp at hb
    | cons c bs =>
      simp at hb
      subst hb
      cases bs with
      | nil => exact Nat.ne_of_lt hs
      | cons _ _ => exact Nat.ne_of_lt hs.1) (by simpa [start] using hn)
  exact this.trans (by simp [start])

/-- **C120** (the seconds belong to other problems). In an experiment with one problem in each of two dimensions, beginning at time
`t0`, the first problem taking `a` and the second `b` seconds, the line of the first dimension reports the `b` seconds of the
second dimension and the line of the second reports 0 seconds. -/
theorem C120_wrong_dimension (d e k l : Nat) (t0 a b : Int) (hd : 0 < d) (he : 0 < e) (hne : d ≠ e) (hk : 0 < k)
    (hl : 0 < l) :
    table 2 t0 [⟨d, k, t0 + a⟩, ⟨e, l, t0 + a + b⟩] (t0 + a + b) = .ok ([⟨d, b, k⟩, ⟨e, 0, l⟩], a + b) := by
  have := C120_table_partial 2 t0 (t0 + a + b) [⟨d, (k, t0 + a), []⟩, ⟨e, (l, t0 + a + b), []⟩] ⟨hd, hne, he⟩ (by simp)
  refine this.trans ?_
  simp only [Spec.lines, Spec.Block.evaluations, List.map_cons, List.map_nil, List.sum_cons, List.sum_nil, Nat.add_zero, if_pos hk,
    if_pos hl, List.cons_append, List.nil_append]
  congr 3
  · congr 1; ring
  · congr 2; ring
  · ring

/-- **C120** (total time). Hours, minutes and seconds are those of the total time. -/
theorem C120_clock (t : Nat) : ∃ h m s, clock t = (h, m, s) ∧ h * 3600 + m * 60 + s = t ∧ m < 60 ∧ s < 60 := by
  refine ⟨_, _, _, rfl, ?_⟩
  omega

/-! ### Cases that meet the hypotheses -/

/-- Three dimensions, the second without evaluations. -/
example : Spec.Separate [⟨2, (10, 5), [(10, 7)]⟩, ⟨3, (0, 8), []⟩, ⟨5, (20, 10), [(30, 40)]⟩] :=
  ⟨by decide, by decide, by decide, by decide, show 0 < 5 by decide⟩

example : table 3 0 [⟨2, 10, 5⟩, ⟨2, 10, 7⟩, ⟨3, 0, 8⟩, ⟨5, 20, 10⟩, ⟨5, 30, 40⟩] 40 =
    .ok ([⟨2, 3, 20⟩, ⟨5, 30, 50⟩], 40) := by
  decide

end Timing
