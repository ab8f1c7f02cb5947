import Mathlib.Tactic
import Mathlib.Data.Finset.Dedup
import Verif.Model.PyRepeat

/-!
# Repeating an experiment in Python (C122)
-/

namespace PyRepeat

/-! ### Specification -/

/-- The instances of a function in a dimension in the suite. -/
def Spec.instances (suite : List (Key × Nat)) (k : Key) : List Nat := (suite.filter fun x => x.1 = k).map (·.2)

/-- Enough trials with `n` instances: enough successes, or the budget per instance is used up. -/
def Spec.Enough (p : Params) (k : Key) (n : Nat) (l : List Trial) : Prop :=
  p.minSuccesses ≤ (l.filter (·.success)).length ∨ (n : ℚ) * (k.2 * p.multiplier) ≤ (((l.map (·.evals)).sum : Nat) : ℚ)

/-- The trials of a function in a dimension, in order, come in complete rounds over all its instances, and each but the first
round only because the rounds before it are not enough. -/
def Spec.InRounds (p : Params) (suite : List (Key × Nat)) (k : Key) (rounds : List (List Trial)) : Prop :=
  (∀ r ∈ rounds, r.map (·.inst) = Spec.instances suite k ∧ ∀ t ∈ r, t.key = k) ∧
    ∀ j, 0 < j → j < rounds.length → ¬ Spec.Enough p k (Spec.instances suite k).length (rounds.take j).flatten

/-! ### Counting -/

theorem count_append (a b : List Trial) (i : Nat) : count (a ++ b) i = count a i + count b i := by
  simp [count]

theorem count_round (r : List Trial) (I : List Nat) (hr : r.map (·.inst) = I) (hn : I.Nodup) (i : Nat) :
    count r i = if i ∈ I then 1 else 0 := by
  have h : count r i = I.count i := by
    rw [← hr, count, List.count_eq_length_filter, List.filter_map, List.length_map]
    rfl
  rw [h]
  split_ifs with hi
  · exact List.count_eq_one_of_mem hn hi
  · exact List.count_eq_zero_of_not_mem hi

theorem count_rounds (rounds : List (List Trial)) (I : List Nat) (hr : ∀ r ∈ rounds, r.map (·.inst) = I) (hn : I.Nodup)
    (i : Nat) : count rounds.flatten i = if i ∈ I then rounds.length else 0 := by
  induction rounds with
  | nil => simp [count]
  | cons r rs ih =>
    rw [List.flatten_cons, count_append, ih fun r h => hr r (by simp [h]), count_round r I (hr r (by simp)) hn]
    split_ifs <;> simp [Nat.add_comm]

theorem foldr_max (l : List Nat) (m : Nat) (hle : ∀ x ∈ l, x ≤ m) (hm : m = 0 ∨ m ∈ l) : l.foldr max 0 = m := by
  have h1 : l.foldr max 0 ≤ m := by
    clear hm
    induction l with
    | nil => simp
    | cons x xs ih =>
      simp only [List.foldr_cons]
      exact max_le (hle x (by simp)) (ih fun y hy => hle y (by simp [hy]))
  have h2 : ∀ x ∈ l, x ≤ l.foldr max 0 := by
    clear hle hm h1
    induction l with
    | nil => simp
    | cons y ys ih =>
      intro x hx
      simp only [List.foldr_cons]
      rcases List.mem_cons.1 hx with rfl | hx
      · exact le_max_left _ _
      · exact (ih x hx).trans (le_max_right _ _)
  rcases hm with rfl | hm
  · omega
  · exact le_antisymm h1 (h2 m hm)

theorem mem_instances (d : List Trial) (i : Nat) : i ∈ instances d ↔ 0 < count d i := by
  simp only [instances, List.mem_dedup, List.mem_map, count, List.length_pos_iff_exists_mem, List.mem_filter]
  constructor
  · rintro ⟨t, ht, rfl⟩; exact ⟨t, ht, by simp⟩
  · rintro ⟨t, ht, h⟩; exact ⟨t, ht, by simpa using h⟩

/-- The largest number of trials of an instance. -/
theorem max_trials (d : List Trial) (m : Nat) (hle : ∀ i, count d i ≤ m) (hm : m = 0 ∨ ∃ i, count d i = m) :
    (trials d).foldr max 0 = m := by
  apply foldr_max
  · intro x hx
    obtain ⟨i, -, rfl⟩ := List.mem_map.1 hx
    exact hle i
  · rcases hm with h | ⟨i, hi⟩
    · exact .inl h
    · rcases Nat.eq_zero_or_pos m with h | h
      · exact .inl h
      · exact .inr (List.mem_map.2 ⟨i, (mem_instances d i).2 (by omega), hi⟩)

theorem instances_length (rounds : List (List Trial)) (I : List Nat) (hr : ∀ r ∈ rounds, r.map (·.inst) = I) (hn : I.Nodup)
    (h0 : 0 < rounds.length) : (instances rounds.flatten).length = I.length := by
  rw [← List.toFinset_card_of_nodup hn, ← List.toFinset_card_of_nodup (show (instances rounds.flatten).Nodup from List.nodup_dedup _)]
  congr 1
  ext i
  rw [List.mem_toFinset, List.mem_toFinset, mem_instances, count_rounds rounds I hr hn]
  split_ifs with h <;> simp [h, h0]

/-- The decision between rounds and within a round: `t` complete rounds, and `l`, trials of the next round for the instances
`P`. -/
theorem done_iff (p : Params) (s : Repeater) (k : Key) (I P R : List Nat) (i : Nat) (hI : I = P ++ i :: R) (hn : I.Nodup)
    (rounds : List (List Trial)) (hr : ∀ r ∈ rounds, r.map (·.inst) = I) (l : List Trial) (hl : l.map (·.inst) = P)
    (hd : data s.trials k = rounds.flatten ++ l) :
    doneProblem p s k i = true ↔ 1 < s.sweeps ∧ 0 < rounds.length ∧ l = [] ∧ Spec.Enough p k I.length rounds.flatten := by
  have hPn : P.Nodup := by rw [hI] at hn; exact (List.nodup_append.1 hn).1
  have hiP : i ∉ P := by
    rw [hI] at hn
    intro h
    exact (List.nodup_append.1 hn).2.2 i h i (by simp) rfl
  have hc : ∀ j, count (data s.trials k) j = (if j ∈ I then rounds.length else 0) + if j ∈ P then 1 else 0 := by
    intro j
    rw [hd, count_append, count_rounds rounds I hr hn, count_round l P hl hPn]
  have hci : count (data s.trials k) i = rounds.length := by rw [hc]; simp [hI, hiP]
  have hPI : ∀ j ∈ P, j ∈ I := fun j hj => by rw [hI]; simp [hj]
  have hmax : (trials (data s.trials k)).foldr max 0 = rounds.length + if P = [] then 0 else 1 := by
    apply max_trials
    · intro j
      rw [hc]
      by_cases hP : P = []
      · subst hP; simp; split_ifs <;> omega
      · rw [if_neg hP]; split_ifs <;> omega
    · right
      by_cases hP : P = []
      · exact ⟨i, by rw [hci, if_pos hP]; rfl⟩
      · obtain ⟨j, hj⟩ := List.exists_mem_of_ne_nil P hP
        exact ⟨j, by rw [hc, if_pos (hPI j hj), if_pos hj, if_neg hP]⟩
  have hmiss : missing (data s.trials k) i = 0 ↔ 0 < rounds.length ∧ P = [] := by
    unfold missing
    rw [hmax, hci]
    by_cases hP : P = []
    · rw [if_pos hP]; simp only [hP, and_true]; push_cast; omega
    · rw [if_neg hP]; simp only [hP, and_false, iff_false]; push_cast; omega
  have hPl : P = [] ↔ l = [] := by rw [← hl]; simp
  unfold doneProblem
  simp only []
  constructor
  · intro h
    split_ifs at h with hc2
    push Not at hc2
    obtain ⟨h1, h2, h3⟩ := hc2
    obtain ⟨h4, h5⟩ := hmiss.1 h2
    have hl0 := hPl.1 h5
    refine ⟨h1, h4, hl0, ?_⟩
    subst hl0
    rw [List.append_nil] at hd
    by_cases hs : succeeded p (data s.trials k) = true
    · left
      rw [hd] at hs
      simpa [succeeded, successes] using hs
    · right
      have := h3 (by simpa using hs)
      have he : exhausted p k (data s.trials k) = true := by simpa using this
      rw [hd] at he
      have hlen := instances_length rounds I hr hn h4
      have hI1 : 1 ≤ I.length := by rw [hI, List.length_append, List.length_cons]; omega
      simpa only [exhausted, evaluations, hlen, max_eq_right hI1, decide_eq_true_eq] using he
  · rintro ⟨h1, h4, rfl, h⟩
    rw [List.append_nil] at hd
    rw [if_neg]
    push Not
    refine ⟨h1, hmiss.2 ⟨h4, hPl.2 rfl⟩, fun hs => ?_⟩
    rcases h with h | h
    · rw [hd] at hs
      have : succeeded p rounds.flatten = true := by simpa [succeeded, successes] using h
      rw [this] at hs
      exact absurd hs (by simp)
    · have hlen := instances_length rounds I hr hn h4
      have hI1 : 1 ≤ I.length := by rw [hI, List.length_append, List.length_cons]; omega
      rw [hd]
      have : exhausted p k rounds.flatten = true := by
        simpa only [exhausted, evaluations, hlen, max_eq_right hI1, decide_eq_true_eq] using h
      rw [this]
      simp

/-! ### A sweep -/

theorem data_append (h : List Trial) (t : Trial) (k : Key) :
    data (h ++ [t]) k = data h k ++ if t.key = k then [t] else [] := by
  unfold data
  rw [List.filter_append]
  by_cases hk : t.key = k <;> simp [hk]

/-- Whether a function in a dimension gets another round. -/
def Stop (p : Params) (sweeps : Nat) (k : Key) (n : Nat) (rounds : List (List Trial)) : Prop :=
  1 < sweeps ∧ 0 < rounds.length ∧ Spec.Enough p k n rounds.flatten

theorem sweep_ok (p : Params) (run : Run) (suite : List (Key × Nat)) (hn : suite.Nodup) (rounds : Key → List (List Trial))
    (hr : ∀ k, ∀ r ∈ rounds k, r.map (·.inst) = Spec.instances suite k) (rest : List (Key × Nat)) :
    ∀ (done : List (Key × Nat)) (s : Repeater), suite = done ++ rest →
    (∀ t ∈ s.trials, (t.key, t.inst) ∈ suite) →
    (∀ k, ∃ l, data s.trials k = (rounds k).flatten ++ l ∧
      ((Stop p s.sweeps k (Spec.instances suite k).length (rounds k) ∧ l = []) ∨
        (¬ Stop p s.sweeps k (Spec.instances suite k).length (rounds k) ∧ l.map (·.inst) = Spec.instances done k))) →
    (sweep p run s rest).sweeps = s.sweeps ∧ (∀ t ∈ (sweep p run s rest).trials, (t.key, t.inst) ∈ suite) ∧
      ∀ k, ∃ l, data (sweep p run s rest).trials k = (rounds k).flatten ++ l ∧
      ((Stop p s.sweeps k (Spec.instances suite k).length (rounds k) ∧ l = []) ∨
        (¬ Stop p s.sweeps k (Spec.instances suite k).length (rounds k) ∧ l.map (·.inst) = Spec.instances suite k)) := by
  have hnI : ∀ k, (Spec.instances suite k).Nodup := by
    intro k
    unfold Spec.instances
    refine (List.nodup_map_iff_inj_on (hn.filter _)).2 ?_
    intro x hx y hy h
    simp only [List.mem_filter, decide_eq_true_eq] at hx hy
    exact Prod.ext (hx.2.trans hy.2.symm) h
  induction rest with
  | nil =>
    intro done s hs ht hk
    rw [List.append_nil] at hs
    subst hs
    exact ⟨rfl, ht, hk⟩
  | cons x rest ih =>
    intro done s hs ht hk
    obtain ⟨k, i⟩ := x
    have hsplit : Spec.instances suite k = Spec.instances done k ++ i :: Spec.instances rest k := by
      rw [hs]; simp [Spec.instances]
    have hs' : suite = (done ++ [(k, i)]) ++ rest := by rw [hs]; simp
    have hother : ∀ k', k' ≠ k → Spec.instances (done ++ [(k, i)]) k' = Spec.instances done k' := by
      intro k' h
      simp [Spec.instances, Ne.symm h]
    have hsame : Spec.instances (done ++ [(k, i)]) k = Spec.instances done k ++ [i] := by simp [Spec.instances]
    obtain ⟨l, hl, hcase⟩ := hk k
    rcases hcase with ⟨hstop, rfl⟩ | ⟨hgo, hl2⟩
    · -- no further round
      have hd : doneProblem p s k i = true := by
        have hmem : i ∈ Spec.instances suite k := by rw [hsplit]; simp
        obtain ⟨P, R, hPR, -⟩ : ∃ P R, Spec.instances suite k = P ++ i :: R ∧ True := ⟨_, _, hsplit, trivial⟩
        have hI0 : 0 < (rounds k).length := hstop.2.1
        -- the decision does not depend on how many instances came before, as nothing was run
        have hc : ∀ j, count (data s.trials k) j = if j ∈ Spec.instances suite k then (rounds k).length else 0 := by
          intro j
          rw [hl, List.append_nil, count_rounds (rounds k) _ (hr k) (hnI k)]
        have hmax : (trials (data s.trials k)).foldr max 0 = (rounds k).length := by
          apply max_trials
          · intro j; rw [hc]; split_ifs <;> omega
          · exact .inr ⟨i, by rw [hc, if_pos hmem]⟩
        have hmiss : missing (data s.trials k) i = 0 := by
          unfold missing
          rw [hmax, hc, if_pos hmem]
          push_cast
          omega
        have hlen := instances_length (rounds k) _ (hr k) (hnI k) hI0
        have hI1 : 1 ≤ (Spec.instances suite k).length := by
          rw [hsplit, List.length_append, List.length_cons]; omega
        unfold doneProblem
        simp only []
        rw [if_neg]
        push Not
        refine ⟨hstop.1, hmiss, fun hs => ?_⟩
        rw [List.append_nil] at hl
        rcases hstop.2.2 with h | h
        · rw [hl] at hs
          have : succeeded p (rounds k).flatten = true := by simpa [succeeded, successes] using h
          rw [this] at hs
          exact absurd hs (by simp)
        · rw [hl]
          have : exhausted p k (rounds k).flatten = true := by
            simpa only [exhausted, evaluations, hlen, max_eq_right hI1, decide_eq_true_eq] using h
          rw [this]
          simp
      rw [sweep, if_pos hd]
      refine ih (done ++ [(k, i)]) s hs' ht ?_
      intro k'
      by_cases h : k' = k
      · subst h
        exact ⟨[], hl, .inl ⟨hstop, rfl⟩⟩
      · rw [hother k' h]; exact hk k'
    · have hnd : doneProblem p s k i = false := by
        rw [← Bool.not_eq_true]
        intro h
        have := (done_iff p s k _ _ _ i hsplit (hnI k) (rounds k) (hr k) l hl2 hl).1 h
        exact hgo ⟨this.1, this.2.1, this.2.2.2⟩
      rw [sweep, if_neg (by simp [hnd])]
      refine ih (done ++ [(k, i)]) _ hs' ?_ ?_
      · intro t hmem
        simp only [List.mem_append, List.mem_singleton] at hmem
        rcases hmem with hmem | rfl
        · exact ht t hmem
        · show (k, i) ∈ suite
          rw [hs]; simp
      · intro k'
        simp only [data_append]
        by_cases h : k' = k
        · subst h
          refine ⟨l ++ [⟨k', i, (run s.trials k' i).1, (run s.trials k' i).2⟩], by simp [hl], .inr ⟨hgo, ?_⟩⟩
          rw [hsame, List.map_append, hl2]
          rfl
        · obtain ⟨l', hl', hc'⟩ := hk k'
          refine ⟨l', by simp [hl', Ne.symm h], ?_⟩
          rw [hother k' h]
          exact hc'

/-! ### The whole experiment -/

/-- What holds after `n` sweeps. -/
structure Inv (p : Params) (suite : List (Key × Nat)) (s : Repeater) (rounds : Key → List (List Trial)) : Prop where
  mem : ∀ t ∈ s.trials, (t.key, t.inst) ∈ suite
  data : ∀ k, data s.trials k = (rounds k).flatten
  inRounds : ∀ k, Spec.InRounds p suite k (rounds k)
  first : 0 < s.sweeps → ∀ k, 0 < (rounds k).length
  atMost : ∀ k, (rounds k).length ≤ s.sweeps

theorem data_key (h : List Trial) (k : Key) : ∀ t ∈ data h k, t.key = k := by
  intro t ht
  simpa using (List.mem_filter.1 ht).2

theorem sweep_inv (p : Params) (run : Run) (suite : List (Key × Nat)) (hn : suite.Nodup) (s : Repeater)
    (rounds : Key → List (List Trial)) (h : Inv p suite s rounds) :
    ∃ rounds', Inv p suite (sweep p run ⟨s.trials, s.sweeps + 1⟩ suite) rounds' ∧
      (sweep p run ⟨s.trials, s.sweeps + 1⟩ suite).sweeps = s.sweeps + 1 := by
  obtain ⟨h1, h2, h3⟩ := sweep_ok p run suite hn rounds (fun k r hr => ((h.inRounds k).1 r hr).1) suite [] ⟨s.trials, s.sweeps + 1⟩
    rfl h.mem (by
      intro k
      refine ⟨[], by simp [h.data k], ?_⟩
      by_cases hs : Stop p (s.sweeps + 1) k (Spec.instances suite k).length (rounds k)
      · exact .inl ⟨hs, rfl⟩
      · exact .inr ⟨hs, rfl⟩)
  choose l hl hcase using h3
  classical
  refine ⟨fun k => if Stop p (s.sweeps + 1) k (Spec.instances suite k).length (rounds k) then rounds k else rounds k ++ [l k],
    ⟨h2, ?_, ?_, ?_, ?_⟩, h1⟩
  · intro k
    rcases hcase k with ⟨hs, hl0⟩ | ⟨hs, hl0⟩
    · rw [if_pos hs, hl k, hl0, List.append_nil]
    · rw [if_neg hs, hl k]
      simp
  · intro k
    rcases hcase k with ⟨hs, hl0⟩ | ⟨hs, hl0⟩
    · rw [if_pos hs]; exact h.inRounds k
    · rw [if_neg hs]
      refine ⟨?_, ?_⟩
      · intro r hr
        simp only [List.mem_append, List.mem_singleton] at hr
        rcases hr with hr | rfl
        · exact (h.inRounds k).1 r hr
        · refine ⟨hl0, fun t ht => data_key (sweep p run ⟨s.trials, s.sweeps + 1⟩ suite).trials k t ?_⟩
          rw [hl k]
          exact List.mem_append_right _ ht
      · intro j hj0 hj
        simp only [List.length_append, List.length_singleton] at hj
        rw [List.take_append_of_le_length (by omega)]
        rcases Nat.lt_or_ge j (rounds k).length with hlt | hge
        · exact (h.inRounds k).2 j hj0 hlt
        · intro he
          rw [List.take_of_length_le hge] at he
          have hlen : 0 < (rounds k).length := by omega
          have := h.atMost k
          exact hs ⟨show 1 < s.sweeps + 1 by omega, hlen, he⟩
  · intro _ k
    rcases hcase k with ⟨hs, -⟩ | ⟨hs, -⟩
    · rw [if_pos hs]; exact hs.2.1
    · rw [if_neg hs]; simp
  · intro k
    rw [h1]
    have := h.atMost k
    show (if Stop p (s.sweeps + 1) k (Spec.instances suite k).length (rounds k) then rounds k else rounds k ++ [l k]).length ≤
      s.sweeps + 1
    split_ifs
    · omega
    · simp; omega

theorem loop_ok (p : Params) (run : Run) (suite : List (Key × Nat)) (hn : suite.Nodup) (hne : suite ≠ [])
    (hmax : 2 ≤ p.maxSweeps) (fuel : Nat) : ∀ (s : Repeater) (rounds : Key → List (List Trial)), Inv p suite s rounds →
    p.maxSweeps ≤ s.sweeps + fuel → s.sweeps < p.maxSweeps → (s.sweeps = 0 → s.trials = []) →
    ∃ s' rounds', loop p run suite fuel s = some s' ∧ Inv p suite s' rounds' ∧ 0 < s'.sweeps ∧ s'.sweeps < p.maxSweeps ∧
      (s'.sweeps + 1 = p.maxSweeps ∨ ∀ k, Spec.instances suite k ≠ [] →
        Spec.Enough p k (Spec.instances suite k).length (rounds' k).flatten) := by
  induction fuel with
  | zero => intro s _ _ h1 h2; omega
  | succ fuel ih =>
    intro s rounds hinv h1 h2 h3
    rw [loop]
    by_cases hd : (doneAll p s).1 = true
    · rw [if_pos hd]
      have hs : (doneAll p s).2 = s := by
        have : (doneAll p s).2 = if (doneAll p s).1 then s else { s with sweeps := s.sweeps + 1 } := rfl
        rw [this, if_pos hd]
      rw [hs]
      simp only [doneAll, Bool.or_eq_true, decide_eq_true_eq, Bool.and_eq_true, Bool.not_eq_true', List.isEmpty_iff] at hd
      have hpos : 0 < s.sweeps := by
        rcases Nat.eq_zero_or_pos s.sweeps with h | h
        · rw [h3 h, h] at hd
          simp at hd
          omega
        · exact h
      refine ⟨s, rounds, rfl, hinv, hpos, h2, ?_⟩
      rcases hd with (hd | hd) | hd
      · left; omega
      · exfalso
        obtain ⟨⟨k, i⟩, hx⟩ := List.exists_mem_of_ne_nil suite hne
        obtain ⟨r, hr⟩ := List.exists_mem_of_length_pos (hinv.first hpos k)
        have hri := ((hinv.inRounds k).1 r hr).1
        have hdat := hinv.data k
        rw [hd.2] at hdat
        have : r = [] := by
          have h0 : (rounds k).flatten = [] := hdat.symm
          rw [List.flatten_eq_nil_iff] at h0
          exact h0 r hr
        rw [this] at hri
        have : i ∈ Spec.instances suite k := by
          unfold Spec.instances
          exact List.mem_map.2 ⟨(k, i), by simp [hx], rfl⟩
        rw [← hri] at this
        simp at this
      · right
        intro k hk
        obtain ⟨i, R, hI⟩ := List.exists_cons_of_ne_nil hk
        have hnI : (Spec.instances suite k).Nodup := by
          unfold Spec.instances
          refine (List.nodup_map_iff_inj_on (hn.filter _)).2 ?_
          intro x hx y hy h
          simp only [List.mem_filter, decide_eq_true_eq] at hx hy
          exact Prod.ext (hx.2.trans hy.2.symm) h
        have hmem : ∃ t ∈ s.trials, t.key = k ∧ t.inst = i := by
          obtain ⟨r, hr⟩ := List.exists_mem_of_length_pos (hinv.first hpos k)
          have hri := ((hinv.inRounds k).1 r hr).1
          have : i ∈ r.map (·.inst) := by rw [hri, hI]; simp
          obtain ⟨t, ht, hti⟩ := List.mem_map.1 this
          have htd : t ∈ data s.trials k := by
            rw [hinv.data k]
            exact List.mem_flatten.2 ⟨r, hr, ht⟩
          exact ⟨t, (List.mem_filter.1 htd).1, data_key _ _ t htd, hti⟩
        obtain ⟨t, ht, htk, hti⟩ := hmem
        have hdone : doneProblem p ⟨s.trials, s.sweeps + 1⟩ k i = true := by
          by_contra hcon
          have : t ∈ remaining p ⟨s.trials, s.sweeps + 1⟩ := by
            unfold remaining
            rw [List.mem_filter]
            refine ⟨ht, ?_⟩
            rw [htk, hti]
            simp only [Bool.not_eq_true] at hcon
            simp [hcon]
          rw [hd.2] at this
          exact absurd this List.not_mem_nil
        exact ((done_iff p ⟨s.trials, s.sweeps + 1⟩ k _ [] R i hI hnI (rounds k)
          (fun r hr => ((hinv.inRounds k).1 r hr).1) [] rfl (by simp [hinv.data k])).1 hdone).2.2.2
    · rw [if_neg hd]
      have hs : (doneAll p s).2 = ⟨s.trials, s.sweeps + 1⟩ := by
        have : (doneAll p s).2 = if (doneAll p s).1 then s else { s with sweeps := s.sweeps + 1 } := rfl
        rw [this, if_neg hd]
      rw [hs]
      have hlt : s.sweeps + 1 < p.maxSweeps := by
        by_contra hcon
        apply hd
        simp only [doneAll, Bool.or_eq_true, decide_eq_true_eq]
        left; left
        omega
      obtain ⟨rounds', hinv', hsw⟩ := sweep_inv p run suite hn s rounds hinv
      exact ih _ rounds' hinv' (by rw [hsw]; omega) (by rw [hsw]; exact hlt) (by rw [hsw]; omega)

/-! ### C122 -/

/-- **C122**. For every suite without repeated instances, every algorithm, budget and number of successes, the loop ends. The trials
of each function in each dimension then consist of complete rounds over all its instances; there is at least one round, each
further round was made because the earlier ones had neither enough successes nor used up the budget, and the rounds
made are enough unless the maximal number of sweeps was reached. -/
theorem C122_rounds (p : Params) (run : Run) (suite : List (Key × Nat)) (hn : suite.Nodup) (hne : suite ≠ [])
    (hmax : 2 ≤ p.maxSweeps) :
    ∃ s, loop p run suite p.maxSweeps ⟨[], 0⟩ = some s ∧ s.sweeps < p.maxSweeps ∧
      ∀ k, Spec.instances suite k ≠ [] → ∃ rounds, data s.trials k = rounds.flatten ∧ Spec.InRounds p suite k rounds ∧
        0 < rounds.length ∧ rounds.length ≤ s.sweeps ∧
        (s.sweeps + 1 = p.maxSweeps ∨ Spec.Enough p k (Spec.instances suite k).length rounds.flatten) := by
  obtain ⟨s, rounds, h1, h2, h3, h4, h5⟩ := loop_ok p run suite hn hne hmax p.maxSweeps ⟨[], 0⟩ (fun _ => [])
    ⟨by simp, fun _ => rfl, fun k => ⟨by simp, by simp⟩, by simp, by simp⟩ (by simp) (by simp; omega) (fun _ => rfl)
  refine ⟨s, h1, h4, fun k hk => ⟨rounds k, h2.data k, h2.inRounds k, h2.first h3 k, h2.atMost k, ?_⟩⟩
  rcases h5 with h | h
  · exact .inl h
  · exact .inr (h k hk)

/-- **C122** (number of trials). All instances of a function in a dimension have equally many trials, and if every trial makes at
least one evaluation then there are fewer than one plus the budget. -/
theorem C122_trials (p : Params) (run : Run) (suite : List (Key × Nat)) (hn : suite.Nodup) (hne : suite ≠ [])
    (hmax : 2 ≤ p.maxSweeps) (hrun : ∀ h k i, 0 < (run h k i).1) :
    ∃ s, loop p run suite p.maxSweeps ⟨[], 0⟩ = some s ∧ ∀ k, Spec.instances suite k ≠ [] → ∃ t : Nat, 0 < t ∧
      (∀ i ∈ Spec.instances suite k, (s.trials.filter fun x => x.key = k ∧ x.inst = i).length = t) ∧
      (t = 1 ∨ (t : ℚ) < k.2 * p.multiplier + 1) := by
  obtain ⟨s, h1, -, h2⟩ := C122_rounds p run suite hn hne hmax
  have hev : ∀ t ∈ s.trials, 0 < t.evals := by
    have hsw : ∀ rest (s : Repeater), (∀ t ∈ s.trials, 0 < t.evals) → ∀ t ∈ (sweep p run s rest).trials, 0 < t.evals := by
      intro rest
      induction rest with
      | nil => intro s h; exact h
      | cons x rest ih =>
        intro s h
        obtain ⟨k, i⟩ := x
        rw [sweep]
        split_ifs
        · exact ih s h
        · refine ih _ ?_
          intro t ht
          simp only [List.mem_append, List.mem_singleton] at ht
          rcases ht with ht | rfl
          · exact h t ht
          · exact hrun _ _ _
    have hlo : ∀ fuel (s s' : Repeater), (∀ t ∈ s.trials, 0 < t.evals) → loop p run suite fuel s = some s' →
        ∀ t ∈ s'.trials, 0 < t.evals := by
      intro fuel
      induction fuel with
      | zero => intro s s' _ h; simp [loop] at h
      | succ fuel ih =>
        intro s s' h hl
        have ht : (doneAll p s).2.trials = s.trials := by
          have : (doneAll p s).2 = if (doneAll p s).1 then s else { s with sweeps := s.sweeps + 1 } := rfl
          rw [this]; split_ifs <;> rfl
        rw [loop] at hl
        split_ifs at hl
        · cases hl
          rw [ht]; exact h
        · exact ih _ _ (hsw suite _ (by rw [ht]; exact h)) hl
    exact hlo _ _ _ (by simp) h1
  refine ⟨s, h1, fun k hk => ?_⟩
  obtain ⟨rounds, hd, ⟨hr, hstop⟩, hpos, -, -⟩ := h2 k hk
  have hnI : (Spec.instances suite k).Nodup := by
    unfold Spec.instances
    refine (List.nodup_map_iff_inj_on (hn.filter _)).2 ?_
    intro x hx y hy h
    simp only [List.mem_filter, decide_eq_true_eq] at hx hy
    exact Prod.ext (hx.2.trans hy.2.symm) h
  refine ⟨rounds.length, hpos, ?_, ?_⟩
  · intro i hi
    have := count_rounds rounds _ (fun r h => (hr r h).1) hnI i
    rw [if_pos hi] at this
    rw [← this, ← hd, count, data, List.filter_filter]
    congr 1
    apply List.filter_congr
    intro x _
    by_cases h1 : x.key = k <;> by_cases h2 : x.inst = i <;> simp [h1, h2]
  · rcases Nat.lt_or_ge 1 rounds.length with h | h
    · right
      have hne := hstop (rounds.length - 1) (by omega) (by omega)
      unfold Spec.Enough at hne
      push Not at hne
      have hb := hne.2
      set n := (Spec.instances suite k).length with hnlen
      have hnpos : 0 < n := List.length_pos_iff.2 hk
      have hsum : ∀ (rs : List (List Trial)), (∀ r ∈ rs, r.length = n ∧ ∀ t ∈ r, 0 < t.evals) →
          n * rs.length ≤ (rs.flatten.map (·.evals)).sum := by
        intro rs
        induction rs with
        | nil => simp
        | cons r rs ih =>
          intro h
          have h1 := ih fun r hr => h r (by simp [hr])
          have h2 : r.length ≤ (r.map (·.evals)).sum := by
            have := (h r (by simp)).2
            clear ih h h1
            induction r with
            | nil => simp
            | cons t ts ih2 =>
              have ht := this t (by simp)
              have := ih2 fun x hx => this x (by simp [hx])
              simp only [List.length_cons, List.map_cons, List.sum_cons]
              omega
          simp only [List.flatten_cons, List.map_append, List.sum_append, List.length_cons, Nat.mul_add, Nat.mul_one]
          have := (h r (by simp)).1
          omega
      have hsum2 := hsum (rounds.take (rounds.length - 1)) (by
        intro r hr'
        have hmem := List.mem_of_mem_take hr'
        refine ⟨by rw [hnlen, ← (hr r hmem).1, List.length_map], fun t ht => hev t ?_⟩
        have : t ∈ data s.trials k := by rw [hd]; exact List.mem_flatten.2 ⟨r, hmem, ht⟩
        exact (List.mem_filter.1 this).1)
      rw [List.length_take, Nat.min_eq_left (by omega)] at hsum2
      have hq : ((n * (rounds.length - 1) : Nat) : ℚ) ≤
          ((((rounds.take (rounds.length - 1)).flatten.map (·.evals)).sum : Nat) : ℚ) := by exact_mod_cast hsum2
      have hlt : ((n * (rounds.length - 1) : Nat) : ℚ) < (n : ℚ) * (k.2 * p.multiplier) := lt_of_le_of_lt hq hb
      rw [Nat.cast_mul] at hlt
      have hnq : (0 : ℚ) < n := by exact_mod_cast hnpos
      have := lt_of_mul_lt_mul_left hlt hnq.le
      rw [Nat.cast_sub (by omega)] at this
      push_cast at this
      linarith
    · left; omega

/-- **C122** (no budget). With the budget 0 there is exactly one trial of each instance. -/
theorem C122_one_sweep (p : Params) (run : Run) (suite : List (Key × Nat)) (hn : suite.Nodup) (hne : suite ≠ [])
    (hmax : 2 ≤ p.maxSweeps) (h0 : p.multiplier = 0) :
    ∃ s, loop p run suite p.maxSweeps ⟨[], 0⟩ = some s ∧ ∀ k, Spec.instances suite k ≠ [] →
      (data s.trials k).map (·.inst) = Spec.instances suite k := by
  obtain ⟨s, h1, -, h2⟩ := C122_rounds p run suite hn hne hmax
  refine ⟨s, h1, fun k hk => ?_⟩
  obtain ⟨rounds, hd, ⟨hr, hstop⟩, hpos, -, -⟩ := h2 k hk
  rcases Nat.lt_or_ge 1 rounds.length with h | h
  · exfalso
    apply hstop 1 (by omega) h
    right
    rw [h0, mul_zero, mul_zero]
    exact Nat.cast_nonneg _
  · obtain ⟨r, rfl⟩ := List.length_eq_one_iff.1 (show rounds.length = 1 by omega)
    rw [hd]
    simpa using (hr r (by simp)).1

/-! ### Cases that meet the hypotheses -/

/-- Two functions with two instances each; the first needs two rounds. -/
example : (loop ⟨10, 2, 100⟩ (fun _ k _ => (7, decide (k.1 = 2))) [((1, 1), 1), ((1, 1), 2), ((2, 1), 1), ((2, 1), 2)] 100 ⟨[], 0⟩).map
    (fun s => (s.sweeps, s.trials.map fun t => (t.key, t.inst))) =
    some (2, [((1, 1), 1), ((1, 1), 2), ((2, 1), 1), ((2, 1), 2), ((1, 1), 1), ((1, 1), 2)]) := by
  decide +kernel

example : ([((1, 1), 1), ((1, 1), 2), ((2, 1), 1), ((2, 1), 2)] : List (Key × Nat)).Nodup ∧
    Spec.instances [((1, 1), 1), ((1, 1), 2), ((2, 1), 1), ((2, 1), 2)] (1, 1) = [1, 2] := by
  decide

end PyRepeat
