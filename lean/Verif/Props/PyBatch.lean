import Mathlib.Tactic
import Verif.Model.PyBatch

/-!
# The batches of an experiment in Python (C121)
-/

namespace PyBatch

/-! ### Specification -/

/-- The problems of a suite: for each pair of function and dimension in order, its instances (at least one). -/
def Spec.suite (blocks : List (Key × Nat)) : List Key := blocks.flatMap fun b => List.replicate (b.2 + 1) b.1

/-- Each pair of function and dimension is a single block. -/
def Spec.Blocks (blocks : List (Key × Nat)) : Prop := (blocks.map (·.1)).Nodup

/-- The numbers of the blocks from `k` on, one for each problem. -/
def Spec.number : Nat → List (Key × Nat) → List Nat
  | _, [] => []
  | k, b :: bs => List.replicate (b.2 + 1) k ++ Spec.number (k + 1) bs

/-! ### Proofs -/

theorem create_some (n e : Nat) (h : e < n) : create n (some e) = some ⟨n, e, none, none, -1⟩ := by
  unfold create
  by_cases h1 : (n : Int) = 1 ∧ (some (e : Int) = some 0 ∨ some (e : Int) = some 1 ∨ some (e : Int) = none)
  · rw [if_pos h1]
    have : e = 0 := by omega
    simp [this]
  · rw [if_neg h1]
    simp only []
    rw [if_neg (by omega)]

/-- Further instances of the current block. -/
theorem loop_same (s : Scheduler) (p : Key) (hc : s.current = some p) (hf : s.first ≠ none) (k : Nat) (ps : List Key) :
    loop s (List.replicate k p ++ ps) =
      (List.replicate k (decide (s.batch % s.number = s.execute)) ++ (loop s ps).1, (loop s ps).2) := by
  induction k with
  | zero => rfl
  | succ k ih =>
    have : isInBatch s p = (decide (s.batch % s.number = s.execute), s) := by
      simp [isInBatch, hf, hc]
    simp only [List.replicate_succ, List.cons_append, loop, this, ih]

/-- The blocks after the first one. -/
theorem loop_blocks (n e : Int) (f : Key) (blocks : List (Key × Nat)) : ∀ (k : Nat) (c : Key) (ps : List Key),
    Spec.Blocks blocks → f ∉ blocks.map (·.1) → (∀ b ∈ blocks.head?, c ≠ b.1) →
    ∃ c', loop ⟨n, e, some f, some c, k⟩ (Spec.suite blocks ++ ps) =
      ((Spec.number (k + 1) blocks).map (fun (j : Nat) => decide ((j : Int) % n = e)) ++
        (loop ⟨n, e, some f, some c', k + blocks.length⟩ ps).1, (loop ⟨n, e, some f, some c', k + blocks.length⟩ ps).2) ∧
      (blocks = [] → c' = c) ∧ (∀ b ∈ blocks.getLast?, c' = b.1) := by
  induction blocks with
  | nil => intro k c ps _ _ _; exact ⟨c, by simp [Spec.suite, Spec.number], fun _ => rfl, by simp⟩
  | cons b blocks ih =>
    intro k c ps hb hf hc
    have hc : c ≠ b.1 := hc b (by simp)
    have hfb : f ≠ b.1 := fun h => hf (by simp [h])
    have hb' := List.nodup_cons.1 (show (b.1 :: blocks.map (·.1)).Nodup from hb)
    obtain ⟨c', h1, h2, h3⟩ := ih (k + 1) b.1 ps hb'.2 (fun h => hf (by simp [h])) (by
      intro x hx h
      apply hb'.1
      rw [h]
      exact List.mem_map.2 ⟨x, List.mem_of_mem_head? hx, rfl⟩)
    refine ⟨c', ?_, by simp, ?_⟩
    · have e1 : Spec.suite (b :: blocks) ++ ps = b.1 :: (List.replicate b.2 b.1 ++ (Spec.suite blocks ++ ps)) := by
        simp [Spec.suite, List.replicate_succ]
      have e2 : isInBatch ⟨n, e, some f, some c, k⟩ b.1 =
          (decide (((k + 1 : Nat) : Int) % n = e), ⟨n, e, some f, some b.1, (k + 1 : Nat)⟩) := by
        simp [isInBatch, hc, Ne.symm hfb]
      rw [e1, loop, e2]
      simp only []
      rw [loop_same _ b.1 rfl (by simp), h1]
      simp only [Spec.number, List.replicate_succ, List.length_cons, List.map_append, List.map_cons, List.map_replicate,
        List.cons_append, List.append_assoc]
      have e3 : (((k + 1 : Nat) : Int) + (blocks.length : Int)) = (k : Int) + ((blocks.length + 1 : Nat) : Int) := by
        push_cast; ring
      rw [e3]
    · intro x hx
      cases blocks with
      | nil =>
        simp at hx
        subst hx
        exact h2 rfl
      | cons b2 blocks =>
        exact h3 x (by simpa using hx)

/-- A whole sweep. -/
theorem loop_sweep (n e : Int) (b : Key × Nat) (blocks : List (Key × Nat)) (hb : Spec.Blocks (b :: blocks))
    (s : Scheduler) (ps : List Key) (hn : s.number = n) (he : s.execute = e)
    (hs : (s.first = none ∧ s.current = none ∧ s.batch = -1) ∨
      (s.first = some b.1 ∧ ((b :: blocks).length = 1 → s.batch = 0) ∧ ∀ x ∈ (b :: blocks).getLast?, s.current = some x.1)) :
    ∃ s', loop s (Spec.suite (b :: blocks) ++ ps) =
      ((Spec.number 0 (b :: blocks)).map (fun (j : Nat) => decide ((j : Int) % n = e)) ++ (loop s' ps).1, (loop s' ps).2) ∧
      s'.number = n ∧ s'.execute = e ∧ s'.first = some b.1 ∧ ((b :: blocks).length = 1 → s'.batch = 0) ∧
      ∀ x ∈ (b :: blocks).getLast?, s'.current = some x.1 := by
  have hb' := List.nodup_cons.1 (show (b.1 :: blocks.map (·.1)).Nodup from hb)
  have e1 : Spec.suite (b :: blocks) ++ ps = b.1 :: (List.replicate b.2 b.1 ++ (Spec.suite blocks ++ ps)) := by
    simp [Spec.suite, List.replicate_succ]
  have e2 : isInBatch s b.1 = (decide (((0 : Nat) : Int) % n = e), ⟨n, e, some b.1, some b.1, (0 : Nat)⟩) := by
    obtain ⟨n', e', f, c, k⟩ := s
    simp only at hn he hs
    subst hn he
    rcases hs with ⟨rfl, rfl, rfl⟩ | ⟨rfl, h1, h2⟩
    · simp [isInBatch]
    · by_cases hc : c = some b.1
      · have : blocks = [] := by
          by_contra hne
          obtain ⟨x, hx⟩ : ∃ x, blocks.getLast? = some x := ⟨_, List.getLast?_eq_some_getLast hne⟩
          have hx2 : (b :: blocks).getLast? = some x := by
            cases blocks with
            | nil => exact absurd rfl hne
            | cons y ys => simpa using hx
          have := h2 x hx2
          rw [hc] at this
          apply hb'.1
          rw [Option.some.inj this]
          exact List.mem_map.2 ⟨x, List.mem_of_getLast? hx, rfl⟩
        subst this
        have := h1 rfl
        simp [isInBatch, hc, this]
      · simp [isInBatch, hc]
  obtain ⟨c', h1, h2, h3⟩ := loop_blocks n e b.1 blocks 0 b.1 ps hb'.2 hb'.1 (by
    intro x hx h
    apply hb'.1
    rw [h]
    exact List.mem_map.2 ⟨x, List.mem_of_mem_head? hx, rfl⟩)
  refine ⟨⟨n, e, some b.1, some c', ((0 : Nat) : Int) + blocks.length⟩, ?_, rfl, rfl, rfl, ?_, ?_⟩
  · rw [e1, loop, e2]
    simp only []
    rw [loop_same _ b.1 rfl (by simp), h1]
    simp only [Spec.number, List.replicate_succ, List.map_append, List.map_cons, List.map_replicate, List.cons_append,
      List.append_assoc]
  · intro h
    simp only [List.length_cons] at h
    simp [show blocks.length = 0 by omega]
  · intro x hx
    cases blocks with
    | nil => simp at hx; subst hx; simp [h2 rfl]
    | cons y ys => simp [h3 x (by simpa using hx)]

theorem loop_sweeps (n e : Int) (b : Key × Nat) (blocks : List (Key × Nat)) (hb : Spec.Blocks (b :: blocks)) (sweeps : Nat) :
    ∀ (s : Scheduler), s.number = n → s.execute = e →
    ((s.first = none ∧ s.current = none ∧ s.batch = -1) ∨
      (s.first = some b.1 ∧ ((b :: blocks).length = 1 → s.batch = 0) ∧ ∀ x ∈ (b :: blocks).getLast?, s.current = some x.1)) →
    (loop s (List.replicate sweeps (Spec.suite (b :: blocks))).flatten).1 =
      (List.replicate sweeps ((Spec.number 0 (b :: blocks)).map fun (j : Nat) => decide ((j : Int) % n = e))).flatten := by
  induction sweeps with
  | zero => intro s _ _ _; rfl
  | succ k ih =>
    intro s hn he hs
    simp only [List.replicate_succ, List.flatten_cons]
    obtain ⟨s', h, h1, h2, h3⟩ := loop_sweep n e b blocks hb s (List.replicate k (Spec.suite (b :: blocks))).flatten hn he hs
    rw [h]
    simp only [ih s' h1 h2 (.inr h3)]

/-! ### C121 -/

/-- **C121**. For every suite whose problems come in blocks of equal function and dimension, every number of batches `n` and
of sweeps through the suite, batch `e` runs exactly the problems of the blocks with a number congruent to `e` modulo `n`,
in every sweep. -/
theorem C121_batches (n e : Nat) (he : e < n) (blocks : List (Key × Nat)) (hb : Spec.Blocks blocks) (sweeps : Nat) :
    ∃ s, create n (some e) = some s ∧ (loop s (List.replicate sweeps (Spec.suite blocks)).flatten).1 =
      (List.replicate sweeps ((Spec.number 0 blocks).map fun j => decide (j % n = e))).flatten := by
  refine ⟨_, create_some n e he, ?_⟩
  cases blocks with
  | nil =>
    have h1 : (List.replicate sweeps (Spec.suite [])).flatten = [] := by induction sweeps <;> simp_all [Spec.suite]
    have h2 : (List.replicate sweeps ((Spec.number 0 []).map fun j => decide (j % n = e))).flatten = [] := by
      induction sweeps <;> simp_all [Spec.number]
    rw [h1, h2]
    rfl
  | cons b blocks =>
    rw [loop_sweeps n e b blocks hb sweeps ⟨n, e, none, none, -1⟩ rfl rfl (.inl ⟨rfl, rfl, rfl⟩)]
    congr 2
    apply List.map_congr_left
    intro j _
    have : ((j : Int) % (n : Int) = (e : Int)) ↔ j % n = e := by
      rw [← Int.natCast_mod]
      exact Int.natCast_inj
    simp [this]

theorem number_length (k : Nat) (blocks : List (Key × Nat)) : (Spec.number k blocks).length = (Spec.suite blocks).length := by
  induction blocks generalizing k with
  | nil => rfl
  | cons b bs ih => simp [Spec.number, Spec.suite, ih]

/-- **C121** (partition). Every problem of every sweep is run by exactly one batch, and it is the same batch in every sweep. -/
theorem C121_partition (n : Nat) (hn : 0 < n) (blocks : List (Key × Nat)) (hb : Spec.Blocks blocks) (sweeps i : Nat)
    (hi : i < sweeps * (Spec.suite blocks).length) :
    ∃! e, e < n ∧ ∃ s, create n (some e) = some s ∧
      (loop s (List.replicate sweeps (Spec.suite blocks)).flatten).1[i]? = some true := by
  set L := (Spec.suite blocks).length with hL
  have hLpos : 0 < L := by rcases Nat.eq_zero_or_pos L with h | h; · simp [h] at hi
                           · exact h
  have hget : ∀ (l : List Bool), l.length = L → (List.replicate sweeps l).flatten[i]? = l[i % L]? := by
    intro l hl
    clear hb
    induction sweeps generalizing i with
    | zero => simp at hi
    | succ k ih =>
      simp only [List.replicate_succ, List.flatten_cons]
      rcases Nat.lt_or_ge i L with h | h
      · rw [List.getElem?_append_left (by omega), Nat.mod_eq_of_lt h]
      · rw [List.getElem?_append_right (by omega), hl, ih (i - L) (by rw [Nat.add_mul] at hi; omega),
          Nat.mod_eq_sub_mod h]
  have hj : i % L < (Spec.number 0 blocks).length := by rw [number_length]; exact Nat.mod_lt _ hLpos
  have key : ∀ e, e < n → ((∃ s, create n (some e) = some s ∧
      (loop s (List.replicate sweeps (Spec.suite blocks)).flatten).1[i]? = some true) ↔
      (Spec.number 0 blocks)[i % L] % n = e) := by
    intro e he
    obtain ⟨s, hs, hl⟩ := C121_batches n e he blocks hb sweeps
    have : (loop s (List.replicate sweeps (Spec.suite blocks)).flatten).1[i]? =
        some (decide ((Spec.number 0 blocks)[i % L] % n = e)) := by
      rw [hl, hget _ (by simp [number_length, hL])]
      simp [List.getElem?_eq_getElem hj]
    constructor
    · rintro ⟨s', hs', h⟩
      rw [hs] at hs'
      cases hs'
      rw [this] at h
      simpa using h
    · intro h
      exact ⟨s, hs, by rw [this]; simp [h]⟩
  refine ⟨(Spec.number 0 blocks)[i % L] % n, ⟨Nat.mod_lt _ hn, (key _ (Nat.mod_lt _ hn)).2 rfl⟩, ?_⟩
  rintro e ⟨he, h⟩
  exact ((key e he).1 h).symm

/-- **C121** (arguments). A scheduler is created exactly for batch numbers from 0 to `n - 1`, and for a single batch also for the
number 1 and no number. -/
theorem C121_arguments (n : Int) (e : Option Int) :
    (create n e).isSome ↔ (∃ k, e = some k ∧ 0 ≤ k ∧ k < n) ∨ (n = 1 ∧ (e = some 1 ∨ e = none)) := by
  unfold create
  split_ifs with h
  · simp only [Option.isSome_some, true_iff]
    rcases h with ⟨rfl, rfl | rfl | rfl⟩
    · left; exact ⟨0, rfl, by omega, by omega⟩
    · right; simp
    · right; simp
  · cases e with
    | none => simp at h ⊢; exact h
    | some k =>
      simp only
      split_ifs with hk
      · simp only [Option.isSome_none, Bool.false_eq_true, false_iff]
        rintro (⟨k', hk', h0, h1⟩ | ⟨rfl, h1 | h1⟩)
        · cases hk'; omega
        · exact h ⟨rfl, .inr (.inl h1)⟩
        · simp at h1
      · simp only [Option.isSome_some, true_iff]
        left
        exact ⟨k, rfl, by omega, by omega⟩

/-! ### Cases that meet the hypotheses -/

example : Spec.Blocks [((1, 2), 2), ((2, 2), 0), ((1, 3), 1)] := by unfold Spec.Blocks; decide

example : (loop ⟨2, 0, none, none, -1⟩ (Spec.suite [((1, 2), 2), ((2, 2), 0), ((1, 3), 1)] ++
      Spec.suite [((1, 2), 2), ((2, 2), 0), ((1, 3), 1)])).1 =
    [true, true, true, false, true, true, true, true, true, false, true, true] := by
  decide

end PyBatch
