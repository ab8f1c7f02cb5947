import Mathlib.Tactic
import Verif.Model.PyMedian

/-!
# The timing summary of the complete example experiment in Python (C143)
-/

namespace PyMedian

/-! ### Specification -/

/-- `m` is the median of the times: they are, in some order, as many times below as above, and between them one time, which is `m`, or two,
whose mean is `m`. -/
def Spec.IsMedian (ts : List ℚ) (m : ℚ) : Prop :=
  ∃ below above : List ℚ, below.length = above.length ∧
    ((ts.Perm (below ++ m :: above) ∧ (∀ x ∈ below, x ≤ m) ∧ ∀ x ∈ above, m ≤ x) ∨
    ∃ a b, ts.Perm (below ++ a :: b :: above) ∧ a ≤ b ∧ m = (a + b) / 2 ∧ (∀ x ∈ below, x ≤ a) ∧ ∀ x ∈ above, b ≤ x)

/-! ### Proofs -/

theorem sorted_q (l : List ℚ) : (l.mergeSort (fun a b => decide (a ≤ b))).Pairwise (· ≤ ·) := by
  have := List.pairwise_mergeSort (le := fun a b : ℚ => decide (a ≤ b)) (by
    intro a b c h1 h2
    simp only [decide_eq_true_eq] at *
    exact le_trans h1 h2) (by
    intro a b
    simp only [Bool.or_eq_true, decide_eq_true_eq]
    exact le_total a b) l
  exact this.imp fun h => by simpa using h

theorem sorted_n (l : List Nat) : (l.mergeSort (fun a b => decide (a ≤ b))).Pairwise (· ≤ ·) := by
  have := List.pairwise_mergeSort (le := fun a b : Nat => decide (a ≤ b)) (by
    intro a b c h1 h2
    simp only [decide_eq_true_eq] at *
    exact le_trans h1 h2) (by
    intro a b
    simp only [Bool.or_eq_true, decide_eq_true_eq]
    exact le_total a b) l
  exact this.imp fun h => by simpa using h

theorem split_at (s : List ℚ) (k : Nat) (hk : k < s.length) : s = s.take k ++ s[k] :: s.drop (k + 1) := by
  rw [← List.drop_eq_getElem_cons hk, List.take_append_drop]

/-- **C143** (median). For times of a dimension, at least one, the number of the line exists and is their median. -/
theorem C143_median (ts : List ℚ) (hne : ts ≠ []) : ∃ m, median ts = some m ∧ Spec.IsMedian ts m := by
  have hp : (ts.mergeSort (fun a b => decide (a ≤ b))).Perm ts := List.mergeSort_perm ts _
  have hs := sorted_q ts
  unfold median
  generalize ts.mergeSort (fun a b => decide (a ≤ b)) = s at hp hs
  have hpos : 0 < s.length := by
    rw [hp.length_eq]
    exact List.length_pos_iff.2 hne
  have h1 : s.length / 2 < s.length := by omega
  have h2 : s.length - (1 + s.length / 2) < s.length := by omega
  refine ⟨(s[s.length / 2] + s[s.length - (1 + s.length / 2)]) / 2, ?_, ?_⟩
  · simp only [fromEnd]
    rw [if_pos (by omega), List.getElem?_eq_getElem h1, List.getElem?_eq_getElem h2]
  · rcases Nat.even_or_odd' s.length with ⟨k, hk | hk⟩
    · have e1 : s.length / 2 = (k - 1) + 1 := by omega
      have e2 : s.length - (1 + s.length / 2) = k - 1 := by omega
      have hk1 : k - 1 < s.length := by omega
      have hk2 : (k - 1) + 1 < s.length := by omega
      rw [getElem_congr_idx e1, getElem_congr_idx e2]
      have sp : s = s.take (k - 1) ++ s[k - 1] :: s[(k - 1) + 1] :: s.drop ((k - 1) + 1 + 1) := by
        conv_lhs => rw [split_at s (k - 1) hk1]
        rw [← List.drop_eq_getElem_cons hk2]
      have hs' := hs
      rw [sp] at hs'
      rw [List.pairwise_append] at hs'
      obtain ⟨-, h4, h5⟩ := hs'
      rw [List.pairwise_cons, List.pairwise_cons] at h4
      refine ⟨s.take (k - 1), s.drop ((k - 1) + 1 + 1), by simp; omega, Or.inr ⟨s[k - 1], s[(k - 1) + 1], ?_, ?_, ?_, ?_, ?_⟩⟩
      · rw [← sp]
        exact hp.symm
      · exact h4.1 _ List.mem_cons_self
      · ring
      · exact fun x hx => h5 x hx _ List.mem_cons_self
      · exact h4.2.1
    · have e1 : s.length / 2 = k := by omega
      have e2 : s.length - (1 + s.length / 2) = k := by omega
      have hk1 : k < s.length := by omega
      rw [getElem_congr_idx e1, getElem_congr_idx e2]
      have sp := split_at s k hk1
      have em : (s[k] + s[k]) / 2 = s[k] := by ring
      rw [em]
      have hs' := hs
      rw [sp] at hs'
      rw [List.pairwise_append, List.pairwise_cons] at hs'
      obtain ⟨-, ⟨h4, -⟩, h5⟩ := hs'
      refine ⟨s.take k, s.drop (k + 1), by simp; omega, Or.inl ⟨?_, ?_, h4⟩⟩
      · rw [← sp]
        exact hp.symm
      · exact fun x hx => h5 x hx _ List.mem_cons_self

/-- **C143** (lines). There is one line for each dimension with a time and for no other, in increasing order, and each has the median of
all times of its dimension. -/
theorem C143_lines (entries : List (Nat × ℚ)) :
    ((summary entries).map (·.1)).Pairwise (· < ·) ∧
    (∀ d, d ∈ (summary entries).map (·.1) ↔ ∃ t, (d, t) ∈ entries) ∧
    ∀ l ∈ summary entries, ∃ m, l.2 = some m ∧ Spec.IsMedian ((entries.filter fun e => e.1 = l.1).map (·.2)) m := by
  have hp : ((entries.map (·.1)).dedup.mergeSort (fun a b => decide (a ≤ b))).Perm (entries.map (·.1)).dedup :=
    List.mergeSort_perm _ _
  have hm : (summary entries).map (·.1) = (entries.map (·.1)).dedup.mergeSort (fun a b => decide (a ≤ b)) := by
    simp [summary, Function.comp_def]
  have hd : ∀ d, d ∈ (summary entries).map (·.1) ↔ ∃ t, (d, t) ∈ entries := by
    intro d
    rw [hm, hp.mem_iff, List.mem_dedup]
    simp
  refine ⟨?_, hd, ?_⟩
  · rw [hm]
    have hn : ((entries.map (·.1)).dedup.mergeSort (fun a b => decide (a ≤ b))).Nodup := hp.nodup_iff.2 (List.nodup_dedup _)
    exact ((sorted_n _).and hn).imp fun h => lt_of_le_of_ne h.1 h.2
  · intro l hl
    obtain ⟨t, ht⟩ := (hd l.1).1 (List.mem_map_of_mem hl)
    obtain ⟨d, -, rfl⟩ := List.mem_map.1 hl
    refine C143_median _ fun h => ?_
    have : t ∈ (entries.filter fun e => e.1 = d).map (·.2) := List.mem_map.2 ⟨(d, t), by simpa using ht, rfl⟩
    rw [h] at this
    simp at this

/-! ### Cases that meet the hypotheses -/

/-- Four times, with two in the middle. -/
example : Spec.IsMedian [3, 1, 10, 2] (5 / 2) :=
  ⟨[1], [10], rfl, Or.inr ⟨2, 3, by decide, by norm_num, by norm_num, by simp, by simp; norm_num⟩⟩

/-- Other numbers are not medians: the upper of two. -/
example : ¬ Spec.IsMedian [1, 2] 2 := by
  rintro ⟨l, u, hl, ⟨hp, -⟩ | ⟨a, b, hp, hab, hm, -⟩⟩
  · have := hp.length_eq
    simp at this
    omega
  · have hlen := hp.length_eq
    simp at hlen
    have hl0 : l = [] := List.length_eq_zero_iff.1 (by omega)
    have hu0 : u = [] := List.length_eq_zero_iff.1 (by omega)
    subst hl0 hu0
    have := hp.sum_eq
    simp at this
    linarith

example : ([1, 2] : List ℚ) ≠ [] := by simp

end PyMedian
