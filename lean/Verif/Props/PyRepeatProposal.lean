import Mathlib.Tactic
import Verif.Model.PyRepeatProposal

/-!
# Initial solutions for repeated experiments in Python (C140)
-/

namespace PyRepeatProposal

open PyRepeat PyProposal

variable {n : Nat}

/-! ### Specification -/

/-- The number of recorded trials of a function and dimension, of all instances. -/
def Spec.done (h : List Trial) (k : Key) : Nat := (h.filter fun t => t.key = k).length

/-! ### Proofs -/

theorem sum_count (d : List Trial) (is : List Nat) (hn : is.Nodup) (hm : ∀ t ∈ d, t.inst ∈ is) :
    (is.map (count d)).sum = d.length := by
  induction d with
  | nil =>
    have : count [] = fun _ => 0 := rfl
    simp [this]
  | cons t d ih =>
    have ih := ih fun t h => hm t (List.mem_cons_of_mem _ h)
    have hin := hm t List.mem_cons_self
    have : ∀ js : List Nat, js.Nodup →
        (js.map (count (t :: d))).sum = (js.map (count d)).sum + if t.inst ∈ js then 1 else 0 := by
      intro js hj
      induction js with
      | nil => simp
      | cons j js ihj =>
        rw [List.nodup_cons] at hj
        have := ihj hj.2
        simp only [List.map_cons, List.sum_cons, this, List.mem_cons]
        by_cases e : t.inst = j
        · subst e
          simp [count, hj.1]
          omega
        · have hc : count (t :: d) j = count d j := by simp [count, e]
          simp only [hc, e, false_or]
          omega
    rw [this is hn, if_pos hin, ih]
    rfl

/-- **C140** (number of trials). The number of trials reported for a problem is that of all recorded trials of its function and
dimension, and recording a trial adds one for its own function and dimension and for no other. -/
theorem C140_trials (h : List Trial) (k : Key) (t : Trial) :
    nTrials h k = Spec.done h k ∧ nTrials (h ++ [t]) k = nTrials h k + if t.key = k then 1 else 0 := by
  have key : ∀ h, nTrials h k = Spec.done h k := by
    intro h
    refine sum_count _ _ (List.nodup_dedup _) fun t ht => ?_
    exact List.mem_dedup.2 (List.mem_map_of_mem ht)
  refine ⟨key h, ?_⟩
  rw [key, key]
  unfold Spec.done
  by_cases e : t.key = k <;> simp [e]

theorem propose_eq (h : List Trial) (k : Key) (P : Prob n) (odds : Nat) (calls : Nat) (d : Draw n) :
    propose h k P odds calls d = some (calls,
      if odds ≠ 0 ∧ (odds + 1) ∣ Spec.done h k then initial P else PyProposal.proposal P d) := by
  have hs := (C140_trials h k ⟨k, 0, 0, false⟩).1
  unfold propose restartNumber
  rw [hs]
  by_cases h0 : odds = 0
  · subst h0
    have : ¬ ((Spec.done h k : Int) + 1 ≤ 0) := by omega
    simp [call, this]
  · have h1 : (odds : Int) ≠ 0 := by exact_mod_cast h0
    have h2 : (odds : Int) + 1 ≠ 0 := by omega
    rw [if_neg h1, if_neg h2]
    have hf : (Spec.done h k : Int).fmod ((odds : Int) + 1) = ((Spec.done h k % (odds + 1) : Nat) : Int) := by
      rw [Int.fmod_eq_emod_of_nonneg _ (by omega)]
      push_cast
      rfl
    rw [hf]
    by_cases hd : (odds + 1) ∣ Spec.done h k
    · have : Spec.done h k % (odds + 1) = 0 := Nat.mod_eq_zero_of_dvd hd
      simp [call, this, h0, hd]
    · have hm : Spec.done h k % (odds + 1) ≠ 0 := fun e => hd (Nat.dvd_of_mod_eq_zero e)
      have hp : Spec.done h k ≠ 0 := by
        intro e
        rw [e] at hd
        exact hd (dvd_zero _)
      have hm' : ((Spec.done h k % (odds + 1) : Nat) : Int) ≠ 0 := by exact_mod_cast hm
      rw [if_pos hm']
      simp [call, hp, hd]

/-- **C140** (partial, which trials begin with the initial solution). For positive odds the proposal is the initial solution of the
problem if the number of trials done is a multiple of the odds plus 1, and a random proposal otherwise; for the odds 0 it is
always a random proposal. The counter of the problem's own proposals does not change. (The full statement says that for
negative odds there are only random proposals as well: `C140_negative` refutes it.) -/
theorem C140_proposal_partial (h : List Trial) (k : Key) (P : Prob n) (odds : Nat) (calls : Nat) (d : Draw n) :
    (0 < odds → (odds + 1) ∣ Spec.done h k → propose h k P odds calls d = some (calls, initial P)) ∧
    (0 < odds → ¬ (odds + 1) ∣ Spec.done h k → propose h k P odds calls d = some (calls, PyProposal.proposal P d)) ∧
    (odds = 0 → propose h k P odds calls d = some (calls, PyProposal.proposal P d)) := by
  rw [propose_eq]
  refine ⟨fun h1 h2 => ?_, fun _ h2 => ?_, fun h1 => ?_⟩
  · rw [if_pos ⟨h1.ne', h2⟩]
  · rw [if_neg fun h => h2 h.2]
  · rw [if_neg fun h => h.1 h1]

/-- **C140** (one in each round). Among any `odds + 1` trials of a function and dimension that follow each other, whatever trials of other
problems are done in between and whatever the instances and random numbers are, exactly one begins with the initial solution; the very first trial does. -/
theorem C140_one_in_each_round (P : Nat → Prob n) (k : Key) (odds : Nat) (hodds : 0 < odds) (calls : Nat → Nat) (d : Nat → Draw n)
    (hne : ∀ j, initial (P j) ≠ PyProposal.proposal (P j) (d j)) (first : Nat) (history : Nat → List Trial)
    (hh : ∀ j, Spec.done (history j) k = first + j) :
    (∃! j, j < odds + 1 ∧ propose (history j) k (P j) odds (calls j) (d j) = some (calls j, initial (P j))) ∧
    (first = 0 → propose (history 0) k (P 0) odds (calls 0) (d 0) = some (calls 0, initial (P 0))) := by
  have key : ∀ j, propose (history j) k (P j) odds (calls j) (d j) = some (calls j, initial (P j)) ↔ (odds + 1) ∣ first + j := by
    intro j
    rw [propose_eq, hh]
    by_cases hd : (odds + 1) ∣ first + j
    · simp [hd, hodds.ne']
    · simp only [hd, and_false, if_false, iff_false]
      intro e
      exact hne j (Prod.mk.inj (Option.some.inj e)).2.symm
  refine ⟨?_, fun h0 => (key 0).2 (by simp [h0])⟩
  have hlt := Nat.mod_lt first (Nat.succ_pos odds)
  have hdm := Nat.div_add_mod first (odds + 1)
  refine ⟨if first % (odds + 1) = 0 then 0 else odds + 1 - first % (odds + 1), ⟨?_, (key _).2 ?_⟩, ?_⟩
  · split_ifs <;> omega
  · split_ifs with h0
    · exact Nat.dvd_of_mod_eq_zero h0
    · refine ⟨first / (odds + 1) + 1, ?_⟩
      rw [Nat.mul_add, Nat.mul_one]
      have : first % (odds + 1) < odds + 1 := hlt
      omega
  · rintro j ⟨hj, hp⟩
    have hd := (key j).1 hp
    have hd : (first % (odds + 1) + j) % (odds + 1) = 0 := by
      rw [Nat.mod_add_mod]
      exact Nat.mod_eq_zero_of_dvd hd
    have hlt : first % (odds + 1) < odds + 1 := hlt
    generalize first % (odds + 1) = r at *
    split_ifs with h0
    · subst h0
      rw [Nat.zero_add, Nat.mod_eq_of_lt hj] at hd
      exact hd
    · by_cases hs : r + j < odds + 1
      · rw [Nat.mod_eq_of_lt hs] at hd
        omega
      · rw [Nat.mod_eq_sub_mod (by omega), Nat.mod_eq_of_lt (by omega)] at hd
        omega

/-- **C140** (all zeros). On a problem with a domain around zero, without integer variables and without a stored initial solution, as in
the suite bbob, the initial solution consists of zeros, as documented. -/
theorem C140_zeros (P : Prob n) (hs : P.stored = none) (hi : P.integers = 0) (hb : ∀ i, P.lo i = - P.hi i) :
    initial P = fun _ => 0 := by
  funext i
  simp only [initial, hs, hi, Nat.not_lt_zero, if_false, hb]
  ring

/-- **C140** (negative odds). Documented is a random proposal. For the odds -1 there is a division by zero, for the odds -2 the proposal is
always the initial solution, and for all smaller odds it is so in the first trial. -/
theorem C140_negative (h : List Trial) (k : Key) (P : Prob n) (calls : Nat) (d : Draw n) :
    propose h k P (-1) calls d = none ∧ propose h k P (-2) calls d = some (calls, initial P) ∧
    ∀ odds : Int, odds < -1 → Spec.done h k = 0 → propose h k P odds calls d = some (calls, initial P) := by
  refine ⟨by simp [propose, restartNumber], ?_, fun odds ho h0 => ?_⟩
  · have : ∀ a : Int, a.fmod (-1) = 0 := fun a => Int.fmod_eq_zero_of_dvd ⟨-a, by ring⟩
    simp [propose, restartNumber, call, this]
  · have hs := (C140_trials h k ⟨k, 0, 0, false⟩).1
    have h1 : odds ≠ 0 := by omega
    have h2 : odds + 1 ≠ 0 := by omega
    simp [propose, restartNumber, hs, h0, h1, h2, call]

/-! ### Cases that meet the hypotheses -/

/-- Two trials of a problem and one of another. -/
example : nTrials [⟨(1, 2), 1, 10, true⟩, ⟨(1, 3), 1, 5, false⟩, ⟨(1, 2), 2, 7, false⟩] (1, 2) = 2 := by decide

/-- The odds 2: trials 0, 3, 6 begin with the initial solution. -/
example : (List.range 7).map (fun t => restartNumber t 2) = [some 0, some 1, some 2, some 0, some 4, some 5, some 0] := by decide

/-- A problem and random numbers for which the random proposal is not the initial solution, and a history that grows. -/
example : ∃ (P : Prob 1) (d : Draw 1), d.Valid P ∧ initial P ≠ PyProposal.proposal P d ∧
    ∀ j, Spec.done (List.replicate j ⟨(1, 1), 1, 10, true⟩) (1, 1) = 0 + j := by
  refine ⟨⟨0, 0, fun _ => -5, fun _ => 5, none⟩, ⟨fun _ => 0, fun _ => 0, fun _ => 0⟩, ⟨by simp, by simp, by simp⟩, ?_, ?_⟩
  · intro h
    have := congrFun h 0
    simp [initial, PyProposal.proposal] at this
    norm_num at this
  · intro j
    simp [Spec.done]

end PyRepeatProposal
