import Verif.Model.Str

/-! Helper lemmas about the string functions. -/

namespace Str
open CStr

/-- `seq` occurs in `base` at position `i`. -/
def Spec.OccursAt (base seq : List Char) (i : Nat) : Prop :=
  ∃ pre post, base = pre ++ seq ++ post ∧ pre.length = i

theorem strAt_lt {s : List Char} {i : Nat} (h : i < s.length) : strAt s i = .ok s[i] := by
  simp [strAt, List.getElem?_eq_getElem h]

theorem strAt_len (s : List Char) : strAt s s.length = .ok nul := by
  simp [strAt]

theorem matchLen_spec (base seq : List Char) (i n j : Nat) (hj : j + n = seq.length)
    (hi : i + seq.length ≤ base.length) :
    ∃ m, matchLen base seq i n j = .ok m ∧ m ≤ seq.length ∧
      (m = seq.length ↔ ∀ k, j ≤ k → k < seq.length → base[i + k]? = seq[k]?) := by
  induction n generalizing j with
  | zero =>
    refine ⟨j, rfl, by omega, ?_⟩
    constructor
    · intro _ k h1 h2; omega
    · intro _; omega
  | succ n ih =>
    have h1 : i + j < base.length := by omega
    have h2 : j < seq.length := by omega
    unfold matchLen
    rw [strAt_lt h1, strAt_lt h2]
    simp only [Res.bind_ok]
    by_cases hc : base[i + j] = seq[j]
    · simp only [hc, ne_eq, not_true_eq_false, if_false]
      obtain ⟨m, e, hm, hiff⟩ := ih (j + 1) (by omega)
      refine ⟨m, e, hm, ?_⟩
      rw [hiff]
      constructor
      · intro h k hk1 hk2
        by_cases hkj : k = j
        · subst hkj
          rw [List.getElem?_eq_getElem h1, List.getElem?_eq_getElem h2, hc]
        · exact h k (by omega) hk2
      · intro h k hk1 hk2
        exact h k (by omega) hk2
    · simp only [hc, ne_eq, not_false_eq_true, if_true]
      refine ⟨j, rfl, by omega, ?_⟩
      constructor
      · intro h; omega
      · intro h
        have := h j (by omega) h2
        rw [List.getElem?_eq_getElem h1, List.getElem?_eq_getElem h2] at this
        exact absurd (Option.some.inj this) hc

theorem occursAt_iff {base seq : List Char} {i : Nat} (hi : i + seq.length ≤ base.length) :
    Spec.OccursAt base seq i ↔ ∀ k, 0 ≤ k → k < seq.length → base[i + k]? = seq[k]? := by
  constructor
  · rintro ⟨pre, post, rfl, rfl⟩ k _ hk
    rw [List.append_assoc, List.getElem?_append_right (by omega), Nat.add_sub_cancel_left,
      List.getElem?_append_left hk]
  · intro h
    refine ⟨base.take i, base.drop (i + seq.length), ?_, by rw [List.length_take]; omega⟩
    have : seq = (base.drop i).take seq.length := by
      apply List.ext_getElem?
      intro k
      by_cases hk : k < seq.length
      · rw [List.getElem?_take_of_lt hk, List.getElem?_drop, h k (by omega) hk]
      · have : seq.length ≤ k := by omega
        rw [List.getElem?_eq_none this, List.getElem?_eq_none (by rw [List.length_take]; omega)]
    conv => rhs; rw [List.append_assoc]; rhs; lhs; rw [this]
    rw [← List.drop_drop, List.take_append_drop, List.take_append_drop]

theorem occursAt_le {base seq : List Char} {i : Nat} (h : Spec.OccursAt base seq i) :
    i + seq.length ≤ base.length := by
  obtain ⟨pre, post, rfl, rfl⟩ := h
  simp

theorem strfindFrom_spec (base seq : List Char) (hseq : seq ≠ []) (hb : base.length ≤ 1000000000)
    (n i : Nat) (hn : i + n + seq.length = base.length + 1) :
    (strfindFrom base seq n i = .ok (-1) ∧ ∀ k, i ≤ k → ¬ Spec.OccursAt base seq k) ∨
    (∃ k, i ≤ k ∧ strfindFrom base seq n i = .ok (k : Int) ∧ Spec.OccursAt base seq k ∧
      ∀ k', i ≤ k' → k' < k → ¬ Spec.OccursAt base seq k') := by
  have hpos : 0 < seq.length := List.length_pos_iff.2 hseq
  induction n generalizing i with
  | zero =>
    left
    refine ⟨rfl, ?_⟩
    intro k hk hocc
    have := occursAt_le hocc
    omega
  | succ n ih =>
    have h1 : i < base.length := by omega
    unfold strfindFrom
    rw [strAt_lt h1, strAt_lt hpos]
    simp only [Res.bind_ok]
    obtain ⟨m, em, _, hm⟩ := matchLen_spec base seq i seq.length 0 (by omega) (by omega)
    rw [← occursAt_iff (by omega)] at hm
    rw [em]
    simp only [Res.ok_bind]
    have hgt : ¬ i > 1000000000 := by omega
    by_cases hocc : Spec.OccursAt base seq i
    · right
      have hc : base[i] = seq[0] := by
        have := (occursAt_iff (by omega)).1 hocc 0 (by omega) hpos
        rw [Nat.add_zero, List.getElem?_eq_getElem h1, List.getElem?_eq_getElem hpos] at this
        exact Option.some.inj this
      have hme : m = seq.length := hm.2 hocc
      refine ⟨i, by omega, ?_, hocc, fun k' a b => by omega⟩
      simp only [hc, hme, hgt, if_true, if_false]
    · have hme : m ≠ seq.length := fun h => hocc (hm.1 h)
      simp only [hme, if_false, ite_self]
      rcases ih (i + 1) (by omega) with ⟨e, h⟩ | ⟨k, hk, e, ho, h⟩
      · left
        refine ⟨e, ?_⟩
        intro k hk
        by_cases hki : k = i
        · rw [hki]; exact hocc
        · exact h k (by omega)
      · right
        refine ⟨k, by omega, e, ho, ?_⟩
        intro k' a b
        by_cases hki : k' = i
        · rw [hki]; exact hocc
        · exact h k' (by omega) b

/-! ### split -/

theorem strtok_length (d : Char) (s cur : List Char) :
    (strtok d cur s).length ≤ (s.filter (· == d)).length + 1 := by
  induction s generalizing cur with
  | nil => unfold strtok; split <;> simp
  | cons c cs ih =>
    unfold strtok
    by_cases hc : c = d
    · simp only [hc, if_true]
      have := ih []
      split <;> simp <;> omega
    · simp only [hc, if_false]
      have := ih (c :: cur)
      simp [hc]
      exact this

theorem storeTokens_ok (count i : Nat) (ts : List (List Char)) (h : i + ts.length < count) :
    storeTokens count i ts = .ok ts := by
  induction ts generalizing i with
  | nil =>
    unfold storeTokens
    simp only [List.length_nil, Nat.add_zero] at h
    simp [h]
  | cons t ts ih =>
    unfold storeTokens
    simp only [List.length_cons] at h
    have h1 : i < count := by omega
    simp [Res.assert, h1, ih (i + 1) (by omega)]

theorem split_eq (s : List Char) (d : Char) : split s d = .ok (strtok d [] s) := by
  unfold split
  apply storeTokens_ok
  have := strtok_length d s []
  omega

theorem strtok_append (d : Char) (l cur rest : List Char) (hl : d ∉ l) :
    strtok d cur (l ++ rest) = strtok d (l.reverse ++ cur) rest := by
  induction l generalizing cur with
  | nil => rfl
  | cons c cs ih =>
    simp only [List.mem_cons, not_or] at hl
    rw [List.cons_append, strtok]
    have : c ≠ d := fun h => hl.1 h.symm
    simp only [this, if_false]
    rw [ih (c :: cur) hl.2]
    simp

/-- Pieces that are non-empty and free of the delimiter are recovered from their delimited
concatenation. -/
theorem strtok_intercalate (d : Char) (pieces : List (List Char))
    (h : ∀ p ∈ pieces, p ≠ [] ∧ d ∉ p) : strtok d [] (List.intercalate [d] pieces) = pieces := by
  induction pieces with
  | nil => simp [strtok]
  | cons p ps ih =>
    obtain ⟨h1, h2⟩ := h p (by simp)
    have hps : ∀ q ∈ ps, q ≠ [] ∧ d ∉ q := fun q hq => h q (by simp [hq])
    cases ps with
    | nil =>
      have e : List.intercalate [d] [p] = p ++ [] := by simp [List.intercalate]
      rw [e, strtok_append d p [] [] h2]
      unfold strtok
      simp [h1]
    | cons q qs =>
      have e : List.intercalate [d] (p :: q :: qs) = p ++ (d :: List.intercalate [d] (q :: qs)) := by
        simp [List.intercalate]
      rw [e, strtok_append d p [] _ h2]
      unfold strtok
      simp [h1, ih hps]

theorem strtok_mem (d : Char) (s cur : List Char) (hcur : d ∉ cur) :
    ∀ t ∈ strtok d cur s, t ≠ [] ∧ d ∉ t ∧ ∀ c ∈ t, c ∈ s ∨ c ∈ cur := by
  induction s generalizing cur with
  | nil =>
    unfold strtok
    by_cases h : cur = []
    · simp [h]
    · simp [h, hcur]
  | cons c cs ih =>
    unfold strtok
    by_cases hc : c = d
    · simp only [hc, if_true]
      intro t ht
      have hrest : t ∈ strtok d [] cs → t ≠ [] ∧ d ∉ t ∧ ∀ c ∈ t, c ∈ d :: cs ∨ c ∈ cur := by
        intro ht
        obtain ⟨a, b, e⟩ := ih [] (by simp) t ht
        refine ⟨a, b, ?_⟩
        intro x hx
        rcases e x hx with h | h
        · left; simp [h]
        · simp at h
      by_cases h : cur = []
      · simp only [h, if_true] at ht
        simpa [h] using hrest ht
      · simp only [h, if_false, List.mem_cons] at ht
        rcases ht with rfl | ht
        · refine ⟨by simpa using h, by simpa using hcur, ?_⟩
          intro x hx
          right; simpa using hx
        · exact hrest ht
    · simp only [hc, if_false]
      intro t ht
      obtain ⟨a, b, e⟩ := ih (c :: cur) (by simp only [List.mem_cons, not_or]; exact ⟨fun h => hc h.symm, hcur⟩) t ht
      refine ⟨a, b, ?_⟩
      intro x hx
      rcases e x hx with h | h
      · left; simp [h]
      · simp only [List.mem_cons] at h ⊢
        rcases h with h | h
        · left; left; exact h
        · right; exact h

/-! ### writing numbers -/

theorem writeNumbers_eq (maxCount : Nat) (hmc : 0 < maxCount) (n j : Nat) (acc : List Nat)
    (hacc : acc.length ≤ maxCount) :
    writeNumbers maxCount n j acc = .ok ((acc ++ List.range' j n).take maxCount) := by
  induction n generalizing j acc with
  | zero =>
    unfold writeNumbers
    rw [List.range'_zero, List.append_nil, List.take_of_length_le hacc]
  | succ n ih =>
    unfold writeNumbers
    by_cases h : acc.length > maxCount - 1
    · have hlen : acc.length = maxCount := by omega
      have : maxCount ≠ 0 ∧ acc.length > maxCount - 1 := ⟨by omega, h⟩
      simp only [this, and_self, ne_eq, not_false_eq_true, if_true]
      rw [List.take_append_of_le_length (by omega), List.take_of_length_le (by omega)]
    · have h2 : ¬ (maxCount ≠ 0 ∧ acc.length > maxCount - 1) := fun h' => h h'.2
      have h3 : acc.length < maxCount + 1 := by omega
      simp only [h2, h3, if_true, if_false]
      rw [ih (j + 1) (acc ++ [j]) (by simp; omega), List.append_assoc, List.range'_succ]
      rfl

end Str
