import Verif.Model.Suite

/-! Helper lemmas for the suite model. -/

namespace Suite

/-- Position `j` holds an entry that is not filtered out. -/
def Active (items : List Nat) (j : Nat) : Prop := ∃ v, items[j]? = some v ∧ v ≠ 0

/-- The active positions in increasing order. -/
def activePos (items : List Nat) : List Nat :=
  (List.range items.length).filter fun j => decide (items[j]?.getD 0 ≠ 0)

theorem active_lt {items : List Nat} {j : Nat} (h : Active items j) : j < items.length := by
  obtain ⟨v, hv, _⟩ := h
  exact (List.getElem?_eq_some_iff.1 hv).1

theorem active_iff_getElem {items : List Nat} {j : Nat} (h : j < items.length) :
    Active items j ↔ items[j] ≠ 0 := by
  unfold Active
  rw [List.getElem?_eq_getElem h]
  simp

theorem mem_activePos {items : List Nat} {j : Nat} : j ∈ activePos items ↔ Active items j := by
  unfold activePos
  rw [List.mem_filter, List.mem_range]
  constructor
  · rintro ⟨h, h2⟩
    rw [active_iff_getElem h]
    simpa [List.getElem?_eq_getElem h] using h2
  · intro h
    have hl := active_lt h
    refine ⟨hl, ?_⟩
    rw [active_iff_getElem hl] at h
    simpa [List.getElem?_eq_getElem hl] using h

theorem activePos_sorted (items : List Nat) : (activePos items).Pairwise (· < ·) :=
  List.Pairwise.filter _ List.pairwise_lt_range

theorem readAt_nat {α : Type} (l : List α) (j : Nat) :
    Res.readAt l (j : Int) = (match l[j]? with | some a => .ok a | none => .ub) := by
  unfold Res.readAt
  simp only [Int.natCast_nonneg, if_true, Int.toNat_natCast]
  cases l[j]? <;> rfl

theorem scan_spec (items : List Nat) (k : Nat) (hk : k < items.length) :
    ∃ c : Nat, scan items ((k : Int) - 1) = .ok (c : Int) ∧ k ≤ c ∧ c < items.length ∧
      (∀ j, k ≤ j → j < c → ¬ Active items j) ∧ (c + 1 = items.length ∨ Active items c) := by
  generalize hm : items.length - k = m
  induction m using Nat.strongRecOn generalizing k with
  | _ m ih =>
    unfold scan
    have hc : (k : Int) - 1 + 1 = (k : Int) := by omega
    simp only [hc]
    split
    · rename_i hlt
      rw [readAt_nat, List.getElem?_eq_getElem hk]
      by_cases h0 : items[k] = 0
      · have h1 : k + 1 < items.length := by omega
        obtain ⟨c, e1, e2, e3, e4, e5⟩ := ih (items.length - (k + 1)) (by omega) (k + 1) h1 rfl
        have hc2 : ((k + 1 : Nat) : Int) - 1 = (k : Int) := by omega
        rw [hc2] at e1
        refine ⟨c, ?_, by omega, e3, ?_, e5⟩
        · simp only [h0]
          exact e1
        · intro j hj1 hj2
          by_cases hj : j = k
          · subst hj
            rw [active_iff_getElem hk]
            simpa using h0
          · exact e4 j (by omega) hj2
      · refine ⟨k, ?_, Nat.le_refl _, hk, ?_, ?_⟩
        · split <;> simp_all
        · intro j h1 h2; omega
        · right; rw [active_iff_getElem hk]; exact h0
    · rename_i hge
      refine ⟨k, rfl, Nat.le_refl _, hk, ?_, ?_⟩
      · intro j h1 h2; omega
      · left; omega

/-- Reading the first active position after wrapping around. -/
theorem nextItem_reset (items : List Nat) (j0 : Nat) (h0 : Active items j0)
    (hfirst : ∀ j, j < j0 → ¬ Active items j) :
    (do let c ← scan items (-1)
        let v ← Res.readAt items c
        if v = 0 then Res.error else Res.ok (false, c)) = Res.ok (false, (j0 : Int)) := by
  have hl := active_lt h0
  obtain ⟨c, e1, e2, e3, e4, e5⟩ := scan_spec items 0 (by omega)
  have hc : c = j0 := by
    rcases Nat.lt_trichotomy c j0 with h | h | h
    · rcases e5 with h5 | h5
      · omega
      · exact absurd h5 (hfirst c h)
    · exact h
    · exact absurd h0 (e4 j0 (by omega) h)
  subst hc
  have : ((0 : Nat) : Int) - 1 = -1 := by omega
  rw [this] at e1
  rw [e1]
  simp only [Res.bind_ok]
  rw [readAt_nat, List.getElem?_eq_getElem hl]
  rw [active_iff_getElem hl] at h0
  simp [h0]

theorem nextItem_found (items : List Nat) (k j : Nat) (hkj : k ≤ j) (hj : Active items j)
    (hfirst : ∀ i, k ≤ i → i < j → ¬ Active items i) :
    nextItem items ((k : Int) - 1) = .ok (true, (j : Int)) := by
  have hl := active_lt hj
  obtain ⟨c, e1, e2, e3, e4, e5⟩ := scan_spec items k (by omega)
  have hc : c = j := by
    rcases Nat.lt_trichotomy c j with h | h | h
    · rcases e5 with h5 | h5
      · omega
      · exact absurd h5 (hfirst c e2 h)
    · exact h
    · exact absurd hj (e4 j hkj h)
  subst hc
  unfold nextItem
  have hne : (k : Int) - 1 ≠ (items.length : Int) - 1 := by omega
  simp only [hne, e1, ne_eq, not_false_eq_true, if_true, Res.bind_ok]
  have hlt : (c : Int) < (items.length : Int) := by omega
  simp only [Res.assert, hlt, decide_true, if_true, Res.bind_ok]
  rw [readAt_nat, List.getElem?_eq_getElem hl]
  rw [active_iff_getElem hl] at hj
  simp [hj]

theorem nextItem_wrap (items : List Nat) (k j0 : Nat) (hk : k ≤ items.length)
    (hnone : ∀ i, k ≤ i → ¬ Active items i)
    (h0 : Active items j0) (hfirst : ∀ j, j < j0 → ¬ Active items j) :
    nextItem items ((k : Int) - 1) = .ok (false, (j0 : Int)) := by
  have hr := nextItem_reset items j0 h0 hfirst
  unfold nextItem
  by_cases hlast : k = items.length
  · have : (k : Int) - 1 = (items.length : Int) - 1 := by omega
    simp only [this, ne_eq, not_true_eq_false, if_false]
    exact hr
  · obtain ⟨c, e1, e2, e3, e4, e5⟩ := scan_spec items k (by omega)
    have hne : (k : Int) - 1 ≠ (items.length : Int) - 1 := by omega
    simp only [hne, e1, ne_eq, not_false_eq_true, if_true, Res.bind_ok]
    have hlt : (c : Int) < (items.length : Int) := by omega
    simp only [Res.assert, hlt, decide_true, if_true, Res.bind_ok]
    rw [readAt_nat, List.getElem?_eq_getElem e3]
    have hz : items[c] = 0 := by
      have := hnone c e2
      rw [active_iff_getElem e3] at this
      simpa using this
    simp only [hz, Res.bind_ok]
    simpa using hr

theorem nextItem_error (items : List Nat) (k : Nat) (hk : k ≤ items.length) (hpos : 0 < items.length)
    (hnone : ∀ i, ¬ Active items i) :
    nextItem items ((k : Int) - 1) = .error := by
  have hz : ∀ c, (h : c < items.length) → items[c] = 0 := by
    intro c h
    have := hnone c
    rw [active_iff_getElem h] at this
    simpa using this
  obtain ⟨c0, e1, e2, e3, e4, e5⟩ := scan_spec items 0 hpos
  have h01 : ((0 : Nat) : Int) - 1 = -1 := by omega
  rw [h01] at e1
  unfold nextItem
  by_cases hlast : k = items.length
  · have : (k : Int) - 1 = (items.length : Int) - 1 := by omega
    simp only [this, ne_eq, not_true_eq_false, if_false, e1, Res.bind_ok]
    rw [readAt_nat, List.getElem?_eq_getElem e3]
    simp [hz c0 e3]
  · obtain ⟨c, f1, f2, f3, f4, f5⟩ := scan_spec items k (by omega)
    have hne : (k : Int) - 1 ≠ (items.length : Int) - 1 := by omega
    simp only [hne, e1, f1, ne_eq, not_false_eq_true, if_true, Res.bind_ok]
    have hlt : (c : Int) < (items.length : Int) := by omega
    simp only [Res.assert, hlt, decide_true, if_true, Res.bind_ok]
    rw [readAt_nat, List.getElem?_eq_getElem f3, readAt_nat, List.getElem?_eq_getElem e3]
    simp [hz c f3, hz c0 e3]

/-! Consequences phrased with the list of active positions. -/

theorem nextItem_first {items : List Nat} {c : Nat} {post : List Nat}
    (h : activePos items = c :: post) : nextItem items (-1) = .ok (true, (c : Int)) := by
  have hs := activePos_sorted items
  rw [h] at hs
  have hc : Active items c := mem_activePos.1 (by rw [h]; simp)
  have := nextItem_found items 0 c (by omega) hc (by
    intro i _ hi ha
    have hm := mem_activePos.2 ha
    rw [h] at hm
    rcases List.mem_cons.1 hm with e | e
    · omega
    · have := (List.pairwise_cons.1 hs).1 i e
      omega)
  simpa using this

theorem nextItem_succ {items : List Nat} {pre post : List Nat} {c c' : Nat}
    (h : activePos items = pre ++ c :: c' :: post) :
    nextItem items (c : Int) = .ok (true, (c' : Int)) := by
  have hs := activePos_sorted items
  rw [h] at hs
  have hc' : Active items c' := mem_activePos.1 (by rw [h]; simp)
  have h1 := (List.pairwise_append.1 hs).2.1
  have hcc' : c < c' := (List.pairwise_cons.1 h1).1 c' (by simp)
  have h2 := (List.pairwise_cons.1 h1).2
  have := nextItem_found items (c + 1) c' (by omega) hc' (by
    intro i hi1 hi2 ha
    have hm := mem_activePos.2 ha
    rw [h] at hm
    rcases List.mem_append.1 hm with e | e
    · have := (List.pairwise_append.1 hs).2.2 i e c (by simp)
      omega
    · rcases List.mem_cons.1 e with e | e
      · omega
      · rcases List.mem_cons.1 e with e | e
        · omega
        · have := (List.pairwise_cons.1 h2).1 i e
          omega)
  have e : ((c + 1 : Nat) : Int) - 1 = (c : Int) := by omega
  rwa [e] at this

theorem nextItem_last {items : List Nat} {pre : List Nat} {c c0 : Nat} {post0 : List Nat}
    (h : activePos items = pre ++ [c]) (h0 : activePos items = c0 :: post0) :
    nextItem items (c : Int) = .ok (false, (c0 : Int)) := by
  have hs := activePos_sorted items
  have hs0 := hs
  rw [h] at hs
  rw [h0] at hs0
  have hc : Active items c := mem_activePos.1 (by rw [h]; simp)
  have hl := active_lt hc
  have hc0 : Active items c0 := mem_activePos.1 (by rw [h0]; simp)
  have := nextItem_wrap items (c + 1) c0 (by omega) (by
    intro i hi ha
    have hm := mem_activePos.2 ha
    rw [h] at hm
    rcases List.mem_append.1 hm with e | e
    · have := (List.pairwise_append.1 hs).2.2 i e c (by simp)
      omega
    · have : i = c := by simpa using e
      omega) hc0 (by
    intro i hi ha
    have hm := mem_activePos.2 ha
    rw [h0] at hm
    rcases List.mem_cons.1 hm with e | e
    · omega
    · have := (List.pairwise_cons.1 hs0).1 i e
      omega)
  have e : ((c + 1 : Nat) : Int) - 1 = (c : Int) := by omega
  rwa [e] at this

/-! Iterating `nextProblem`. -/

/-- `n` consecutive calls of `nextProblem`: the returned problems and the final state. -/
def runN : Nat → State → Res (List (Option Prob) × State)
  | 0, s => .ok ([], s)
  | n + 1, s => do
    let (p, s') ← nextProblem s
    let (ps, s'') ← runN n s'
    return (p :: ps, s'')

theorem runN_add {m n : Nat} {s s' s'' : State} {l l' : List (Option Prob)}
    (h1 : runN m s = .ok (l, s')) (h2 : runN n s' = .ok (l', s'')) :
    runN (m + n) s = .ok (l ++ l', s'') := by
  induction m generalizing s l with
  | zero =>
    simp only [runN, Res.ok.injEq, Prod.mk.injEq] at h1
    obtain ⟨rfl, rfl⟩ := h1
    simpa using h2
  | succ m ih =>
    rw [show m + 1 + n = (m + n) + 1 by omega]
    simp only [runN] at h1 ⊢
    cases hp : nextProblem s with
    | ok a =>
      obtain ⟨p, t⟩ := a
      rw [hp] at h1
      simp only [Res.bind_ok] at h1 ⊢
      cases hr : runN m t with
      | ok b =>
        obtain ⟨ps, u⟩ := b
        rw [hr] at h1
        simp only [Res.bind_ok, Res.pure_eq, Res.ok.injEq, Prod.mk.injEq] at h1
        obtain ⟨rfl, rfl⟩ := h1
        rw [ih hr]
        simp
      | error => simp [hr] at h1
      | assertFail => simp [hr] at h1
      | ub => simp [hr] at h1
    | error => simp [hp] at h1
    | assertFail => simp [hp] at h1
    | ub => simp [hp] at h1

theorem runN_prefix {m n : Nat} {s t : State} {l : List (Option Prob)}
    (h : runN (m + n) s = .ok (l, t)) : ∃ t', runN m s = .ok (l.take m, t') := by
  induction m generalizing s l with
  | zero => exact ⟨s, by simp [runN]⟩
  | succ m ih =>
    rw [show m + 1 + n = (m + n) + 1 by omega] at h
    simp only [runN] at h ⊢
    cases hp : nextProblem s with
    | ok a =>
      obtain ⟨p, u⟩ := a
      rw [hp] at h
      simp only [Res.bind_ok] at h ⊢
      cases hr : runN (m + n) u with
      | ok b =>
        obtain ⟨ps, v⟩ := b
        rw [hr] at h
        simp only [Res.bind_ok, Res.pure_eq, Res.ok.injEq, Prod.mk.injEq] at h
        obtain ⟨rfl, rfl⟩ := h
        obtain ⟨t', ht'⟩ := ih hr
        exact ⟨t', by rw [ht']; simp⟩
      | error => simp [hr] at h
      | assertFail => simp [hr] at h
      | ub => simp [hr] at h
    | error => simp [hp] at h
    | assertFail => simp [hp] at h
    | ub => simp [hp] at h

/-- The state with the cursors set to the given positions. -/
def at' (s : State) (f d i : Nat) : State :=
  { s with curFunction := f, curDimension := d, curInstance := i }

/-- The problem at three active positions. -/
def probAt (s : State) (f d i : Nat) : Prob :=
  { function := s.functions[f]?.getD 0, dimension := s.dimensions[d]?.getD 0,
    inst := s.instances[i]?.getD 0, index := encode s f d i }

theorem problemFromIndices_active {s : State} {f d i : Nat} (hf : Active s.functions f)
    (hd : Active s.dimensions d) (hi : Active s.instances i) :
    problemFromIndices s f d i = .ok (some (probAt s f d i)) := by
  obtain ⟨v, hv, hv0⟩ := hf
  obtain ⟨w, hw, hw0⟩ := hd
  obtain ⟨u, hu, hu0⟩ := hi
  unfold problemFromIndices probAt
  simp [Res.readNat, hv, hw, hu, hv0, hw0, hu0]

theorem problemFromIndices_at {s : State} {f d i f' d' i' : Nat} :
    problemFromIndices (at' s f' d' i') f d i = problemFromIndices s f d i := rfl

theorem step_inst {s : State} {f d i i' : Nat} {pre post : List Nat}
    (hI : activePos s.instances = pre ++ i :: i' :: post)
    (hf : f ∈ activePos s.functions) (hd : d ∈ activePos s.dimensions) :
    nextProblem (at' s f d i) = .ok (some (probAt s f d i'), at' s f d i') := by
  have e1 : nextInstance (at' s f d i) = .ok (true, at' s f d i') := by
    unfold nextInstance
    have : nextItem (at' s f d i).instances (at' s f d i).curInstance = .ok (true, (i' : Int)) :=
      nextItem_succ hI
    rw [this]; rfl
  have hi' : Active s.instances i' := mem_activePos.1 (by rw [hI]; simp)
  have e2 := problemFromIndices_active (mem_activePos.1 hf) (mem_activePos.1 hd) hi'
  unfold nextProblem
  rw [e1]
  simp only [Res.bind_ok, if_true]
  simp only [at', Res.assert, Int.natCast_nonneg, decide_true, if_true, Res.bind_ok,
    Int.toNat_natCast, Bool.true_eq_false, if_false]
  have e3 := problemFromIndices_at (s := s) (f := f) (d := d) (i := i') (f' := f) (d' := d) (i' := i')
  simp only [at'] at e3
  rw [e3, e2]
  rfl

theorem nextInstance_wrap {s : State} {f d i i0 : Nat} {preI postI : List Nat}
    (hI : activePos s.instances = preI ++ [i]) (hI0 : activePos s.instances = i0 :: postI) :
    nextInstance (at' s f d i) = .ok (false, at' s f d i0) := by
  unfold nextInstance
  have : nextItem (at' s f d i).instances (at' s f d i).curInstance = .ok (false, (i0 : Int)) :=
    nextItem_last hI hI0
  rw [this]; rfl

theorem step_fn {s : State} {f f' d i i0 : Nat} {preI postI preF postF : List Nat}
    (hI : activePos s.instances = preI ++ [i]) (hI0 : activePos s.instances = i0 :: postI)
    (hF : activePos s.functions = preF ++ f :: f' :: postF) (hd : d ∈ activePos s.dimensions) :
    nextProblem (at' s f d i) = .ok (some (probAt s f' d i0), at' s f' d i0) := by
  have e1 := nextInstance_wrap (s := s) (f := f) (d := d) hI hI0
  have e2 : nextFunction (at' s f d i0) = .ok (true, at' s f' d i0) := by
    unfold nextFunction
    have : nextItem (at' s f d i0).functions (at' s f d i0).curFunction = .ok (true, (f' : Int)) :=
      nextItem_succ hF
    rw [this]; rfl
  have hi0 : Active s.instances i0 := mem_activePos.1 (by rw [hI0]; simp)
  have hf' : Active s.functions f' := mem_activePos.1 (by rw [hF]; simp)
  have e4 := problemFromIndices_active hf' (mem_activePos.1 hd) hi0
  unfold nextProblem
  rw [e1]
  simp only [Res.bind_ok, Bool.false_eq_true, if_false]
  rw [e2]
  simp only [Res.bind, Res.bind_ok, if_true]
  simp only [at', Res.assert, Int.natCast_nonneg, decide_true, if_true, Res.bind_ok,
    Int.toNat_natCast, Bool.true_eq_false, if_false]
  have e3 := problemFromIndices_at (s := s) (f := f') (d := d) (i := i0) (f' := f') (d' := d) (i' := i0)
  simp only [at'] at e3
  rw [e3, e4]
  rfl

theorem nextFunction_wrap {s : State} {f d i f0 i0 : Nat} {postI preF postF : List Nat}
    (hI0 : activePos s.instances = i0 :: postI)
    (hF : activePos s.functions = preF ++ [f]) (hF0 : activePos s.functions = f0 :: postF) :
    nextFunction (at' s f d i) = .ok (false, at' s f0 d i0) := by
  unfold nextFunction
  have : nextItem (at' s f d i).functions (at' s f d i).curFunction = .ok (false, (f0 : Int)) :=
    nextItem_last hF hF0
  rw [this]
  simp only [Res.bind_ok, Bool.false_eq_true, if_false, nextInstance]
  have h2 : nextItem (at' s f d i).instances (-1) = .ok (true, (i0 : Int)) := nextItem_first hI0
  rw [h2]; rfl

theorem step_dim {s : State} {f d d' i f0 i0 : Nat} {preI postI preF postF preD postD : List Nat}
    (hI : activePos s.instances = preI ++ [i]) (hI0 : activePos s.instances = i0 :: postI)
    (hF : activePos s.functions = preF ++ [f]) (hF0 : activePos s.functions = f0 :: postF)
    (hD : activePos s.dimensions = preD ++ d :: d' :: postD) :
    nextProblem (at' s f d i) = .ok (some (probAt s f0 d' i0), at' s f0 d' i0) := by
  have e1 := nextInstance_wrap (s := s) (f := f) (d := d) hI hI0
  have e2 := nextFunction_wrap (s := s) (d := d) (i := i0) hI0 hF hF0
  have e2' : nextDimension (at' s f0 d i0) = .ok (true, at' s f0 d' i0) := by
    unfold nextDimension
    have : nextItem (at' s f0 d i0).dimensions (at' s f0 d i0).curDimension
        = .ok (true, (d' : Int)) := nextItem_succ hD
    rw [this]; rfl
  have hi0 : Active s.instances i0 := mem_activePos.1 (by rw [hI0]; simp)
  have hf0 : Active s.functions f0 := mem_activePos.1 (by rw [hF0]; simp)
  have hd' : Active s.dimensions d' := mem_activePos.1 (by rw [hD]; simp)
  have e4 := problemFromIndices_active hf0 hd' hi0
  unfold nextProblem
  rw [e1]
  simp only [Res.bind_ok, Bool.false_eq_true, if_false]
  rw [e2]
  simp only [Res.bind, Bool.false_eq_true, if_false, e2', Res.bind_ok]
  simp only [at', Res.assert, Int.natCast_nonneg, decide_true, if_true, Res.bind_ok,
    Int.toNat_natCast, Bool.true_eq_false, if_false]
  have e3 := problemFromIndices_at (s := s) (f := f0) (d := d') (i := i0) (f' := f0) (d' := d') (i' := i0)
  simp only [at'] at e3
  rw [e3, e4]
  rfl

theorem step_end {s : State} {f d i f0 d0 i0 : Nat} {preI postI preF postF preD postD : List Nat}
    (hI : activePos s.instances = preI ++ [i]) (hI0 : activePos s.instances = i0 :: postI)
    (hF : activePos s.functions = preF ++ [f]) (hF0 : activePos s.functions = f0 :: postF)
    (hD : activePos s.dimensions = preD ++ [d]) (hD0 : activePos s.dimensions = d0 :: postD) :
    nextProblem (at' s f d i) = .ok (none, at' s f0 d0 i0) := by
  have e1 := nextInstance_wrap (s := s) (f := f) (d := d) hI hI0
  have e2 := nextFunction_wrap (s := s) (d := d) (i := i0) hI0 hF hF0
  have e2' : nextDimension (at' s f0 d i0) = .ok (false, at' s f0 d0 i0) := by
    unfold nextDimension
    have : nextItem (at' s f0 d i0).dimensions (at' s f0 d i0).curDimension
        = .ok (false, (d0 : Int)) := nextItem_last hD hD0
    rw [this]; rfl
  unfold nextProblem
  rw [e1]
  simp only [Res.bind_ok, Bool.false_eq_true, if_false]
  rw [e2]
  simp only [Res.bind, Bool.false_eq_true, if_false, e2', Res.bind_ok, if_true]
  rfl

theorem step_start {s : State} {f0 d0 i0 : Nat} {postI : List Nat}
    (hI0 : activePos s.instances = i0 :: postI)
    (hf : f0 ∈ activePos s.functions) (hd : d0 ∈ activePos s.dimensions) :
    nextProblem { s with curFunction := f0, curDimension := d0, curInstance := -1 }
      = .ok (some (probAt s f0 d0 i0), at' s f0 d0 i0) := by
  have e1 : nextInstance { s with curFunction := f0, curDimension := d0, curInstance := -1 }
      = .ok (true, at' s f0 d0 i0) := by
    unfold nextInstance
    have : nextItem s.instances (-1) = .ok (true, (i0 : Int)) := nextItem_first hI0
    simp only [this]; rfl
  have hi0 : Active s.instances i0 := mem_activePos.1 (by rw [hI0]; simp)
  have e2 := problemFromIndices_active (mem_activePos.1 hf) (mem_activePos.1 hd) hi0
  unfold nextProblem
  rw [e1]
  simp only [Res.bind_ok, if_true]
  simp only [at', Res.assert, Int.natCast_nonneg, decide_true, if_true, Res.bind_ok,
    Int.toNat_natCast, Bool.true_eq_false, if_false]
  have e3 := problemFromIndices_at (s := s) (f := f0) (d := d0) (i := i0) (f' := f0) (d' := d0) (i' := i0)
  simp only [at'] at e3
  rw [e3, e2]
  rfl

/-- Running from `s` returns exactly the problems `l` and leaves the suite in `s'`. -/
def Runs (s : State) (l : List Prob) (s' : State) : Prop :=
  runN l.length s = .ok (l.map some, s')

theorem Runs.nil (s : State) : Runs s [] s := rfl

theorem Runs.append {s s' s'' : State} {l l' : List Prob} (h : Runs s l s') (h' : Runs s' l' s'') :
    Runs s (l ++ l') s'' := by
  unfold Runs at *
  rw [List.length_append, List.map_append]
  exact runN_add h h'

theorem Runs.one {s s' : State} {p : Prob} (h : nextProblem s = .ok (some p, s')) :
    Runs s [p] s' := by
  unfold Runs
  simp [runN, h]

theorem Runs.cons {s s' s'' : State} {p : Prob} {l : List Prob}
    (h : nextProblem s = .ok (some p, s')) (h' : Runs s' l s'') : Runs s (p :: l) s'' :=
  Runs.append (Runs.one h) h'

theorem run_inst {s : State} {f d : Nat}
    (hf : f ∈ activePos s.functions) (hd : d ∈ activePos s.dimensions) :
    ∀ (post pre : List Nat) (i : Nat), activePos s.instances = pre ++ i :: post →
      ∃ preL iL, activePos s.instances = preL ++ [iL] ∧
        Runs (at' s f d i) (post.map (probAt s f d)) (at' s f d iL) := by
  intro post
  induction post with
  | nil => intro pre i h; exact ⟨pre, i, h, Runs.nil _⟩
  | cons i' post ih =>
    intro pre i h
    obtain ⟨preL, iL, h1, h2⟩ := ih (pre ++ [i]) i' (by rw [h]; simp)
    exact ⟨preL, iL, h1, Runs.cons (step_inst h hf hd) h2⟩

theorem run_fn {s : State} {d i0 : Nat} {postI : List Nat}
    (hI0 : activePos s.instances = i0 :: postI) (hd : d ∈ activePos s.dimensions) :
    ∀ (post pre : List Nat) (f : Nat) (iL : Nat) (preL : List Nat),
      activePos s.instances = preL ++ [iL] → activePos s.functions = pre ++ f :: post →
      ∃ preFL fL, activePos s.functions = preFL ++ [fL] ∧
        Runs (at' s f d iL) (post.flatMap fun f' => (activePos s.instances).map (probAt s f' d))
          (at' s fL d iL) := by
  intro post
  induction post with
  | nil => intro pre f iL preL _ h; exact ⟨pre, f, h, Runs.nil _⟩
  | cons f' post ih =>
    intro pre f iL preL hI h
    have hf' : f' ∈ activePos s.functions := by rw [h]; simp
    obtain ⟨preL', iL', h1, h2⟩ := run_inst (s := s) (f := f') (d := d) hf' hd postI [] i0 hI0
    have hlast : iL' = iL := by
      rw [hI] at h1
      exact (List.append_inj_right' h1 rfl |> List.cons.inj).1.symm
    subst hlast
    obtain ⟨preFL, fL, h3, h4⟩ := ih (pre ++ [f]) f' iL' preL hI (by rw [h]; simp)
    refine ⟨preFL, fL, h3, ?_⟩
    rw [List.flatMap_cons]
    refine Runs.append ?_ h4
    have h5 := Runs.cons (step_fn hI hI0 h hd) h2
    have e : (activePos s.instances).map (probAt s f' d)
        = probAt s f' d i0 :: postI.map (probAt s f' d) := by rw [hI0]; rfl
    rw [e]
    exact h5

/-- All problems of one dimension, in order. -/
def dimProbs (s : State) (d : Nat) : List Prob :=
  (activePos s.functions).flatMap fun f => (activePos s.instances).map (probAt s f d)

theorem run_dim_from_first {s : State} {d f0 i0 : Nat} {postI postF : List Nat}
    (hI0 : activePos s.instances = i0 :: postI) (hF0 : activePos s.functions = f0 :: postF)
    (hd : d ∈ activePos s.dimensions) :
    ∃ iL fL preI preF, activePos s.instances = preI ++ [iL] ∧ activePos s.functions = preF ++ [fL] ∧
      Runs (at' s f0 d i0) (dimProbs s d).tail (at' s fL d iL) := by
  have hf0 : f0 ∈ activePos s.functions := by rw [hF0]; simp
  obtain ⟨preL, iL, h1, h2⟩ := run_inst (s := s) (f := f0) (d := d) hf0 hd postI [] i0 hI0
  obtain ⟨preFL, fL, h3, h4⟩ := run_fn hI0 hd postF [] f0 iL preL h1 hF0
  refine ⟨iL, fL, preL, preFL, h1, h3, ?_⟩
  have e : (dimProbs s d).tail = postI.map (probAt s f0 d) ++
      postF.flatMap (fun f' => (activePos s.instances).map (probAt s f' d)) := by
    unfold dimProbs
    rw [hF0, List.flatMap_cons, hI0]
    rfl
  rw [e]
  exact Runs.append h2 h4

theorem dimProbs_eq_cons {s : State} {d f0 i0 : Nat} {postI postF : List Nat}
    (hI0 : activePos s.instances = i0 :: postI) (hF0 : activePos s.functions = f0 :: postF) :
    dimProbs s d = probAt s f0 d i0 :: (dimProbs s d).tail := by
  unfold dimProbs
  rw [hF0, List.flatMap_cons, hI0]
  rfl

theorem run_dims {s : State} {f0 i0 : Nat} {postI postF preI preF : List Nat} {iL fL : Nat}
    (hI0 : activePos s.instances = i0 :: postI) (hF0 : activePos s.functions = f0 :: postF)
    (hI : activePos s.instances = preI ++ [iL]) (hF : activePos s.functions = preF ++ [fL]) :
    ∀ (post pre : List Nat) (d : Nat), activePos s.dimensions = pre ++ d :: post →
      ∃ preDL dL, activePos s.dimensions = preDL ++ [dL] ∧
        Runs (at' s fL d iL) (post.flatMap (dimProbs s)) (at' s fL dL iL) := by
  intro post
  induction post with
  | nil => intro pre d h; exact ⟨pre, d, h, Runs.nil _⟩
  | cons d' post ih =>
    intro pre d h
    have hd' : d' ∈ activePos s.dimensions := by rw [h]; simp
    obtain ⟨iL', fL', preI', preF', h1, h2, h3⟩ := run_dim_from_first hI0 hF0 hd'
    have hi : iL' = iL := by
      rw [hI] at h1
      exact (List.append_inj_right' h1 rfl |> List.cons.inj).1.symm
    have hf : fL' = fL := by
      rw [hF] at h2
      exact (List.append_inj_right' h2 rfl |> List.cons.inj).1.symm
    subst hi hf
    obtain ⟨preDL, dL, h4, h5⟩ := ih (pre ++ [d]) d' (by rw [h]; simp)
    refine ⟨preDL, dL, h4, ?_⟩
    rw [List.flatMap_cons, dimProbs_eq_cons hI0 hF0]
    exact Runs.append (Runs.cons (step_dim hI hI0 hF hF0 h) h3) h5

/-- All problems of the suite in iteration order. -/
def allProbs (s : State) : List Prob := (activePos s.dimensions).flatMap (dimProbs s)

/-- From the cursor position of the first problem, the remaining problems are returned, then NULL,
and the cursor is again at the first problem. -/
theorem run_from_first {s : State} {f0 d0 i0 : Nat} {postI postF postD : List Nat}
    (hI0 : activePos s.instances = i0 :: postI) (hF0 : activePos s.functions = f0 :: postF)
    (hD0 : activePos s.dimensions = d0 :: postD) :
    allProbs s = probAt s f0 d0 i0 :: (allProbs s).tail ∧
    runN ((allProbs s).tail.length + 1) (at' s f0 d0 i0)
      = .ok ((allProbs s).tail.map some ++ [none], at' s f0 d0 i0) := by
  have hd0 : d0 ∈ activePos s.dimensions := by rw [hD0]; simp
  obtain ⟨iL, fL, preI, preF, h1, h2, h3⟩ := run_dim_from_first hI0 hF0 hd0
  obtain ⟨preDL, dL, h4, h5⟩ := run_dims hI0 hF0 h1 h2 postD [] d0 hD0
  have e : allProbs s = probAt s f0 d0 i0 :: ((dimProbs s d0).tail ++ postD.flatMap (dimProbs s)) := by
    unfold allProbs
    rw [hD0, List.flatMap_cons, dimProbs_eq_cons hI0 hF0]
    rfl
  have et : (allProbs s).tail = (dimProbs s d0).tail ++ postD.flatMap (dimProbs s) := by
    rw [e]; rfl
  refine ⟨by rw [et]; exact e, ?_⟩
  have h6 := Runs.append h3 h5
  rw [et]
  unfold Runs at h6
  refine runN_add h6 ?_
  simp [runN, step_end h1 hI0 h2 hF0 h4 hD0]

end Suite
