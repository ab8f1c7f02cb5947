import Verif.Model.BiobjItems
import Verif.Props.LoggerBiobj

/-!
# Lemmas about the memory for the solutions of the bi-objective logger
-/

namespace BiobjItems
open LoggerBiobj (Item Arch State Params Op cmpObj cmpExact after createItem output treeOutput Trees ItemOk vec)
open MO

/-- The allocated items are those in the archive and `extra`. -/
def Held (m : Mem) (l : List Item) (extra : List Nat) : Prop := m.Perm (l.map Item.ev ++ extra)

theorem reads_ok {m : Mem} {l : List Item} (h : ∀ it ∈ l, it.ev ∈ m) : reads m l = .ok () := by
  unfold reads
  rw [if_pos]
  simpa using h

theorem Held.mem {m : Mem} {l : List Item} {extra : List Nat} (h : Held m l extra) {it : Item} (hit : it ∈ l) : it.ev ∈ m :=
  h.mem_iff.mpr (List.mem_append_left _ (List.mem_map_of_mem hit))

theorem Held.mem_extra {m : Mem} {l : List Item} {extra : List Nat} (h : Held m l extra) {e : Nat} (he : e ∈ extra) : e ∈ m :=
  h.mem_iff.mpr (List.mem_append_right _ he)

theorem freeItem_ok {m : Mem} {n : Item} {rest : List Nat} (h : m.Perm (n.ev :: rest)) :
    ∃ m', freeItem m n = .ok m' ∧ m'.Perm rest := by
  refine ⟨m.erase n.ev, ?_, ?_⟩
  · unfold freeItem
    rw [if_pos (h.mem_iff.mpr (by simp))]
  · have := h.erase n.ev
    rwa [List.erase_cons_head] at this

theorem removeNode_sim {ci : Bool} {m : Mem} {s s' : Arch} {n : Item} {extra : List Nat} (t : Trees s) (hn : n ∈ s.archive.items)
    (h : Held m s.archive.items extra) (hs : LoggerBiobj.removeNode ci s n = .ok s') :
    ∃ m', removeNode ci m s n = .ok (m', s') ∧ Held m' s'.archive.items extra ∧ Trees s' ∧
      ∀ a b, s.archive.items = a ++ n :: b → s'.archive.items = a ++ b := by
  obtain ⟨a, b, e⟩ := List.append_of_mem hn
  obtain ⟨A, B, h1, h2, h3, -⟩ := LoggerBiobj.removeNode_spec ci s t n a b e
  rw [h1] at hs
  injection hs with hs
  have hp : m.Perm (n.ev :: ((a ++ b).map Item.ev ++ extra)) := by
    refine h.trans ?_
    rw [e]
    simp only [List.map_append, List.map_cons, List.append_assoc, List.cons_append]
    exact List.perm_middle
  obtain ⟨m', f1, f2⟩ := freeItem_ok hp
  have e2 : s'.archive.items = a ++ b := by rw [← hs]; exact h2
  refine ⟨m', ?_, ?_, ?_, ?_⟩
  · unfold removeNode
    rw [reads_ok, Res.ok_bind, h1, Res.ok_bind, f1, Res.ok_bind, hs]
    intro it hit
    rcases List.mem_cons.mp hit with rfl | hit
    · exact h.mem hn
    · exact h.mem (t.bsub it hit)
  · unfold Held; rw [e2]; exact f2
  · rw [← hs]; exact ⟨h3.inv, h3.stair, h3.ok, h3.evs, h3.binv, h3.bsub⟩
  · intro a' b' e'
    have hnd := Avl.increasing_nodup t.inv.increasing
    obtain ⟨A', B', k1, k2, -, -⟩ := LoggerBiobj.removeNode_spec ci s t n a' b' e'
    rw [h1] at k1
    injection k1 with k1
    have : A = A' := congrArg Arch.archive k1
    rw [← hs, ← k2, ← this]

theorem removeLoop_sim (ci : Bool) (it : Item) {extra : List Nat} (he : it.ev ∈ extra) : ∀ (ns a : List Item) (m : Mem) (s s' : Arch),
    Trees s → s.archive.items = a ++ ns → Held m s.archive.items extra → LoggerBiobj.removeLoop ci it ns s = .ok s' →
    ∃ m', removeLoop ci it ns m s = .ok (m', s') ∧ Held m' s'.archive.items extra ∧ Trees s' := by
  intro ns
  induction ns with
  | nil =>
    intro a m s s' t _ h hs
    injection hs with hs
    subst hs
    exact ⟨m, rfl, h, t⟩
  | cons n ns ih =>
    intro a m s s' t e h hs
    have hn : n ∈ s.archive.items := by rw [e]; simp
    unfold LoggerBiobj.removeLoop at hs
    unfold removeLoop
    rw [reads_ok (by
      intro q hq
      rcases List.mem_cons.mp hq with rfl | hq
      · exact h.mem_extra he
      · rw [List.mem_singleton.mp hq]; exact h.mem hn), Res.ok_bind]
    cases hd : dominance [it.n1, it.n2] [n.n1, n.n2] with
    | ok d =>
      rw [hd, Res.ok_bind] at hs
      rw [Res.ok_bind]
      by_cases h1 : d = 1
      · rw [if_pos h1] at hs ⊢
        cases hr : LoggerBiobj.removeNode ci s n with
        | ok s1 =>
          rw [hr, Res.ok_bind] at hs
          obtain ⟨m1, k1, k2, k3, k4⟩ := removeNode_sim t hn h hr
          rw [k1, Res.ok_bind]
          exact ih a m1 s1 s' k3 (k4 a ns e) k2 hs
        | error => rw [hr] at hs; cases hs
        | assertFail => rw [hr] at hs; cases hs
        | ub => rw [hr] at hs; cases hs
      · rw [if_neg h1] at hs ⊢
        injection hs with hs
        subst hs
        exact ⟨m, rfl, h, t⟩
    | error => rw [hd] at hs; cases hs
    | assertFail => rw [hd] at hs; cases hs
    | ub => rw [hd] at hs; cases hs

theorem updateNext_archive {s s' : Arch} {it : Item} (h : LoggerBiobj.updateNext s it = .ok s') : s'.archive = s.archive := by
  unfold LoggerBiobj.updateNext at h
  split at h
  · split at h
    · simp only [Res.assert] at h
      split at h
      · rw [Res.ok_bind] at h
        injection h with h
        rw [← h]
      · cases h
    · injection h with h; rw [h]
  · injection h with h; rw [h]

theorem updateNew_archive {s s' : Arch} {it : Item} (h : LoggerBiobj.updateNew s it = .ok s') : s'.archive = s.archive := by
  unfold LoggerBiobj.updateNew at h
  simp only [Res.assert] at h
  split at h
  · rw [Res.ok_bind] at h
    injection h with h
    rw [← h]
  · cases h

/-- The archive after the insertion. -/
theorem inserted {ci : Bool} {it : Item} {s s' : Arch} (t : Trees s) (hi : ItemOk it)
    (h : LoggerBiobj.insertNew ci it [] s = .ok s') : s'.archive.items.Perm (it :: s.archive.items) := by
  unfold LoggerBiobj.insertNew LoggerBiobj.removeLoop at h
  rw [Res.ok_bind] at h
  have e0 : Avl.itemInsert cmpObj s.archive it = Avl.itemInsert cmpExact s.archive it := by
    have ha : ∀ y ∈ s.archive.items, cmpObj it y = cmpExact it y := fun y hy =>
      LoggerBiobj.cmp_agree hi.normal.grid.2 (t.ok y hy).normal.grid.2
    unfold Avl.itemInsert
    rw [Avl.insert_congr it s.archive.tree (by rw [t.inv.inorder_eq]; exact ha),
      Avl.searchRightish_congr s.archive.items it s.archive.tree (by rw [t.inv.inorder_eq]; exact ha)]
  rw [e0] at h
  rcases Avl.itemInsert_spec LoggerBiobj.cmpExact_compares s.archive t.inv it with ⟨e1, -⟩ | ⟨A, a, b, e1, -, e2, e3, -, -⟩
  · rw [e1] at h; cases h
  · rw [e1, Res.ok_bind] at h
    simp only [Res.assert, if_true, Res.ok_bind] at h
    have key : s'.archive = A := by
      cases hb : Avl.itemInsert LoggerBiobj.cmpEv s.buffer it with
      | ok r =>
        rw [hb, Res.ok_bind] at h
        split at h
        · cases hu : LoggerBiobj.updateNext { s with archive := A, buffer := r.1 } it with
          | ok s1 =>
            rw [hu, Res.ok_bind] at h
            rw [updateNew_archive h, updateNext_archive hu]
          | error => rw [hu] at h; cases h
          | assertFail => rw [hu] at h; cases h
          | ub => rw [hu] at h; cases h
        · injection h with h; rw [← h]
      | error => rw [hb] at h; cases h
      | assertFail => rw [hb] at h; cases h
      | ub => rw [hb] at h; cases h
    rw [key, e3, e2]
    exact List.perm_middle

theorem insertNew_split (ci : Bool) (it : Item) (next : List Item) (s : Arch) :
    LoggerBiobj.insertNew ci it next s = (LoggerBiobj.removeLoop ci it next s).bind fun s => LoggerBiobj.insertNew ci it [] s := rfl

theorem insertNew_sim {ci : Bool} {it : Item} (hi : ItemOk it) {extra : List Nat} {next a : List Item} {m : Mem} {s s' : Arch}
    (t : Trees s) (e : s.archive.items = a ++ next) (h : Held m s.archive.items (extra ++ [it.ev]))
    (hs : LoggerBiobj.insertNew ci it next s = .ok s') :
    ∃ m', insertNew ci it next m s = .ok (m', s') ∧ Held m' s'.archive.items extra := by
  rw [insertNew_split] at hs
  cases hr : LoggerBiobj.removeLoop ci it next s with
  | ok s1 =>
    rw [hr, Res.ok_bind] at hs
    obtain ⟨m1, k1, k2, k3⟩ := removeLoop_sim ci it (extra := extra ++ [it.ev]) (by simp) next a m s s1 t e h hr
    refine ⟨m1, ?_, ?_⟩
    · unfold insertNew
      rw [k1, Res.ok_bind]
      simp only
      rw [reads_ok, Res.ok_bind, hs, Res.ok_bind]
      intro q hq
      rw [List.cons_append, List.mem_cons, List.mem_append] at hq
      rcases hq with rfl | hq | hq
      · exact k2.mem_extra (by simp)
      · exact k2.mem hq
      · exact k2.mem (k3.bsub q hq)
    · have hp := (inserted k3 hi hs).map Item.ev
      refine List.Perm.trans k2 ?_
      refine List.Perm.trans ?_ (hp.symm.append_right extra)
      rw [← List.append_assoc, List.map_cons, List.cons_append]
      exact List.perm_append_singleton _ _
  | error => rw [hr] at hs; cases hs
  | assertFail => rw [hr] at hs; cases hs
  | ub => rw [hr] at hs; cases hs

theorem suffix_after {n : Item} : ∀ {l : List Item}, n ∈ l → ∃ a, l = a ++ n :: after n l
  | m :: ms, h => by
    by_cases hm : m = n
    · exact ⟨[], by simp [after, hm]⟩
    · obtain ⟨a, ha⟩ := suffix_after ((List.mem_cons.mp h).resolve_left (Ne.symm hm))
      refine ⟨m :: a, ?_⟩
      rw [after, if_neg hm, List.cons_append, ← ha]

theorem Trees.with_contrib {s : Arch} (t : Trees s) (c : Nat → ℚ) : Trees { s with contrib := c } :=
  ⟨t.inv, t.stair, t.ok, t.evs, t.binv, t.bsub⟩

theorem treeUpdate_sim {ci : Bool} {m : Mem} {s s' : Arch} {it : Item} {extra : List Nat} {performed : Bool} {node : Option Item}
    (t : Trees s) (hi : ItemOk it) (hm : m.Nodup) (h : Held m s.archive.items (extra ++ [it.ev]))
    (hs : LoggerBiobj.treeUpdate ci s it = .ok (s', performed, node)) :
    ∃ m', treeUpdate ci m s it = .ok (m', s', performed) ∧ readable m' it = node ∧
      Held m' s'.archive.items (if it.feasible then extra else extra ++ [it.ev]) := by
  have hit : it.ev ∈ m := h.mem_extra (by simp)
  unfold treeUpdate
  simp only
  rw [reads_ok (by intro q hq; rw [List.mem_singleton.mp hq]; exact hit), Res.ok_bind]
  unfold LoggerBiobj.treeUpdate at hs
  simp only at hs
  cases hf : it.feasible with
  | false =>
    simp only [hf, Bool.not_false, if_true] at hs ⊢
    injection hs with hs
    injection hs with hs1 hs2
    injection hs2 with hs2 hs3
    refine ⟨m, by rw [hs1, hs2], ?_, ?_⟩
    · unfold readable; rw [if_pos hit, hs3]
    · rw [← hs1]; exact h
  | true =>
    simp only [hf, Bool.not_true, Bool.false_eq_true, if_false] at hs ⊢
    have t0 := Trees.with_contrib t (Function.update s.contrib it.ev 0)
    rw [reads_ok (fun q hq => h.mem hq), Res.ok_bind]
    have hkeep : ∀ m' : Mem, Held m' s'.archive.items extra → it ∈ s'.archive.items → readable m' it = some it := by
      intro m' hm' hin
      unfold readable
      rw [if_pos (hm'.mem hin)]
    have hin : ∀ {next : List Item} {s1 : Arch}, Trees s1 → (∃ a, s1.archive.items = a ++ next) → ∀ {m1 : Mem},
        Held m1 s1.archive.items (extra ++ [it.ev]) → LoggerBiobj.insertNew ci it next s1 = .ok s' →
        it ∈ s'.archive.items := by
      intro next s1 t1 ⟨a, e⟩ m1 h1 hs1
      rw [insertNew_split] at hs1
      cases hr : LoggerBiobj.removeLoop ci it next s1 with
      | ok s2 =>
        rw [hr, Res.ok_bind] at hs1
        obtain ⟨m2, -, -, k3⟩ := removeLoop_sim ci it (extra := extra ++ [it.ev]) (by simp) next a m1 s1 s2 t1 e h1 hr
        exact (inserted k3 hi hs1).mem_iff.mpr (by simp)
      | error => rw [hr] at hs1; cases hs1
      | assertFail => rw [hr] at hs1; cases hs1
      | ub => rw [hr] at hs1; cases hs1
    obtain ⟨a, b, e, -, -, hsr⟩ := Avl.searchRight_spec (cmp := cmpObj) LoggerBiobj.cmpExact_compares s.archive t.inv it
      (fun y hy => LoggerBiobj.cmp_agree hi.normal.grid.2 (t.ok y hy).normal.grid.2)
    cases hq : (Avl.searchRight cmpObj s.archive.items it s.archive.tree).1 with
    | none =>
      rw [hq] at hs
      simp only at hs ⊢
      cases hn : LoggerBiobj.insertNew ci it s.archive.items { s with contrib := Function.update s.contrib it.ev 0 } with
      | ok s1 =>
        rw [hn, Res.ok_bind] at hs
        injection hs with hs
        injection hs with hs1 hs2
        injection hs2 with hs2 hs3
        subst hs1
        obtain ⟨m', k1, k2⟩ := insertNew_sim (a := []) hi t0 rfl h hn
        refine ⟨m', by rw [k1, Res.ok_bind, ← hs2], ?_, k2⟩
        rw [hkeep m' k2 (hin t0 ⟨[], rfl⟩ h hn), hs3]
      | error => rw [hn] at hs; cases hs
      | assertFail => rw [hn] at hs; cases hs
      | ub => rw [hn] at hs; cases hs
    | some n =>
      rw [hq] at hs
      simp only at hs ⊢
      have hnm : n ∈ s.archive.items := by
        rw [hsr] at hq
        rw [e]
        exact List.mem_append_left _ (List.mem_of_getLast? hq)
      obtain ⟨a1, ha1⟩ := suffix_after hnm
      cases hd : dominance [it.n1, it.n2] [n.n1, n.n2] with
      | ok d =>
        rw [hd, Res.ok_bind] at hs
        rw [Res.ok_bind]
        by_cases h1 : d > -1
        · rw [if_pos h1] at hs ⊢
          by_cases h2 : d = 1
          · rw [if_pos h2] at hs ⊢
            cases hr : LoggerBiobj.removeNode ci { s with contrib := Function.update s.contrib it.ev 0 } n with
            | ok s1 =>
              rw [hr, Res.ok_bind] at hs
              obtain ⟨m1, k1, k2, k3, k4⟩ := removeNode_sim t0 hnm h hr
              rw [k1, Res.ok_bind]
              cases hn : LoggerBiobj.insertNew ci it (after n s.archive.items) s1 with
              | ok s2 =>
                rw [hn, Res.ok_bind] at hs
                injection hs with hs
                injection hs with hs1 hs2
                injection hs2 with hs2 hs3
                subst hs1
                have e1 := k4 a1 _ ha1
                obtain ⟨m', j1, j2⟩ := insertNew_sim hi k3 e1 k2 hn
                refine ⟨m', ?_, ?_, j2⟩
                · simp only
                  rw [j1, Res.ok_bind, ← hs2]
                · rw [hkeep m' j2 (hin k3 ⟨_, e1⟩ k2 hn), hs3]
              | error => rw [hn] at hs; cases hs
              | assertFail => rw [hn] at hs; cases hs
              | ub => rw [hn] at hs; cases hs
            | error => rw [hr] at hs; cases hs
            | assertFail => rw [hr] at hs; cases hs
            | ub => rw [hr] at hs; cases hs
          · rw [if_neg h2] at hs ⊢
            cases hn : LoggerBiobj.insertNew ci it (after n s.archive.items)
                { s with contrib := Function.update s.contrib it.ev 0 } with
            | ok s2 =>
              rw [hn, Res.ok_bind] at hs
              injection hs with hs
              injection hs with hs1 hs2
              injection hs2 with hs2 hs3
              subst hs1
              have e1 : s.archive.items = (a1 ++ [n]) ++ after n s.archive.items := by
                rw [List.append_assoc]; exact ha1
              obtain ⟨m', j1, j2⟩ := insertNew_sim hi t0 e1 h hn
              refine ⟨m', ?_, ?_, j2⟩
              · rw [j1, Res.ok_bind, ← hs2]
              · rw [hkeep m' j2 (hin t0 ⟨_, e1⟩ h hn), hs3]
            | error => rw [hn] at hs; cases hs
            | assertFail => rw [hn] at hs; cases hs
            | ub => rw [hn] at hs; cases hs
        · rw [if_neg h1] at hs ⊢
          injection hs with hs
          injection hs with hs1 hs2
          injection hs2 with hs2 hs3
          have hp : m.Perm (it.ev :: (s.archive.items.map Item.ev ++ extra)) := by
            refine List.Perm.trans h ?_
            rw [← List.append_assoc]
            exact List.perm_append_singleton _ _
          obtain ⟨m', f1, f2⟩ := freeItem_ok hp
          refine ⟨m', by rw [f1, Res.ok_bind, hs1, hs2], ?_, ?_⟩
          · unfold readable
            have : it.ev ∉ m' := by
              rw [f2.mem_iff]
              exact (List.nodup_cons.mp (hp.nodup_iff.mp hm)).1
            rw [if_neg this, hs3]
          · rw [← hs1]; exact f2
      | error => rw [hd] at hs; cases hs
      | assertFail => rw [hd] at hs; cases hs
      | ub => rw [hd] at hs; cases hs

theorem freeAll_ok {extra : List Nat} : ∀ (l : List Item) (m : Mem), Held m l extra → ∃ m', freeAll l m = .ok m' ∧ m'.Perm extra := by
  intro l
  induction l with
  | nil => exact fun m h => ⟨m, rfl, h⟩
  | cons it l ih =>
    intro m h
    obtain ⟨m1, f1, f2⟩ := freeItem_ok (n := it) (rest := l.map Item.ev ++ extra) h
    obtain ⟨m2, g1, g2⟩ := ih m1 f2
    exact ⟨m2, by unfold freeAll; rw [f1, Res.ok_bind, g1], g2⟩

end BiobjItems
