import Verif.Model.ArchiveItems
import Verif.Props.Archive

/-!
# Lemmas about the memory of the archive
-/

namespace ArchiveItems
open Archive (Item State Op cmp after vec Normal cmpExact)
open MO

/-- The three blocks of an item, in the order in which they are released. -/
def blocks (id : Nat) : List Block := [.values id, .text id, .item id]

/-- The allocated blocks are those of the items and `extra`. -/
def Held (m : Mem) (l : List Item) (extra : List Block) : Prop := m.Perm ((l.flatMap fun it => blocks it.id) ++ extra)

/-- The tree is ordered and its items are normalised. -/
structure Tr (s : State) : Prop where
  inv : Avl.Spec.Inv Item.y2 s.tree
  normal : ∀ it ∈ s.tree.items, Normal (vec it)

theorem bind_ok_inv {α β : Type} {r : Res α} {f : α → Res β} {b : β} (h : r.bind f = .ok b) : ∃ a, r = .ok a ∧ f a = .ok b := by
  cases r with
  | ok a => exact ⟨a, rfl, h⟩
  | error => cases h
  | assertFail => cases h
  | ub => cases h

theorem reads_ok {m : Mem} {l : List Block} (h : ∀ b ∈ l, b ∈ m) : reads m l = .ok () := by
  unfold reads
  rw [if_pos]
  simpa using h

theorem Held.mem {m : Mem} {l : List Item} {extra : List Block} (h : Held m l extra) {it : Item} (hit : it ∈ l) {b : Block}
    (hb : b ∈ blocks it.id) : b ∈ m :=
  h.mem_iff.mpr (List.mem_append_left _ (List.mem_flatMap.mpr ⟨it, hit, hb⟩))

theorem Held.mem_extra {m : Mem} {l : List Item} {extra : List Block} (h : Held m l extra) {b : Block} (hb : b ∈ extra) : b ∈ m :=
  h.mem_iff.mpr (List.mem_append_right _ hb)

theorem reads_values {m : Mem} {l : List Item} (h : ∀ it ∈ l, ∀ b ∈ blocks it.id, b ∈ m) : reads m (valueBlocks l) = .ok () := by
  apply reads_ok
  intro b hb
  obtain ⟨it, hit, hb⟩ := List.mem_flatMap.mp hb
  refine h it hit b ?_
  unfold blocks
  simp only [List.mem_cons, List.not_mem_nil, or_false] at hb ⊢
  tauto

theorem free_ok {m : Mem} {b : Block} {rest : List Block} (h : m.Perm (b :: rest)) : ∃ m', free m b = .ok m' ∧ m'.Perm rest := by
  refine ⟨m.erase b, ?_, ?_⟩
  · unfold free
    rw [if_pos (h.mem_iff.mpr (by simp))]
  · have := h.erase b
    rwa [List.erase_cons_head] at this

theorem freeItem_ok {m : Mem} {id : Nat} {rest : List Block} (h : m.Perm (blocks id ++ rest)) :
    ∃ m', freeItem m id = .ok m' ∧ m'.Perm rest := by
  obtain ⟨m1, e1, p1⟩ := free_ok h
  obtain ⟨m2, e2, p2⟩ := free_ok p1
  obtain ⟨m3, e3, p3⟩ := free_ok p2
  exact ⟨m3, by unfold freeItem; rw [e1, Res.ok_bind, e2, Res.ok_bind, e3], p3⟩

theorem held_middle {m : Mem} {a b : List Item} {n : Item} {extra : List Block} :
    Held m (a ++ n :: b) extra ↔ m.Perm (blocks n.id ++ (((a ++ b).flatMap fun it => blocks it.id) ++ extra)) := by
  unfold Held
  have : ((a ++ n :: b).flatMap fun it => blocks it.id).Perm (blocks n.id ++ ((a ++ b).flatMap fun it => blocks it.id)) := by
    rw [List.flatMap_append, List.flatMap_cons, List.flatMap_append, ← List.append_assoc, ← List.append_assoc]
    exact List.Perm.append_right _ List.perm_append_comm
  rw [← List.append_assoc]
  exact ⟨fun h => h.trans (this.append_right extra), fun h => h.trans (this.symm.append_right extra)⟩

theorem removeNode_sim {m : Mem} {s s' : State} {n : Item} {extra : List Block} (t : Tr s) (hn : n ∈ s.tree.items)
    (h : Held m s.tree.items extra) (hs : Archive.removeNode s n = .ok s') :
    ∃ m', removeNode m s n = .ok (m', s') ∧ Held m' s'.tree.items extra ∧ Tr s' ∧
      ∀ a b, s.tree.items = a ++ n :: b → s'.tree.items = a ++ b := by
  have hne : some n ≠ s.extreme1 ∧ some n ≠ s.extreme2 := by
    by_contra hc
    unfold Archive.removeNode at hs
    rw [decide_eq_false hc] at hs
    cases hs
  have key : ∀ a b, s.tree.items = a ++ n :: b → s'.tree.items = a ++ b ∧ Avl.Spec.Inv Item.y2 s'.tree := by
    intro a b e
    obtain ⟨tr, e1, inv, e2⟩ := Archive.removeNode_spec s t.inv t.normal n a b e hne.1 hne.2
    rw [hs] at e1
    injection e1 with e1
    rw [e1]
    exact ⟨e2, inv⟩
  obtain ⟨a, b, e⟩ := List.append_of_mem hn
  obtain ⟨k1, k2⟩ := key a b e
  rw [e, held_middle] at h
  obtain ⟨m', f1, f2⟩ := freeItem_ok h
  refine ⟨m', ?_, ?_, ⟨k2, ?_⟩, fun a b e => (key a b e).1⟩
  · unfold removeNode
    rw [hs, Res.ok_bind, f1, Res.ok_bind]
  · rw [k1]; exact f2
  · intro it hit
    apply t.normal
    rw [k1] at hit
    rw [e]
    simp only [List.mem_append, List.mem_cons] at hit ⊢
    tauto

theorem removeLoop_sim (item : Item) {extra : List Block} (he : ∀ b ∈ blocks item.id, b ∈ extra) :
    ∀ (ns a : List Item) (m : Mem) (s s' : State), Tr s → s.tree.items = a ++ ns → Held m s.tree.items extra →
    Archive.removeLoop item ns s = .ok s' →
    ∃ m', removeLoop item ns m s = .ok (m', s') ∧ Held m' s'.tree.items extra ∧ Tr s' := by
  intro ns
  induction ns with
  | nil =>
    intro a m s s' t _ h hs
    injection hs with hs
    subst hs
    exact ⟨m, rfl, h, t⟩
  | cons n ns ih =>
    intro a m s s' t e h hs
    have hn : n ∈ s.tree.items := by rw [e]; simp
    unfold Archive.removeLoop at hs
    unfold removeLoop
    rw [reads_values (by
      intro q hq b hb
      rcases List.mem_cons.mp hq with rfl | hq
      · exact h.mem_extra (he b hb)
      · rw [List.mem_singleton.mp hq] at hb; exact h.mem hn hb), Res.ok_bind]
    obtain ⟨d, hd, hs⟩ := bind_ok_inv hs
    rw [hd, Res.ok_bind]
    by_cases h1 : d = 1
    · rw [if_pos h1] at hs ⊢
      obtain ⟨s1, hr, hs⟩ := bind_ok_inv hs
      obtain ⟨m1, k1, k2, k3, k4⟩ := removeNode_sim t hn h hr
      rw [k1, Res.ok_bind]
      exact ih a m1 s1 s' k3 (k4 a ns e) k2 hs
    · rw [if_neg h1] at hs ⊢
      injection hs with hs
      subst hs
      exact ⟨m, rfl, h, t⟩

theorem addAccepted_sim {item : Item} (hi : Normal (vec item)) {extra : List Block} {next a : List Item} {m : Mem} {s s' : State}
    {r : Int} (t : Tr s) (e : s.tree.items = a ++ next) (h : Held m s.tree.items (blocks item.id ++ extra))
    (hs : Archive.addAccepted item next s = .ok (s', r)) :
    ∃ m', addAccepted item next m s = .ok (m', s', r) ∧ Held m' s'.tree.items extra := by
  unfold Archive.addAccepted at hs
  unfold addAccepted
  obtain ⟨s1, hr, hs⟩ := bind_ok_inv hs
  obtain ⟨m1, k1, k2, k3⟩ := removeLoop_sim item (extra := blocks item.id ++ extra)
    (fun b hb => List.mem_append_left _ hb) next a m s s1 t e h hr
  rw [k1, Res.ok_bind]
  simp only
  rw [reads_values (by
      intro q hq b hb
      rcases List.mem_cons.mp hq with rfl | hq
      · exact k2.mem_extra (List.mem_append_left _ hb)
      · exact k2.mem hq hb), Res.ok_bind]
  obtain ⟨⟨tr, ins⟩, hins, hs⟩ := bind_ok_inv hs
  rw [hins, Res.ok_bind]
  simp only at hs ⊢
  injection hs with hs
  injection hs with hs hr
  have ha : ∀ y ∈ s1.tree.items, cmp item y = cmpExact item y := fun y hy =>
    Archive.cmp_agree hi.grid.2 (k3.normal y hy).grid.2
  have hex : Avl.itemInsert cmp s1.tree item = Avl.itemInsert cmpExact s1.tree item := by
    unfold Avl.itemInsert
    rw [Avl.insert_congr item s1.tree.tree (by rw [k3.inv.inorder_eq]; exact ha),
      Avl.searchRightish_congr s1.tree.items item s1.tree.tree (by rw [k3.inv.inorder_eq]; exact ha)]
  rw [hex] at hins
  rcases Avl.itemInsert_spec Archive.cmpExact_compares s1.tree k3.inv item with ⟨e1, -⟩ | ⟨tr', p, q, e1, -, e2, e3, -⟩
  · rw [hins] at e1
    injection e1 with e1
    injection e1 with e1 e2
    subst e1 e2
    simp only [Bool.false_eq_true, if_false] at hr ⊢
    have hp : m1.Perm (blocks item.id ++ ((s1.tree.items.flatMap fun it => blocks it.id) ++ extra)) := by
      refine List.Perm.trans k2 ?_
      rw [← List.append_assoc, ← List.append_assoc]
      exact List.Perm.append_right _ List.perm_append_comm
    obtain ⟨m2, f1, f2⟩ := freeItem_ok hp
    refine ⟨m2, by rw [f1, Res.ok_bind, hs, hr], ?_⟩
    rw [← hs]; exact f2
  · rw [hins] at e1
    injection e1 with e1
    injection e1 with e1 e4
    subst e1 e4
    simp only [if_true] at hr ⊢
    refine ⟨m1, by rw [Res.ok_bind, hs, hr], ?_⟩
    rw [← hs]
    show Held m1 tr.items extra
    rw [e3, held_middle, ← e2]
    refine List.Perm.trans k2 ?_
    rw [← List.append_assoc, ← List.append_assoc]
    exact List.Perm.append_right _ List.perm_append_comm

theorem suffix_after {n : Item} : ∀ {l : List Item}, n ∈ l → ∃ a, l = a ++ n :: after n l
  | m :: ms, h => by
    by_cases hm : m = n
    · exact ⟨[], by simp [after, hm]⟩
    · obtain ⟨a, ha⟩ := suffix_after ((List.mem_cons.mp h).resolve_left (Ne.symm hm))
      refine ⟨m :: a, ?_⟩
      rw [after, if_neg hm, List.cons_append, ← ha]

theorem createItem_normal {s : State} {i1 i2 n1 n2 : ℚ} (h1 : 5 / 10 ^ 13 < n1 - i1) (h2 : 5 / 10 ^ 13 < n2 - i2)
    (hi : s.ideal = [i1, i2]) (hn : s.nadir = [n1, n2]) {y1 y2 : ℚ} {text : String} {it : Item}
    (h : Archive.createItem s y1 y2 text = .ok it) : Normal (vec it) ∧ it.id = s.created := by
  unfold Archive.createItem at h
  rw [hi, hn, Archive.normalize_eq i1 i2 n1 n2 y1 y2 h1 h2, Res.ok_bind] at h
  injection h with h
  subst h
  exact ⟨Archive.normal_normal i1 i2 n1 n2 y1 y2, rfl⟩

theorem add_sim {m : Mem} {s s' : State} {extra : List Block} {i1 i2 n1 n2 : ℚ} (h1 : 5 / 10 ^ 13 < n1 - i1)
    (h2 : 5 / 10 ^ 13 < n2 - i2) (hi : s.ideal = [i1, i2]) (hn : s.nadir = [n1, n2]) {y1 y2 : ℚ} {text : String} {r : Int}
    (t : Tr s) (h : Held m s.tree.items extra) (hs : Archive.add s y1 y2 text = .ok (s', r)) :
    ∃ m', add m s y1 y2 text = .ok (m', s', r) ∧ Held m' s'.tree.items extra := by
  unfold Archive.add at hs
  unfold add createItem
  obtain ⟨it, hc, hs⟩ := bind_ok_inv hs
  obtain ⟨hN, hid⟩ := createItem_normal h1 h2 hi hn hc
  simp only
  rw [hc, Res.ok_bind, Res.ok_bind]
  simp only
  have hp : (alloc (alloc (alloc (alloc m .vector) (.item s.created)) (.values it.id)) (.text it.id)).Perm
      (.vector :: (blocks it.id ++ m)) := by
    rw [← hid]
    unfold alloc blocks
    refine List.perm_iff_count.mpr fun b => ?_
    simp only [List.count_cons, List.count_append, List.count_nil]
    omega
  obtain ⟨m0, f1, f2⟩ := free_ok hp
  rw [f1, Res.ok_bind]
  have hh : Held m0 s.tree.items (blocks it.id ++ extra) := by
    refine f2.trans ?_
    unfold Held at h
    refine (List.Perm.append_left _ h).trans ?_
    rw [← List.append_assoc, ← List.append_assoc]
    exact List.Perm.append_right _ List.perm_append_comm
  rw [reads_values (by
      intro q hq b hb
      rcases List.mem_cons.mp hq with rfl | hq
      · exact hh.mem_extra (List.mem_append_left _ hb)
      · exact hh.mem hq hb), Res.ok_bind]
  have t0 : Tr { s with created := s.created + 1 } := ⟨t.inv, t.normal⟩
  obtain ⟨a, b, e, -, -, hsr⟩ := Avl.searchRight_spec (cmp := cmp) Archive.cmpExact_compares s.tree t.inv it
    (fun y hy => Archive.cmp_agree hN.grid.2 (t.normal y hy).grid.2)
  cases hq : (Avl.searchRight cmp s.tree.items it s.tree.tree).1 with
  | none =>
    simp only [hq] at hs ⊢
    exact addAccepted_sim (a := []) hN t0 rfl hh hs
  | some n =>
    simp only [hq] at hs ⊢
    have hnm : n ∈ s.tree.items := by
      rw [hsr] at hq
      rw [e]
      exact List.mem_append_left _ (List.mem_of_getLast? hq)
    obtain ⟨a1, ha1⟩ := suffix_after hnm
    obtain ⟨d, hd, hs⟩ := bind_ok_inv hs
    rw [hd, Res.ok_bind]
    by_cases h1 : d > -1
    · rw [if_pos h1] at hs ⊢
      by_cases h2 : d = 1
      · rw [if_pos h2] at hs ⊢
        obtain ⟨s1, hr, hs⟩ := bind_ok_inv hs
        obtain ⟨m1, k1, k2, k3, k4⟩ := removeNode_sim t0 hnm hh hr
        rw [k1, Res.ok_bind]
        exact addAccepted_sim hN k3 (k4 a1 _ ha1) k2 hs
      · rw [if_neg h2] at hs ⊢
        have e1 : s.tree.items = (a1 ++ [n]) ++ after n s.tree.items := by
          rw [List.append_assoc]; exact ha1
        exact addAccepted_sim hN t0 e1 hh hs
    · rw [if_neg h1] at hs ⊢
      injection hs with hs
      injection hs with hs1 hs2
      have hp : m0.Perm (blocks it.id ++ ((s.tree.items.flatMap fun it => blocks it.id) ++ extra)) := by
        refine List.Perm.trans hh ?_
        rw [← List.append_assoc, ← List.append_assoc]
        exact List.Perm.append_right _ List.perm_append_comm
      obtain ⟨m', g1, g2⟩ := freeItem_ok hp
      refine ⟨m', by rw [g1, Res.ok_bind, hs1, hs2], ?_⟩
      rw [← hs1]; exact g2

theorem update_sim {m : Mem} {s s' : State} {extra : List Block} (h : Held m s.tree.items extra) (hs : Archive.update s = .ok s') :
    update m s = .ok s' ∧ s'.tree = s.tree := by
  have ht : s'.tree = s.tree := by
    unfold Archive.update at hs
    split at hs
    · injection hs with hs; rw [hs]
    · split at hs
      · cases hs
      · obtain ⟨v, -, hs⟩ := bind_ok_inv hs
        injection hs with hs
        rw [← hs]
  refine ⟨?_, ht⟩
  unfold update
  split
  · rename_i hu
    rw [← hs]
    unfold Archive.update
    rw [if_pos hu]
  · rw [reads_values (fun q hq b hb => h.mem hq hb), Res.ok_bind, hs]

/-- The text a pointer leads to: `""`, or the text of an item of the archive. -/
def Leads (l : List Item) : Option Text → Option String → Prop
  | none, none => True
  | some .empty, some t => t = ""
  | some (.of i), some t => ∃ it ∈ l, it.id = i ∧ it.text = t
  | _, _ => False

theorem textOf_sim {m : Mem} {s : State} {extra : List Block} (h : Held m s.tree.items extra) {n : Option Item} {t : String}
    (hs : Archive.textOf s n = .ok t) : ∃ p, textOf m s n = .ok p ∧ Leads s.tree.items (some p) (some t) := by
  unfold Archive.textOf at hs
  unfold textOf
  cases n with
  | none => cases hs
  | some n =>
    simp only at hs ⊢
    split at hs
    · rename_i hn
      injection hs with hs
      rw [if_pos hn, reads_ok (by
        intro b hb
        rw [List.mem_singleton.mp hb]
        exact h.mem hn (by simp [blocks])), Res.ok_bind]
      exact ⟨_, rfl, n, hn, rfl, hs⟩
    · cases hs

theorem nextText_sim {m : Mem} {extra : List Block} : ∀ (fuel : Nat) (s s' : State) (t : Option String),
    Held m s.tree.items extra → Archive.nextText fuel s = .ok (s', t) →
    ∃ p, nextText m fuel s = .ok (s', p) ∧ Leads s.tree.items p t ∧ s'.tree = s.tree := by
  intro fuel
  induction fuel with
  | zero => intro s s' t h hs; cases hs
  | succ fuel ih =>
    intro s s' t h hs
    rw [Archive.nextText] at hs
    rw [nextText]
    obtain ⟨s1, hu, hs⟩ := bind_ok_inv hs
    obtain ⟨u1, u2⟩ := update_sim h hu
    rw [u1, Res.ok_bind]
    have h1 : Held m s1.tree.items extra := by rw [u2]; exact h
    rw [← u2]
    by_cases c1 : (!s1.extremesAlreadyReturned) = true
    · rw [if_pos c1] at hs ⊢
      by_cases c2 : s1.current = none
      · rw [if_pos c2] at hs ⊢
        obtain ⟨t', ht, hs⟩ := bind_ok_inv hs
        obtain ⟨p, p1, p2⟩ := textOf_sim h1 ht
        rw [p1, Res.ok_bind]
        injection hs with hs
        injection hs with hs1 hs2
        exact ⟨some p, by rw [hs1], by rw [← hs2]; exact p2, by rw [← hs1]⟩
      · rw [if_neg c2] at hs ⊢
        by_cases c3 : s1.current = s1.extreme2
        · rw [if_pos c3] at hs ⊢
          obtain ⟨t', ht, hs⟩ := bind_ok_inv hs
          obtain ⟨p, p1, p2⟩ := textOf_sim h1 ht
          rw [p1, Res.ok_bind]
          injection hs with hs
          injection hs with hs1 hs2
          exact ⟨some p, by rw [hs1], by rw [← hs2]; exact p2, by rw [← hs1]⟩
        · rw [if_neg c3] at hs ⊢
          injection hs with hs
          injection hs with hs1 hs2
          exact ⟨none, by rw [hs1], by rw [← hs2]; trivial, by rw [← hs1]⟩
    · rw [if_neg c1] at hs ⊢
      by_cases c2 : s1.current = none
      · rw [if_pos c2] at hs ⊢
        injection hs with hs
        injection hs with hs1 hs2
        exact ⟨some .empty, by rw [hs1], by rw [← hs2]; rfl, by rw [← hs1]⟩
      · rw [if_neg c2] at hs ⊢
        by_cases c3 : s1.current = s1.extreme1 ∨ s1.current = s1.extreme2
        · rw [if_pos c3] at hs ⊢
          obtain ⟨n, hn, hs⟩ := bind_ok_inv hs
          rw [hn, Res.ok_bind]
          exact ih { s1 with current := n } s' t h1 hs
        · rw [if_neg c3] at hs ⊢
          obtain ⟨t', ht, hs⟩ := bind_ok_inv hs
          obtain ⟨p, p1, p2⟩ := textOf_sim h1 ht
          rw [p1, Res.ok_bind]
          obtain ⟨n, hn, hs⟩ := bind_ok_inv hs
          rw [hn, Res.ok_bind]
          injection hs with hs
          injection hs with hs1 hs2
          exact ⟨some p, by rw [hs1], by rw [← hs2]; exact p2, by rw [← hs1]⟩

/-- Equal results; a pointer stands for the text it leads to. -/
def Same (l : List Item) : Out → Archive.Out → Prop
  | .added r, .added r' => r = r'
  | .text p, .text t => Leads l p t
  | .count n, .count n' => n = n'
  | .value v, .value v' => v = v'
  | _, _ => False

theorem step_sim {m : Mem} {s s' : State} {extra : List Block} {i1 i2 n1 n2 : ℚ} (h1 : 5 / 10 ^ 13 < n1 - i1)
    (h2 : 5 / 10 ^ 13 < n2 - i2) (hi : s.ideal = [i1, i2]) (hn : s.nadir = [n1, n2]) {op : Op} {o : Archive.Out}
    (t : Tr s) (h : Held m s.tree.items extra) (hs : Archive.step s op = .ok (s', o)) :
    ∃ m' o', step m s op = .ok (m', s', o') ∧ Held m' s'.tree.items extra ∧ Same s'.tree.items o' o := by
  cases op with
  | add y1 y2 text =>
    simp only [Archive.step] at hs
    obtain ⟨⟨s1, r⟩, ha, hs⟩ := bind_ok_inv hs
    injection hs with hs
    injection hs with hs1 hs2
    subst hs1 hs2
    obtain ⟨m', k1, k2⟩ := add_sim h1 h2 hi hn t h ha
    exact ⟨m', .added r, by simp only [step]; rw [k1, Res.ok_bind], k2, rfl⟩
  | next =>
    simp only [Archive.step] at hs
    obtain ⟨⟨s1, r⟩, ha, hs⟩ := bind_ok_inv hs
    injection hs with hs
    injection hs with hs1 hs2
    subst hs1 hs2
    obtain ⟨p, k1, k2, k3⟩ := nextText_sim 3 s s1 r h ha
    refine ⟨m, .text p, by simp only [step]; rw [k1, Res.ok_bind], by rw [k3]; exact h, ?_⟩
    show Leads _ _ _
    rw [k3]
    exact k2
  | number =>
    simp only [Archive.step, Archive.getNumber] at hs
    obtain ⟨⟨s1, r⟩, ha, hs⟩ := bind_ok_inv hs
    obtain ⟨s2, hu, ha⟩ := bind_ok_inv ha
    injection ha with ha
    injection ha with ha1 ha2
    injection hs with hs
    injection hs with hs1 hs2
    subst ha1 ha2 hs1 hs2
    obtain ⟨k1, k2⟩ := update_sim h hu
    exact ⟨m, .count _, by simp only [step]; rw [k1, Res.ok_bind], by rw [k2]; exact h, rfl⟩
  | hyp =>
    simp only [Archive.step, Archive.getHypervolume] at hs
    obtain ⟨⟨s1, r⟩, ha, hs⟩ := bind_ok_inv hs
    obtain ⟨s2, hu, ha⟩ := bind_ok_inv ha
    injection ha with ha
    injection ha with ha1 ha2
    injection hs with hs
    injection hs with hs1 hs2
    subst ha1 ha2 hs1 hs2
    obtain ⟨k1, k2⟩ := update_sim h hu
    exact ⟨m, .value _, by simp only [step]; rw [k1, Res.ok_bind], by rw [k2]; exact h, rfl⟩

theorem freeItems_ok {extra : List Block} : ∀ (l : List Item) (m : Mem), Held m l extra → ∃ m', freeItems l m = .ok m' ∧ m'.Perm extra := by
  intro l
  induction l with
  | nil => exact fun m h => ⟨m, rfl, h⟩
  | cons it l ih =>
    intro m h
    have hp : m.Perm (blocks it.id ++ ((l.flatMap fun it => blocks it.id) ++ extra)) := by
      unfold Held at h
      rw [List.flatMap_cons, List.append_assoc] at h
      exact h
    obtain ⟨m1, f1, f2⟩ := freeItem_ok hp
    obtain ⟨m2, g1, g2⟩ := ih m1 f2
    exact ⟨m2, by unfold freeItems; rw [f1, Res.ok_bind, g1], g2⟩

end ArchiveItems
