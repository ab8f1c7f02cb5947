import Verif.Lemmas.AvlWhole

/-!
C97: the AVL tree as it is in memory.  After every sequence of calls, with whatever addresses `malloc` returns, no call has
read or written outside the nodes of the tree, every loop has ended, and the memory contains exactly the nodes of a sorted
doubly linked list of the items that are in the set, with the addresses they were created at.
-/

namespace AvlPtr
open Avl (Tree inorder)

variable {α κ : Type} [LinearOrder κ]

/-! ### Specification -/

/-- The effect of a call on the sorted list of the nodes (address and item), and what it returns.  `key` is what the
comparison function compares. -/
def Spec.step (key : α → κ) (L : List (Nat × α)) : Op α → List (Nat × α) × Ret α
  | .insert p _ x =>
    if ∃ q ∈ L, key q.2 = key x then (L, .node none)
    else (L.filter (fun q => key q.2 < key x) ++ (p, x) :: L.filter (fun q => key x < key q.2), .node (some p))
  | .deleteItem x => (L.filter fun q => key q.2 ≠ key x, .item ((L.find? fun q => key q.2 = key x).map Prod.snd))
  | .deleteNode p => (L.filter fun q => q.1 ≠ p, .item ((L.find? fun q => q.1 = p).map Prod.snd))
  | .purge => ([], .items (L.map Prod.snd))

/-- The nodes after a sequence of calls, and what the calls return. -/
def Spec.run (key : α → κ) : List (Nat × α) → List (Op α) → List (Nat × α) × List (Ret α)
  | L, [] => (L, [])
  | L, op :: ops =>
    let r := Spec.run key (Spec.step key L op).1 ops
    (r.1, (Spec.step key L op).2 :: r.2)

/-- `malloc` returns memory that is not in use; only nodes of the tree are passed to `avl_node_delete`. -/
def Spec.Allowed (key : α → κ) : List (Nat × α) → List (Op α) → Prop
  | _, [] => True
  | L, op :: ops =>
    (match op with
      | .insert p _ _ => p ∉ L.map Prod.fst
      | .deleteNode p => p ∈ L.map Prod.fst
      | _ => True) ∧ Spec.Allowed key (Spec.step key L op).1 ops

/-- The nodes are in the memory, linked in both directions in this order. -/
def Spec.Chain (h : Heap α) : (prev : Option Nat) → List (Nat × α) → Prop
  | _, [] => True
  | prev, q :: L => (∃ n, h q.1 = some n ∧ n.prev = prev ∧ n.next = L.head?.map Prod.fst ∧ n.item = q.2) ∧
      Spec.Chain h (some q.1) L

/-- The memory is the doubly linked list and nothing else. -/
structure Spec.Holds (s : St α) (L : List (Nat × α)) : Prop where
  head : s.head = L.head?.map Prod.fst
  tail : s.tail = L.getLast?.map Prod.fst
  chain : Spec.Chain s.heap none L
  only : ∀ a, s.heap a ≠ none ↔ a ∈ L.map Prod.fst

/-! ### Proof -/

/-- The state is a balanced ordered tree of these nodes. -/
def Inv (key : α → κ) (s : St α) (L : List (Nat × α)) : Prop :=
  ∃ t, Is s t ∧ Avl.Spec.Balanced t ∧ inorder t = L ∧ Avl.Spec.Increasing (fun q : Nat × α => key q.2) L

theorem chain_of {h : Heap α} {pv : Option Nat} {L : List (Nat × α)} (hs : Seg h pv (L.map Prod.fst) none)
    (hi : ∀ q ∈ L, ∃ n, h q.1 = some n ∧ n.item = q.2) : Spec.Chain h pv L := by
  induction L generalizing pv with
  | nil => trivial
  | cons q L ih =>
    obtain ⟨n, e1, e2⟩ := hi q (by simp)
    have := node_of_thread e1 hs.1
    exact ⟨⟨n, e1, this.1, by simpa using this.2, e2⟩, ih hs.2 fun q' h' => hi q' (by simp [h'])⟩

theorem holds_of {key : α → κ} {s : St α} {L : List (Nat × α)} (h : Inv key s L) : Spec.Holds s L := by
  obtain ⟨t, h, -, rfl, -⟩ := h
  refine ⟨?_, ?_, chain_of h.seg fun q hq => rep_item h.rep hq, fun a => ⟨h.only a, fun ha => live_mem h ha⟩⟩
  · rw [h.head]; simp [addrs]
  · rw [h.tail]; simp [addrs]

theorem exists_fresh (l : List Nat) : ∃ p, p ∉ l := by
  obtain ⟨n, hn⟩ : ∃ n, ∀ a ∈ l, a < n := by
    induction l with
    | nil => exact ⟨0, by simp⟩
    | cons a l ih =>
      obtain ⟨n, hn⟩ := ih
      refine ⟨max n (a + 1), fun b hb => ?_⟩
      rcases List.mem_cons.1 hb with rfl | hb
      · omega
      · have := hn b hb; omega
  exact ⟨n, fun h => absurd (hn n h) (by omega)⟩

theorem search_none {cmp : α → α → Int} {key : α → κ} (hc : Avl.Spec.Compares cmp key) {s : St α} {t : Tree (Nat × α)}
    (h : Is s t) (hb : Avl.Spec.Balanced t) (hi : Avl.Spec.Increasing (fun q : Nat × α => key q.2) (inorder t)) {x : α}
    (hx : ∀ q ∈ inorder t, key q.2 ≠ key x) {fuel : Nat} (hf : Avl.height t ≤ fuel) :
    ∃ A B, inorder t = A ++ B ∧ (∀ q ∈ A, key q.2 < key x) ∧ (∀ q ∈ B, key x < key q.2) ∧
      searchRightish cmp fuel s x = .ok ((A.map Prod.fst).getLast?, false) := by
  haveI := Classical.decEq (Nat × α)
  cases ht : t with
  | nil =>
    subst ht
    have : s.top = none := h.top
    exact ⟨[], [], rfl, by simp, by simp, by simp [searchRightish, this]⟩
  | node l n c d r =>
    rw [← ht]
    have hne : t ≠ .nil := by rw [ht]; simp
    obtain ⟨p, hp⟩ := exists_fresh (addrs t)
    have es : searchRightish cmp fuel s x = rightishLoop cmp s.heap x fuel (root t) := by
      have := h.top
      rw [ht] at this ⊢
      simp only [searchRightish, this, root_node]
    rcases Avl.insert_spec (compares_pair hc) (p, x) t hb hi with ⟨-, q, q1, q2⟩ | ⟨t', i1, -, -, A, B, i5, i6, i7, i8⟩
    · exact absurd q2 (hx q q1)
    · refine ⟨A, B, i5, i7, i8, ?_⟩
      rw [es]
      rcases rightishLoop_ok cmp s.heap s.top x p t [] fuel hf hne h.rep h.top (by simpa [before, after] using h.seg) with
        ⟨ctx, l, a, y, c, d, r, g1, g2, g3, g4, g5, g6, g7, g8, g9⟩ | ⟨ctx', g1, g2, g3, g4, g5, g6⟩
      · rw [i1] at g8; simp at g8
      · rw [i1] at g6
        simp only [Res.ok_bind, upInsert, up] at g6
        obtain ⟨u, e1, e2⟩ := bind_inv g6.symm
        simp only [Res.ok.injEq, Option.some.injEq] at e2
        subst e2
        have e3 := up_inorder e1
        have e4 : addrs u = A.map Prod.fst ++ p :: B.map Prod.fst := by simp [addrs, i6]
        rw [e4] at e3
        have hpA : p ∉ A.map Prod.fst := fun hm => hp (by rw [addrs, i5, List.map_append]; exact List.mem_append_left _ hm)
        have hpB : p ∉ before ctx' := fun hm => hp (by
          simp only [before, after, List.nil_append, List.append_nil] at g4
          rw [← g4]; exact List.mem_append_left _ hm)
        have e5 : A.map Prod.fst = before ctx' := by
          have e3' : A.map Prod.fst ++ p :: B.map Prod.fst = before ctx' ++ p :: after ctx' := by simpa using e3
          have t1 := congrArg (List.takeWhile (· ≠ p)) e3'
          have tw : ∀ (M N : List Nat), p ∉ M → (M ++ p :: N).takeWhile (· ≠ p) = M := by
            intro M N hM
            induction M with
            | nil => simp
            | cons m M ih =>
              simp only [List.mem_cons, not_or] at hM
              have : m ≠ p := Ne.symm hM.1
              rw [List.cons_append, List.takeWhile_cons]
              simp only [ne_eq, this, not_false_eq_true, decide_true, if_true]
              rw [ih hM.2]
          rw [tw _ _ hpA, tw _ _ hpB] at t1
          exact t1
        rw [e5]; exact g2

theorem unique_key {key : α → κ} {L : List (Nat × α)} (hi : Avl.Spec.Increasing (fun q : Nat × α => key q.2) L)
    {q q' : Nat × α} (h : q ∈ L) (h' : q' ∈ L) (e : key q.2 = key q'.2) : q = q' := by
  by_contra hne
  induction L with
  | nil => simp at h
  | cons a L ih =>
    rw [Avl.Spec.Increasing, List.pairwise_cons] at hi
    rcases List.mem_cons.1 h with rfl | h1 <;> rcases List.mem_cons.1 h' with rfl | h2
    · exact hne rfl
    · exact absurd e (ne_of_lt (hi.1 _ h2))
    · exact absurd e (ne_of_gt (hi.1 _ h1))
    · exact ih hi.2 h1 h2

theorem filter_split {β : Type} {P : β → Prop} [DecidablePred P] {A B : List β} {z : β} (hz : P z)
    (hA : ∀ q ∈ A, ¬P q) (hB : ∀ q ∈ B, ¬P q) :
    (A ++ z :: B).filter (fun q => ¬P q) = A ++ B ∧ (A ++ z :: B).find? (fun q => P q) = some z := by
  constructor
  · rw [List.filter_append, List.filter_cons_of_neg (by simpa using hz), List.filter_eq_self.2 (by simpa using hA),
      List.filter_eq_self.2 (by simpa using hB)]
  · rw [List.find?_append, List.find?_eq_none.2 (by simpa using hA), List.find?_cons_of_pos (by simpa using hz)]
    rfl

theorem split_ne {key : α → κ} {A B : List (Nat × α)} {z : Nat × α}
    (hi : Avl.Spec.Increasing (fun q : Nat × α => key q.2) (A ++ z :: B)) :
    (∀ q ∈ A, key q.2 ≠ key z.2) ∧ ∀ q ∈ B, key q.2 ≠ key z.2 := by
  rw [Avl.Spec.Increasing, List.pairwise_append, List.pairwise_cons] at hi
  exact ⟨fun q hq => ne_of_lt (hi.2.2 q hq z (by simp)), fun q hq => ne_of_gt (hi.2.1.1 q hq)⟩

theorem nodup_fst {s : St α} {t : Tree (Nat × α)} (h : Is s t) {A B : List (Nat × α)} {z : Nat × α}
    (e : inorder t = A ++ z :: B) : (∀ q ∈ A, q.1 ≠ z.1) ∧ ∀ q ∈ B, q.1 ≠ z.1 := by
  have := h.nodup
  rw [addrs, e, List.map_append, List.map_cons, List.nodup_append, List.nodup_cons] at this
  refine ⟨fun q hq => this.2.2 q.1 (List.mem_map_of_mem hq) z.1 (by simp), fun q hq e => this.2.1.1 ?_⟩
  rw [← e]; exact List.mem_map_of_mem hq

theorem step_ok {cmp : α → α → Int} {key : α → κ} (hc : Avl.Spec.Compares cmp key) {s : St α} {L : List (Nat × α)}
    (h : Inv key s L) (op : Op α) (ha : Spec.Allowed key L [op]) {fuel : Nat} (hf : 2 * L.length + 2 ≤ fuel) :
    ∃ s', step cmp fuel s op = .ok (s', (Spec.step key L op).2) ∧ Inv key s' (Spec.step key L op).1 ∧
      (Spec.step key L op).1.length ≤ L.length + 1 := by
  haveI := Classical.decEq (Nat × α)
  obtain ⟨t, h, hb, rfl, hi⟩ := h
  have hlen : (addrs t).length = (inorder t).length := by simp [addrs]
  have hh := height_le t
  cases op with
  | insert p junk x =>
    have hp : s.heap p = none := by
      by_contra hne
      exact ha.1 (h.only p hne)
    rcases Avl.insert_spec (compares_pair hc) (p, x) t hb hi with ⟨i1, q, q1, q2⟩ | ⟨t', i1, i2, -, A, B, i5, i6, i7, i8⟩
    · have e : Spec.step key (inorder t) (.insert p junk x) = (inorder t, .node none) := if_pos ⟨q, q1, q2⟩
      have := itemInsert_ok cmp h hp junk x i1 (fuel := fuel) (by omega)
      dsimp only at this
      rw [e]
      exact ⟨s, by simp [step, this], ⟨t, h, hb, rfl, hi⟩, by simp⟩
    · have hne : ¬∃ q ∈ inorder t, key q.2 = key x := by
        rintro ⟨q, q1, q2⟩
        rw [i5, List.mem_append] at q1
        rcases q1 with q1 | q1
        · exact absurd q2 (ne_of_lt (i7 q q1))
        · exact absurd q2 (ne_of_gt (i8 q q1))
      have e : Spec.step key (inorder t) (.insert p junk x) = (A ++ (p, x) :: B, .node (some p)) := by
        rw [Spec.step, if_neg hne, i5, List.filter_append, List.filter_append,
          List.filter_eq_self.2 (by simpa using i7), List.filter_eq_nil_iff.2 (by
            intro q hq; simpa using le_of_lt (i8 q hq)),
          List.filter_eq_nil_iff.2 (by intro q hq; simpa using le_of_lt (i7 q hq)),
          List.filter_eq_self.2 (by simpa using i8)]
        simp
      have := itemInsert_ok cmp h hp junk x i1 (fuel := fuel) (by omega)
      dsimp only at this
      obtain ⟨s', e1, e2⟩ := this
      rw [e]
      refine ⟨s', by simp [step, e1], ⟨t', e2, i2, i6, ?_⟩, by simp [i5]; omega⟩
      rw [i5, Avl.Spec.Increasing, List.pairwise_append] at hi
      rw [Avl.Spec.Increasing, List.pairwise_append, List.pairwise_cons]
      refine ⟨hi.1, ⟨i8, hi.2.1⟩, fun a haA b hbB => ?_⟩
      rcases List.mem_cons.1 hbB with rfl | hbB
      · exact i7 a haA
      · exact hi.2.2 a haA b hbB
  | deleteItem x =>
    by_cases hx : ∃ q ∈ inorder t, key q.2 = key x
    · obtain ⟨ctx, l, a, y, c, d, r, t', g1, g2, g3, g4, g5, g6, g7, g8, ⟨A, B, g9, g10⟩, g11⟩ :=
        focus hc h hb hi hx (fuel := fuel) (by omega)
      obtain ⟨s', e1, e2⟩ := nodeDelete_ok h g1 g2 g3 (fuel := fuel) (by omega) g8
      rw [g9] at hi
      have hk := split_ne hi
      have hs := filter_split (P := fun q : Nat × α => key q.2 = key x) (z := (a, y)) g5 (by rw [← g5]; exact hk.1)
        (by rw [← g5]; exact hk.2)
      have e : Spec.step key (inorder t) (.deleteItem x) = (A ++ B, .item (some y)) := by
        simp only [Spec.step]
        rw [g9, hs.2]
        have : (fun q : Nat × α => decide (key q.2 ≠ key x)) = fun q => decide (¬key q.2 = key x) := rfl
        rw [this, hs.1]; rfl
      rw [e]
      refine ⟨s', ?_, ⟨t', e2, g7, g10, ?_⟩, by simp [g9]; omega⟩
      · simp [step, itemDelete, itemSearch, g11, e1]
      · exact hi.sublist (List.Sublist.append_left (List.sublist_cons_self _ _) _)
    · have hx' : ∀ q ∈ inorder t, key q.2 ≠ key x := fun q hq e => hx ⟨q, hq, e⟩
      obtain ⟨A, B, -, -, -, g4⟩ := search_none hc h hb hi hx' (fuel := fuel) (by omega)
      have e : Spec.step key (inorder t) (.deleteItem x) = (inorder t, .item none) := by
        simp only [Spec.step]
        rw [List.filter_eq_self.2 (by simpa using hx'), List.find?_eq_none.2 (by simpa using hx')]
        rfl
      rw [e]
      exact ⟨s, by simp [step, itemDelete, itemSearch, g4, nodeDelete], ⟨t, h, hb, rfl, hi⟩, by simp⟩
  | deleteNode p =>
    obtain ⟨⟨p', y0⟩, hq, rfl⟩ := List.mem_map.1 ha.1
    obtain ⟨ctx, l, a, y, c, d, r, t', g1, g2, g3, g4, g5, g6, g7, g8, ⟨A, B, g9, g10⟩, g11⟩ :=
      focus hc h hb hi (x := y0) ⟨_, hq, rfl⟩ (fuel := fuel) (by omega)
    have eq := unique_key hi hq g6 g5.symm
    simp only [Prod.mk.injEq] at eq
    obtain ⟨rfl, rfl⟩ := eq
    obtain ⟨s', e1, e2⟩ := nodeDelete_ok h g1 g2 g3 (fuel := fuel) (by omega) g8
    have hk := nodup_fst h g9
    rw [g9] at hi
    have hs := filter_split (P := fun q : Nat × α => q.1 = p') (z := (p', y0)) rfl hk.1 hk.2
    have e : Spec.step key (inorder t) (.deleteNode p') = (A ++ B, .item (some y0)) := by
      simp only [Spec.step]
      rw [g9, hs.2]
      have : (fun q : Nat × α => decide (q.1 ≠ p')) = fun q => decide (¬q.1 = p') := rfl
      rw [this, hs.1]; rfl
    rw [e]
    refine ⟨s', by simp [step, e1], ⟨t', e2, g7, g10, ?_⟩, by simp [g9]; omega⟩
    exact hi.sublist (List.Sublist.append_left (List.sublist_cons_self _ _) _)
  | purge =>
    have := purgeLoop_ok (s := s) (inorder t) fuel (by omega) h.seg h.nodup fun q hq => rep_item h.rep hq
    have ehd : s.head = ((inorder t).map Prod.fst).head? := h.head
    refine ⟨⟨fun _ => none, none, none, none⟩, ?_, ⟨.nil, ?_, trivial, rfl, List.Pairwise.nil⟩, by simp [Spec.step]⟩
    · simp only [step, purge, ehd, this, Res.bind_ok, Res.ok.injEq, Prod.mk.injEq, St.mk.injEq, and_true, Spec.step]
      funext b
      split
      · rfl
      · rename_i hb
        by_contra hne
        exact hb (h.only b hne)
    · exact ⟨trivial, rfl, by simp, trivial, rfl, rfl, fun b hb => absurd rfl hb⟩

theorem inv_empty (key : α → κ) : Inv key (empty : St α) [] :=
  ⟨.nil, ⟨trivial, rfl, by simp, trivial, rfl, rfl, fun b hb => absurd rfl hb⟩, trivial, rfl, List.Pairwise.nil⟩

theorem run_ok {cmp : α → α → Int} {key : α → κ} (hc : Avl.Spec.Compares cmp key) (ops : List (Op α)) :
    ∀ {s : St α} {L : List (Nat × α)} {fuel : Nat}, Inv key s L → Spec.Allowed key L ops →
      2 * (L.length + ops.length) + 2 ≤ fuel →
      ∃ s', run cmp fuel s ops = .ok (s', (Spec.run key L ops).2) ∧ Inv key s' (Spec.run key L ops).1 ∧
        (Spec.run key L ops).1.length ≤ L.length + ops.length := by
  induction ops with
  | nil => intro s L fuel h _ _; exact ⟨s, rfl, h, by simp [Spec.run]⟩
  | cons op ops ih =>
    intro s L fuel h ha hf
    simp only [List.length_cons] at hf
    obtain ⟨s1, e1, e2, e3⟩ := step_ok hc h op ⟨ha.1, trivial⟩ (fuel := fuel) (by omega)
    obtain ⟨s2, f1, f2, f3⟩ := ih e2 ha.2 (fuel := fuel) (by omega)
    refine ⟨s2, ?_, f2, ?_⟩
    · simp only [run, e1, Res.bind_ok, f1]; rfl
    · simp only [Spec.run, List.length_cons] at f3 ⊢; omega

/-- Every sequence of calls runs without touching memory outside the nodes and ends; the calls return what the
specification says, and the memory then holds the sorted doubly linked list of the remaining nodes and no other node. -/
theorem C97_memory {cmp : α → α → Int} {key : α → κ} (hc : Avl.Spec.Compares cmp key) (ops : List (Op α))
    (ha : Spec.Allowed key [] ops) (fuel : Nat) (hf : 2 * ops.length + 2 ≤ fuel) :
    ∃ s, run cmp fuel empty ops = .ok (s, (Spec.run key [] ops).2) ∧ Spec.Holds s (Spec.run key [] ops).1 := by
  obtain ⟨s, e1, e2, -⟩ := run_ok hc ops (inv_empty key) ha (fuel := fuel) (by simpa using hf)
  exact ⟨s, e1, holds_of e2⟩

/-- The searches after every sequence of calls: the number of items, the node of an item, and the last node that is not
after the item. -/
theorem C97_search {cmp : α → α → Int} {key : α → κ} (hc : Avl.Spec.Compares cmp key) (ops : List (Op α))
    (ha : Spec.Allowed key [] ops) (fuel : Nat) (hf : 2 * ops.length + 2 ≤ fuel) (s : St α) (rs : List (Ret α))
    (hr : run cmp fuel empty ops = .ok (s, rs)) (x : α) :
    let L := (Spec.run key [] ops).1
    count s = .ok L.length ∧
    itemSearch cmp fuel s x = .ok ((L.find? fun q => key q.2 = key x).map Prod.fst) ∧
    itemSearchRight cmp fuel s x =
      .ok ((L.filter fun q => key q.2 ≤ key x).getLast?.map Prod.fst, decide (∃ q ∈ L, key q.2 = key x)) := by
  haveI := Classical.decEq (Nat × α)
  obtain ⟨s', e1, e2, e3⟩ := run_ok hc ops (inv_empty key) ha (fuel := fuel) (by simpa using hf)
  rw [hr] at e1
  simp only [Res.ok.injEq, Prod.mk.injEq] at e1
  obtain ⟨rfl, -⟩ := e1
  simp only [List.length_nil, Nat.zero_add] at e3
  generalize (Spec.run key [] ops).1 = L at e2 e3
  obtain ⟨t, h, hb, rfl, hi⟩ := e2
  dsimp only
  have hlen : (addrs t).length = (inorder t).length := by simp [addrs]
  have hh := height_le t
  refine ⟨?_, ?_⟩
  · rw [count, h.top, rep_count h.rep, Avl.count_eq hb]
  by_cases hx : ∃ q ∈ inorder t, key q.2 = key x
  · obtain ⟨ctx, l, a, y, c, d, r, t', g1, g2, g3, g4, g5, g6, g7, g8, ⟨A, B, g9, g10⟩, g11⟩ :=
      focus hc h hb hi hx (fuel := fuel) (by omega)
    have hi' := hi
    rw [g9] at hi'
    have hk := split_ne hi'
    have hs := filter_split (P := fun q : Nat × α => key q.2 = key x) (z := (a, y)) g5 (by rw [← g5]; exact hk.1)
      (by rw [← g5]; exact hk.2)
    refine ⟨by rw [g9, hs.2]; simp [itemSearch, g11], ?_⟩
    have hfil : (inorder t).filter (fun q => key q.2 ≤ key x) = A ++ [(a, y)] := by
      rw [Avl.Spec.Increasing, List.pairwise_append, List.pairwise_cons] at hi'
      rw [g9, List.filter_append, List.filter_cons_of_pos (by simpa using le_of_eq g5), List.filter_eq_self.2,
        List.filter_eq_nil_iff.2]
      · intro q hq
        have := hi'.2.1.1 q hq
        rw [g5] at this
        simpa using this
      · intro q hq
        have := hi'.2.2 q hq (a, y) (by simp)
        rw [g5] at this
        simpa using le_of_lt this
    have hrm : rightmostLoop cmp s.heap x fuel true (some a) (some a) = .ok (some a) := by
      obtain ⟨⟨pv, nx, ea⟩, -, hrr⟩ := g1
      refine rightmostLoop_ok r ?_ ea rfl hrr fun q hq => ?_
      · have := height_le r
        have h2 : (addrs r).length ≤ (addrs t).length := by rw [← g3]; simp; omega
        omega
      · intro e
        have e' : key q.2 = key x := by
          have h1 := (hc.lt x q.2).not.1 (by omega)
          have h2 := (hc.gt x q.2).not.1 (by omega)
          exact le_antisymm (not_lt.1 h1) (not_lt.1 h2)
        have hn := h.nodup
        rw [← g3] at hn
        have hqr : q.1 ∈ addrs r := List.mem_map_of_mem hq
        have hqa : q.1 ≠ a := by
          rintro rfl
          simp only [List.append_assoc, List.cons_append, List.nodup_append, List.nodup_cons] at hn
          exact hn.2.1.2.1.1 (by simp [hqr])
        obtain ⟨z, hz1, hz2⟩ : ∃ z ∈ inorder t, z.1 = q.1 := by
          have : q.1 ∈ addrs t := by rw [← g3]; simp [hqr]
          obtain ⟨z, hz, e⟩ := List.mem_map.1 this
          exact ⟨z, hz, e⟩
        obtain ⟨n1, m1, m2⟩ := rep_item h.rep (a := z.1) (y := z.2) hz1
        obtain ⟨n2, m3, m4⟩ := rep_item hrr (a := q.1) (y := q.2) hq
        rw [hz2, m3] at m1
        simp only [Option.some.injEq] at m1
        subst m1
        have : key z.2 = key (a, y).2 := by rw [← m2, m4, e']; exact g5.symm
        have := unique_key hi hz1 g6 this
        rw [this] at hz2
        exact hqa hz2.symm
    rw [hfil]
    simp [itemSearchRight, g11, hrm, hx]
  · have hx' : ∀ q ∈ inorder t, key q.2 ≠ key x := fun q hq e => hx ⟨q, hq, e⟩
    obtain ⟨A, B, g1, g2, g3, g4⟩ := search_none hc h hb hi hx' (fuel := fuel) (by omega)
    have hfil : (inorder t).filter (fun q => key q.2 ≤ key x) = A := by
      rw [g1, List.filter_append, List.filter_eq_self.2, List.filter_eq_nil_iff.2]
      · simp
      · intro q hq; simpa using g3 q hq
      · intro q hq; simpa using le_of_lt (g2 q hq)
    refine ⟨?_, ?_⟩
    · rw [List.find?_eq_none.2 (by simpa using hx')]
      simp [itemSearch, g4]
    · rw [hfil]
      simp only [itemSearchRight, g4, Res.bind_ok, hx, decide_false, Bool.false_eq_true, if_false]
      simp

/-- A comparison of numbers, as the code has them: by the sign of the result. -/
def exCmp (a b : Nat) : Int := (a : Int) - (b : Int)

/-- The content of fresh memory in the example. -/
def exJunk : Node Nat := ⟨some 77, some 78, some 79, some 80, some 81, 82, 83, 84⟩

/-- The calls of the example. -/
def exOps : List (Op Nat) :=
  [.insert 10 exJunk 5, .insert 11 exJunk 3, .insert 12 exJunk 4, .insert 13 exJunk 4, .insert 14 exJunk 9,
    .insert 15 exJunk 7, .deleteNode 12, .insert 12 exJunk 1, .deleteItem 5, .deleteItem 6]

example : Avl.Spec.Compares exCmp (id : Nat → Nat) := by
  constructor <;> intro a b <;> simp only [exCmp, id] <;> omega

example : Spec.Allowed (id : Nat → Nat) [] exOps := by
  simp [exOps, Spec.Allowed, Spec.step]

example : Spec.run (id : Nat → Nat) [] exOps = ([(12, 1), (11, 3), (15, 7), (14, 9)],
    [.node (some 10), .node (some 11), .node (some 12), .node none, .node (some 14), .node (some 15), .item (some 4),
      .node (some 12), .item (some 5), .item none]) := by decide

/-- The model runs on the example, through rotations and the case of a node with two children. -/
example : (run exCmp 30 empty (exOps ++ [.purge])).bind (fun r => .ok (r.2.getLast?, r.1.head, r.1.heap 12)) =
    .ok (some (.items [1, 3, 7, 9]), none, none) := by decide +kernel

end AvlPtr
