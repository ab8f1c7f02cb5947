import Verif.Lemmas.AvlDelete

/-!
Deletion of nodes and items, searching and purging of a whole tree at the level of pointers.
-/

namespace AvlPtr
open Avl (Tree inorder)

variable {α κ : Type} [LinearOrder κ]

theorem rep_item {h : Heap α} {q} {t : Tree (Nat × α)} (hr : Rep h q t) {a : Nat} {y : α} (hm : (a, y) ∈ inorder t) :
    ∃ n, h a = some n ∧ n.item = y := by
  induction t generalizing q with
  | nil => simp [inorder] at hm
  | node l x c d r ihl ihr =>
    obtain ⟨⟨pv, nx, e⟩, hl, hr⟩ := hr
    simp only [inorder, List.mem_append, List.mem_cons] at hm
    rcases hm with hm | rfl | hm
    · exact ihl hl hm
    · exact ⟨_, e, rfl⟩
    · exact ihr hr hm

theorem compares_pair {cmp : α → α → Int} {key : α → κ} (hc : Avl.Spec.Compares cmp key) :
    Avl.Spec.Compares (pairCmp cmp) (fun q : Nat × α => key q.2) := by
  constructor
  · intro a b; exact hc.1 a.2 b.2
  · intro a b; exact hc.2 a.2 b.2

theorem height_le (t : Tree (Nat × α)) : Avl.height t ≤ (addrs t).length := by
  induction t with
  | nil => simp [Avl.height]
  | node l x c d r ihl ihr => simp [Avl.height]; omega

/-- Where the search for an item that is in the tree ends. -/
theorem focus {cmp : α → α → Int} {key : α → κ} (hc : Avl.Spec.Compares cmp key) {s : St α} {t : Tree (Nat × α)} (h : Is s t)
    (hb : Avl.Spec.Balanced t) (hi : Avl.Spec.Increasing (fun q : Nat × α => key q.2) (inorder t)) {x : α}
    (hx : ∃ q ∈ inorder t, key q.2 = key x) {fuel : Nat} (hf : Avl.height t ≤ fuel) :
    ∃ ctx l a y c d r t', Rep s.heap (par ctx) (.node l (a, y) c d r) ∧ RepC s.heap s.top (some a) ctx ∧
      before ctx ++ (addrs l ++ a :: addrs r) ++ after ctx = addrs t ∧ ctx.length + Avl.height l ≤ 2 * (addrs t).length ∧
      key y = key x ∧ (a, y) ∈ inorder t ∧ Avl.Spec.Balanced t' ∧
      (removeRoot l r).bind (up ctx) = .ok t' ∧ (∃ A B, inorder t = A ++ (a, y) :: B ∧ inorder t' = A ++ B) ∧
      searchRightish cmp fuel s x = .ok (some a, true) := by
  haveI := Classical.decEq (Nat × α)
  have hc' := compares_pair hc
  have hne : t ≠ .nil := by rintro rfl; simp [inorder] at hx
  have hhe := height_le t
  obtain ⟨a0, ea0⟩ : ∃ a, s.top = some a := by
    cases t with
    | nil => exact absurd rfl hne
    | node _ n _ _ _ => exact ⟨_, h.top⟩
  have es : ∀ fuel, searchRightish cmp fuel s x = rightishLoop cmp s.heap x fuel (root t) := by
    intro fuel; rw [searchRightish, ea0, ← h.top, ea0]
  rcases rightishLoop_ok cmp s.heap s.top x 0 t [] fuel hf hne h.rep h.top (by simpa [before, after] using h.seg) with
    ⟨ctx, l, a, y, c, d, r, g1, g2, g3, g4, g5, g6, g7, g8, g9⟩ | ⟨ctx', g1, g2, g3, g4, g5, g6⟩
  · simp only [before, after, List.nil_append, List.append_nil, List.length_nil, Nat.zero_add] at g4 g5
    have hh : Avl.height l ≤ (addrs t).length := by
      have := height_le l
      rw [← g4]; simp; omega
    rcases Avl.delete_spec hc' (0, x) t hb hi with ⟨-, d2⟩ | ⟨z, t', d1, d2, -, d4, A, B, d5, d6⟩
    · obtain ⟨q, q1, q2⟩ := hx
      exact absurd q2 (d2 q q1)
    · rw [d1, Res.ok_bind] at g9
      simp only [upDelete, up, Res.ok_bind] at g9
      obtain ⟨v, v1, v2⟩ := bind_inv g9.symm
      obtain ⟨u, u1, u2⟩ := bind_inv v2
      simp only [Res.ok.injEq, Option.some.injEq, Prod.mk.injEq] at u2
      obtain ⟨rfl, rfl⟩ := u2
      refine ⟨ctx, l, a, y, c, d, r, u, g2, g3, g4, by omega, d4, g7, d2, ?_, ⟨A, B, d5, d6⟩, ?_⟩
      · rw [v1]; exact u1
      · rw [es]; exact g1
  · exfalso
    rcases Avl.insert_spec hc' (0, x) t hb hi with ⟨i1, -⟩ | ⟨t', -, -, -, A, B, i5, -, i7, i8⟩
    · rw [i1, Res.ok_bind, upInsert] at g6
      obtain ⟨v, -, v2⟩ := bind_inv g6.symm
      simp at v2
    · obtain ⟨q, q1, q2⟩ := hx
      rw [i5, List.mem_append] at q1
      rcases q1 with q1 | q1
      · exact absurd q2 (ne_of_lt (i7 q q1))
      · exact absurd q2 (ne_of_gt (i8 q q1))

theorem nodeDelete_ok {s : St α} {t t' l r : Tree (Nat × α)} (h : Is s t) {ctx : List (Frame α)} {a : Nat} {y : α} {c d : Nat}
    (hr : Rep s.heap (par ctx) (.node l (a, y) c d r)) (hc : RepC s.heap s.top (some a) ctx)
    (hl : before ctx ++ (addrs l ++ a :: addrs r) ++ after ctx = addrs t) {fuel : Nat}
    (hf : ctx.length + Avl.height l ≤ fuel) (hu : (removeRoot l r).bind (up ctx) = .ok t') :
    ∃ s', nodeDelete fuel s (some a) = .ok (s', some y) ∧ Is s' t' := by
  have hl' : (before ctx ++ addrs l) ++ a :: (addrs r ++ after ctx) = addrs t := by rw [← hl]; simp
  have hnd := h.nodup
  have hperm : ((addrs l ++ a :: addrs r) ++ caddrs ctx).Nodup := by
    rw [← (perm_ctx ctx _).nodup_iff, hl]; exact hnd
  obtain ⟨⟨pv0, nx0, e0⟩, hrl, hrr⟩ := hr
  have hseg := h.seg
  rw [← hl'] at hseg hnd
  obtain ⟨s1, u1, u2⟩ := unthread_ok hseg hnd (by rw [hl']; exact h.head) (by rw [hl']; exact h.tail)
    (fun b hb => live_mem h (by rw [hl'] at hb; exact hb))
  obtain ⟨pv, nx, e1⟩ := shape_eq e0 (u2.shp a)
  have hA : (addrs r ++ after ctx).head? ≠ some a := fun e => by
    have := List.mem_of_head? e
    rw [List.nodup_append, List.nodup_cons] at hnd
    exact hnd.2.1.1 this
  have hB : (before ctx ++ addrs l).getLast? ≠ some a := fun e => by
    have := List.mem_of_getLast? e
    rw [List.nodup_append, List.nodup_cons] at hnd
    exact hnd.2.2 a this a (by simp) rfl
  have t1 : thread s1.heap a = some ((before ctx ++ addrs l).getLast?, (addrs r ++ after ctx).head?) := by
    rw [u2.thr a, seg_at hseg]
    simp [hA, hB]
  have epv : pv = (before ctx ++ addrs l).getLast? := (node_of_thread e1 t1).1
  obtain ⟨s2, ctx2, v, v1, v2, v3, v4, v5, v6, v7⟩ := unlinkTree_ok e1 (rep_shape hrl fun b _ => u2.shp b)
    (rep_shape hrr fun b _ => u2.shp b) (by rw [u2.top]; exact repC_shape hc fun b _ => u2.shp b) hperm epv fuel
  have hseg2 : Seg s1.heap none ((before ctx ++ addrs l) ++ (addrs r ++ after ctx)) none := seg_remove hseg hnd u2.thr
  have hnd2 : ((before ctx ++ addrs l) ++ (addrs r ++ after ctx)).Nodup :=
    hnd.sublist (List.Sublist.append_left (List.sublist_cons_self _ _) _)
  have ha2 : a ∉ (before ctx ++ addrs l) ++ (addrs r ++ after ctx) := by
    rw [List.nodup_append, List.nodup_cons] at hnd
    intro hm
    rcases List.mem_append.1 hm with hm | hm
    · exact hnd.2.2 a hm a (by simp) rfl
    · exact hnd.2.1.1 hm
  rw [hu] at v7
  obtain ⟨s3, w1, w2, w3, w4⟩ := rebalance_ok (fuel := fuel) (by omega) v2 v3
    (by rw [← (perm_ctx ctx2 _).nodup_iff, v5]; exact hnd2) v7
  have et : addrs t' = (before ctx ++ addrs l) ++ (addrs r ++ after ctx) := by rw [up_inorder v7, v5]
  have hsame := v4.trans w4
  have a3 : s3.heap a ≠ none := by rw [hsame.none]; simp [e1]
  obtain ⟨n3, e3⟩ := Option.ne_none_iff_exists'.1 a3
  refine ⟨{ s3 with heap := fun b => if b = a then none else s3.heap b }, ?_, ?_, w3, ?_, ?_, ?_, ?_, ?_⟩
  · simp only [nodeDelete, load_of e0, Res.bind_ok, nodeUnlink, u1, v1, w1, nodeFree, load_of e3]
  · refine rep_frame w2 fun b hb => if_neg ?_
    rintro rfl
    rw [et] at hb
    exact ha2 hb
  · rw [et]; exact hnd2
  · rw [et]
    refine seg_congr hseg2 fun b hb => ?_
    have hba : b ≠ a := by rintro rfl; exact ha2 hb
    rw [← hsame.thread b]
    simp [thread, hba]
  · rw [et]; exact hsame.head.trans u2.head
  · rw [et]; exact hsame.tail.trans u2.tail
  · intro b hb
    have hba : b ≠ a := by rintro rfl; simp at hb
    simp only [hba, if_false] at hb
    rw [hsame.none] at hb
    have : s.heap b ≠ none := by
      intro e
      have := u2.shp b
      rw [e] at this
      simp at this
      exact hb this
    have := h.only b this
    rw [← hl'] at this
    rw [et]
    simp only [List.mem_append, List.mem_cons] at this ⊢
    tauto

theorem rightmostLoop_ok {cmp : α → α → Int} {h : Heap α} {x : α} {res : Option Nat} (t : Tree (Nat × α)) :
    ∀ {a : Nat} {n : Node α} {first : Bool} {fuel : Nat}, Avl.height t < fuel → h a = some n →
      (if first then n.right else n.left) = root t → Rep h (some a) t → (∀ q ∈ inorder t, cmp x q.2 ≠ 0) →
      rightmostLoop cmp h x fuel first (some a) res = .ok res := by
  induction t with
  | nil =>
    intro a n first fuel hf e hn _ _
    obtain ⟨fuel, rfl⟩ : ∃ k, fuel = k + 1 := ⟨fuel - 1, by omega⟩
    rw [rightmostLoop, load_of e]
    simp [hn]
  | node l z c d r ihl ihr =>
    intro a n first fuel hf e hn hr hq
    obtain ⟨fuel, rfl⟩ : ∃ k, fuel = k + 1 := ⟨fuel - 1, by omega⟩
    obtain ⟨⟨pv, nx, e1⟩, hl, -⟩ := hr
    simp only [Avl.height] at hf
    have hz : cmp x z.2 ≠ 0 := hq z (by simp [inorder])
    have := ihl (first := false) (fuel := fuel) (by omega) e1 rfl hl fun q h1 => hq q (by simp [inorder, h1])
    rw [rightmostLoop, load_of e]
    simp only [Res.bind_ok, hn, root_node, load_of e1]
    cases first <;> simpa [hz] using this

theorem purgeLoop_ok {s : St α} {pv : Option Nat} (L : List (Nat × α)) (fuel : Nat) (hf : L.length ≤ fuel)
    (hs : Seg s.heap pv (L.map Prod.fst) none) (hn : (L.map Prod.fst).Nodup)
    (hi : ∀ q ∈ L, ∃ n, s.heap q.1 = some n ∧ n.item = q.2) :
    purgeLoop fuel s (L.map Prod.fst).head? =
      .ok ({ s with heap := fun b => if b ∈ L.map Prod.fst then none else s.heap b }, L.map Prod.snd) := by
  induction L generalizing s fuel pv with
  | nil => cases fuel <;> simp [purgeLoop]
  | cons q L ih =>
    obtain ⟨a, y⟩ := q
    obtain ⟨fuel, rfl⟩ : ∃ k, fuel = k + 1 := ⟨fuel - 1, by simp at hf; omega⟩
    obtain ⟨n, e1, e2⟩ := hi (a, y) (by simp)
    obtain ⟨s1, s2⟩ := hs
    have en : n.next = (L.map Prod.fst).head? := by simpa using (node_of_thread e1 s1).2
    simp only [List.map_cons, List.nodup_cons] at hn
    have := ih (s := { s with heap := fun b => if b = a then none else s.heap b }) fuel (by simpa using hf)
      (seg_congr s2 fun b hb => by
        have : b ≠ a := by rintro rfl; exact hn.1 hb
        simp [thread, this]) hn.2 (fun q hq => by
        have : q.1 ≠ a := by rintro rfl; exact hn.1 (List.mem_map_of_mem hq)
        simpa [this] using hi q (by simp [hq]))
    simp only [List.map_cons, List.head?_cons, purgeLoop, load_of e1, Res.bind_ok, nodeFree, en, this, e2, Res.ok.injEq,
      Prod.mk.injEq, St.mk.injEq, and_true]
    funext b
    by_cases hb : b = a
    · simp [hb]
    · simp only [List.mem_cons, hb, false_or, if_false]

end AvlPtr
