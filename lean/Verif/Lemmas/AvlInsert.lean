import Verif.Lemmas.AvlSearch

/-!
Insertion of a node at the level of pointers.
-/

namespace AvlPtr
open Avl (Tree inorder)

variable {α : Type}

/-- The state is a tree without loose ends: the nodes in the memory are those of the tree, each one once, linked in their
order. -/
structure Is (s : St α) (t : Tree (Nat × α)) : Prop where
  rep : Rep s.heap none t
  top : s.top = root t
  nodup : (addrs t).Nodup
  seg : Seg s.heap none (addrs t) none
  head : s.head = (addrs t).head?
  tail : s.tail = (addrs t).getLast?
  only : ∀ b, s.heap b ≠ none → b ∈ addrs t

/-- The new node `p` has been attached at the hole of the path. -/
structure Attached (s s2 : St α) (ctx : List (Frame α)) (p : Nat) (x : α) : Prop where
  node : s2.heap p = some ⟨(before ctx).getLast?, (after ctx).head?, par ctx, none, none, x, 1, 1⟩
  shp : ∀ b ∈ caddrs ctx, (s2.heap b).map shape = (place ctx (some p) s.heap b).map shape
  thr : ∀ b ∈ caddrs ctx, thread s2.heap b = (thread s.heap b).map fun q =>
    (if (after ctx).head? = some b then some p else q.1, if (before ctx).getLast? = some b then some p else q.2)
  top : s2.top = s.top
  head : s2.head = (before ctx ++ p :: after ctx).head?
  tail : s2.tail = (before ctx ++ p :: after ctx).getLast?
  only : ∀ b, b ≠ p → s2.heap b ≠ none → s.heap b ≠ none

theorem seg_insert {h h' : Heap α} {B A : List Nat} {p : Nat} (hs : Seg h none (B ++ A) none) (hn : (B ++ A).Nodup)
    (hp : thread h' p = some (B.getLast?, A.head?))
    (ht : ∀ b ∈ B ++ A, thread h' b = (thread h b).map fun q =>
      (if A.head? = some b then some p else q.1, if B.getLast? = some b then some p else q.2)) :
    Seg h' none (B ++ p :: A) none := by
  rw [seg_append] at hs
  rw [List.nodup_append] at hn
  obtain ⟨n1, n2, n3⟩ := hn
  have id : ∀ o : Option (Option Nat × Option Nat), o.map (fun q => (q.1, q.2)) = o := by
    intro o; cases o <;> rfl
  rw [seg_append]
  refine ⟨seg_next hs.1 n1 fun b hb => ?_, by rw [hp]; simp, seg_prev hs.2 n2 fun b hb => ?_⟩
  · have : A.head? ≠ some b := fun e => n3 b hb b (List.mem_of_head? e) rfl
    rw [ht b (by simp [hb])]
    simp only [this, if_false]
    split
    · rfl
    · exact id _
  · have : B.getLast? ≠ some b := fun e => n3 b (List.mem_of_getLast? e) b hb rfl
    rw [ht b (by simp [hb])]
    simp only [this, if_false]
    split
    · rfl
    · exact id _

theorem Same.thread {s s' : St α} (h : Same s s') (b : Nat) : thread s'.heap b = thread s.heap b := by
  have := h.links b
  unfold AvlPtr.thread
  cases e : s'.heap b <;> cases e' : s.heap b <;> simp [e, e', AvlPtr.links] at this ⊢
  exact ⟨this.1, this.2.1⟩

theorem Same.none {s s' : St α} (h : Same s s') (b : Nat) : s'.heap b ≠ none ↔ s.heap b ≠ none := by
  have := h.links b
  cases e : s'.heap b <;> cases e' : s.heap b <;> simp [e, e'] at this ⊢

theorem up_inorder {ctx : List (Frame α)} {t t' : Tree (Nat × α)} (h : up ctx t = .ok t') :
    addrs t' = before ctx ++ addrs t ++ after ctx := by
  induction ctx generalizing t with
  | nil => cases h; simp [before, after]
  | cons f ctx ih =>
    cases f with
    | left a x r =>
      obtain ⟨u, e1, e2⟩ := bind_inv h
      rw [ih e2]
      simp [addrs, balance_inorder e1, before, after]
    | right l a x =>
      obtain ⟨u, e1, e2⟩ := bind_inv h
      rw [ih e2]
      simp [addrs, balance_inorder e1, before, after]

theorem mem_ctx (ctx : List (Frame α)) (b : Nat) : b ∈ before ctx ++ after ctx ↔ b ∈ caddrs ctx := by
  have := (perm_ctx ctx []).mem_iff (a := b)
  simpa using this

theorem nodup_ctx (ctx : List (Frame α)) : (before ctx ++ after ctx).Nodup ↔ (caddrs ctx).Nodup := by
  have := (perm_ctx ctx []).nodup_iff
  simpa using this

theorem attached_ok {s s2 : St α} {ctx : List (Frame α)} {p : Nat} {x : α} {t' : Tree (Nat × α)} {fuel : Nat}
    (hne : ctx ≠ []) (ha : Attached s s2 ctx p x) (hc : RepC s.heap s.top none ctx)
    (hs : Seg s.heap none (before ctx ++ after ctx) none) (hn : (caddrs ctx).Nodup) (hp : p ∉ caddrs ctx)
    (honly : ∀ b, b ≠ p → s.heap b ≠ none → b ∈ caddrs ctx)
    (hf : ctx.length ≤ fuel) (hu : up ctx (.node .nil (p, x) 1 1 .nil) = .ok t') :
    ∃ s', rebalance fuel s2 (par ctx) = .ok s' ∧ Is s' t' := by
  have h1 : Rep s2.heap (par ctx) (.node .nil (p, x) 1 1 .nil) := ⟨⟨_, _, ha.node⟩, trivial, trivial⟩
  have h2 : RepC s2.heap s2.top (some p) ctx := by
    have := repC_place (h := s.heap) (v := some p) hc hn (fun b _ => rfl)
    rw [if_neg hne, ← ha.top] at this
    exact repC_shape this ha.shp
  obtain ⟨s', e1, e2, e3, e4⟩ := rebalance_ok (t := .node .nil (p, x) 1 1 .nil) hf h1 h2
    (by simpa using ⟨hp, hn⟩) hu
  have ei := up_inorder hu
  have ei' : addrs t' = before ctx ++ p :: after ctx := by rw [ei]; simp
  refine ⟨s', e1, e2, e3, ?_, ?_, ?_, ?_, ?_⟩
  · rw [ei, (perm_ctx ctx _).nodup_iff]
    simpa using ⟨hp, hn⟩
  · rw [ei']
    refine seg_congr (h := s2.heap) (seg_insert hs ((nodup_ctx ctx).2 hn) ?_ ?_) fun b _ => e4.thread b
    · simp [thread, ha.node]
    · intro b hb
      exact ha.thr b ((mem_ctx ctx b).1 hb)
  · rw [e4.head, ha.head, ei']
  · rw [e4.tail, ha.tail, ei']
  · intro b hb
    rw [e4.none] at hb
    rw [ei', List.mem_append, List.mem_cons]
    by_cases e : b = p
    · exact .inr (.inl e)
    · have := (mem_ctx ctx b).2 (honly b e (ha.only b e hb))
      rw [List.mem_append] at this
      tauto

theorem shape_upd {h : Heap α} {a f b} (e : ∀ n, shape (f n) = shape n) : (upd h a f b).map shape = (h b).map shape := by
  unfold upd
  split
  · cases h b <;> simp [e]
  · rfl

theorem thread_upd {h : Heap α} {a f b} (e : ∀ n, ((f n).prev, (f n).next) = (n.prev, n.next)) :
    thread (upd h a f) b = thread h b := by
  unfold thread upd
  split
  · cases h b <;> simp_all
  · rfl

theorem thread_upd_ne {h : Heap α} {a f b} (e : b ≠ a) : thread (upd h a f) b = thread h b := by
  simp [thread, upd, e]

theorem node_of_thread {h : Heap α} {a : Nat} {n : Node α} {q} (e : h a = some n) (ht : thread h a = some q) :
    n.prev = q.1 ∧ n.next = q.2 := by
  simp [thread, e] at ht
  simp [← ht]

theorem insertBefore_at {s : St α} {a p : Nat} {y x : α} {r : Tree (Nat × α)} {ctx : List (Frame α)} {m : Node α} {fuel : Nat}
    (hc : RepC s.heap s.top none (.left a y r :: ctx))
    (hs : Seg s.heap none (before ctx ++ a :: (addrs r ++ after ctx)) none) (hn : (caddrs (.left a y r :: ctx)).Nodup)
    (hp : p ∉ caddrs (.left a y r :: ctx)) (hm : s.heap p = some m) (hx : m.item = x)
    (hh : s.head = (before ctx ++ a :: (addrs r ++ after ctx)).head?)
    (ht : s.tail = (before ctx ++ a :: (addrs r ++ after ctx)).getLast?) :
    ∃ s2, insertBefore (fuel + 1) s (some a) p = rebalance fuel s2 (some a) ∧ Attached s s2 (.left a y r :: ctx) p x := by
  have hmem := mem_ctx (.left a y r :: ctx)
  simp only [before, after] at hmem
  have hnd := (nodup_ctx (.left a y r :: ctx)).2 hn
  simp only [before, after, List.cons_append] at hnd
  obtain ⟨⟨pv, nx, c, d, e⟩, hr, hc'⟩ := hc
  have pa : p ≠ a := by rintro rfl; exact hp (by simp [caddrs, Frame.addrs])
  have ap : a ≠ p := Ne.symm pa
  have hta := seg_at hs
  have epv : pv = (before ctx).getLast? := by simpa using (node_of_thread e hta).1
  have la := load_of e
  have va : Live s.heap a := by simp [Live, e]
  have vp : Live s.heap p := by simp [Live, hm]
  obtain ⟨h, top, hd, tl⟩ := s
  dsimp only at *
  subst hx
  cases hB : (before ctx).getLast? with
  | none =>
    rw [hB] at epv
    subst epv
    simp only [insertBefore, nodeClear, la, vp, va, pa, ap, store_ok, load_upd_ne, live_upd, Res.bind_ok, Option.isSome_none,
      Bool.false_eq_true, if_false, ne_eq, not_false_eq_true]
    have eB : before ctx = [] := by simpa using hB
    refine ⟨_, rfl, ?_, ?_, ?_, rfl, ?_, ?_, ?_⟩
    · simp [upd, pa, hm, before, after, hB, par, Frame.addr]
    · intro b hb
      have bp : b ≠ p := by rintro rfl; exact hp hb
      simp only [place, upd, bp, if_false]
      by_cases ba : b = a
      · subst ba; simp [e, shape]
      · simp [ba]
    · intro b hb
      have bp : b ≠ p := by rintro rfl; exact hp hb
      simp only [thread, upd, bp, if_false, before, after, hB]
      by_cases ba : b = a
      · subst ba; simp [e]
      · have : a ≠ b := Ne.symm ba
        simp only [ba, if_false]
        cases h b <;> simp [this]
    · simp [before, after, eB]
    · simp only [before, after, ht, eB]; simp
    · intro b bp
      simp only [upd, bp, if_false]
      by_cases ba : b = a
      · subst ba; simp [e]
      · simp [ba]
  | some q =>
    rw [hB] at epv
    subst epv
    have hq : q ∈ before ctx := List.mem_of_getLast? hB
    have qp : q ≠ p := by
      rintro rfl; exact hp ((hmem q).1 (by simp [hq]))
    have pq : p ≠ q := Ne.symm qp
    have qa : q ≠ a := by
      rintro rfl
      rw [List.nodup_append] at hnd
      exact hnd.2.2 q hq q (by simp) rfl
    have aq : a ≠ q := Ne.symm qa
    have vq : Live h q := by
      obtain ⟨n, e1, -⟩ := getLast?_before hc' hB
      simp [Live, e1]
    have eB : before ctx ≠ [] := by intro e0; simp [e0] at hq
    simp only [insertBefore, nodeClear, la, vp, va, vq, pa, ap, store_ok, load_upd_ne, live_upd, Res.bind_ok,
      Option.isSome_none, Bool.false_eq_true, if_false, ne_eq, not_false_eq_true]
    refine ⟨_, rfl, ?_, ?_, ?_, rfl, ?_, ?_, ?_⟩
    · simp [upd, pa, pq, hm, before, after, hB, par, Frame.addr]
    · intro b hb
      have bp : b ≠ p := by rintro rfl; exact hp hb
      simp only [place, upd, bp, if_false]
      by_cases ba : b = a
      · subst ba; simp [e, shape, aq]
      · by_cases bq : b = q
        · subst bq; cases h b <;> simp [ba, shape]
        · simp [ba, bq]
    · intro b hb
      have bp : b ≠ p := by rintro rfl; exact hp hb
      simp only [thread, upd, bp, if_false, before, after, hB]
      by_cases ba : b = a
      · subst ba; simp [e, aq, qa]
      · have : a ≠ b := Ne.symm ba
        by_cases bq : b = q
        · subst bq; cases h b <;> simp [ba, this]
        · have : q ≠ b := Ne.symm bq
          simp only [ba, bq, if_false]
          cases h b <;> simp [*]
    · simp only [before, after, hh]
      cases hb : before ctx with
      | nil => exact absurd hb eB
      | cons _ _ => simp
    · simp only [before, after, ht]
      simp [List.getLast?_append]
    · intro b bp
      simp only [upd, bp, if_false]
      by_cases ba : b = a
      · subst ba; simp [e, aq]
      · by_cases bq : b = q
        · subst bq; cases h b <;> simp [ba]
        · simp [ba, bq]

theorem insertAfter_at {s : St α} {a p : Nat} {y x : α} {l : Tree (Nat × α)} {ctx : List (Frame α)} {m : Node α} {fuel : Nat}
    (hc : RepC s.heap s.top none (.right l a y :: ctx))
    (hs : Seg s.heap none ((before ctx ++ addrs l) ++ a :: after ctx) none) (hn : (caddrs (.right l a y :: ctx)).Nodup)
    (hp : p ∉ caddrs (.right l a y :: ctx)) (hm : s.heap p = some m) (hx : m.item = x)
    (hl : ∀ b ∈ after ctx, Live s.heap b)
    (hh : s.head = ((before ctx ++ addrs l) ++ a :: after ctx).head?)
    (ht : s.tail = ((before ctx ++ addrs l) ++ a :: after ctx).getLast?) :
    ∃ s2, insertAfter (fuel + 1) s (some a) p = rebalance fuel s2 (some a) ∧ Attached s s2 (.right l a y :: ctx) p x := by
  have hmem := mem_ctx (.right l a y :: ctx)
  simp only [before, after] at hmem
  have hnd := (nodup_ctx (.right l a y :: ctx)).2 hn
  simp only [before, after, List.append_assoc, List.singleton_append] at hnd
  rw [← List.append_assoc] at hnd
  obtain ⟨⟨pv, nx, c, d, e⟩, hr, hc'⟩ := hc
  have pa : p ≠ a := by rintro rfl; exact hp (by simp [caddrs, Frame.addrs])
  have ap : a ≠ p := Ne.symm pa
  have hta := seg_at hs
  have enx : nx = (after ctx).head? := by simpa using (node_of_thread e hta).2
  have la := load_of e
  have va : Live s.heap a := by simp [Live, e]
  have vp : Live s.heap p := by simp [Live, hm]
  obtain ⟨h, top, hd, tl⟩ := s
  dsimp only at *
  subst hx
  cases hA : (after ctx).head? with
  | none =>
    rw [hA] at enx
    subst enx
    simp only [insertAfter, nodeClear, la, vp, va, pa, ap, store_ok, load_upd_ne, live_upd, Res.bind_ok, Option.isSome_none,
      Bool.false_eq_true, if_false, ne_eq, not_false_eq_true]
    have eA : after ctx = [] := by simpa using hA
    refine ⟨_, rfl, ?_, ?_, ?_, rfl, ?_, ?_, ?_⟩
    · simp [upd, pa, hm, before, after, hA, par, Frame.addr]
    · intro b hb
      have bp : b ≠ p := by rintro rfl; exact hp hb
      simp only [place, upd, bp, if_false]
      by_cases ba : b = a
      · subst ba; simp [e, shape]
      · simp [ba]
    · intro b hb
      have bp : b ≠ p := by rintro rfl; exact hp hb
      simp only [thread, upd, bp, if_false, before, after, hA]
      by_cases ba : b = a
      · subst ba; simp [e]
      · have : a ≠ b := Ne.symm ba
        simp only [ba, if_false]
        cases h b <;> simp [this]
    · simp only [before, after, hh, eA]; simp
    · simp [before, after, eA]
    · intro b bp
      simp only [upd, bp, if_false]
      by_cases ba : b = a
      · subst ba; simp [e]
      · simp [ba]
  | some q =>
    rw [hA] at enx
    subst enx
    have hq : q ∈ after ctx := List.mem_of_head? hA
    have qp : q ≠ p := by
      rintro rfl; exact hp ((hmem q).1 (by simp [hq]))
    have pq : p ≠ q := Ne.symm qp
    have qa : q ≠ a := by
      rintro rfl
      rw [List.nodup_append, List.nodup_cons] at hnd
      exact hnd.2.1.1 hq
    have aq : a ≠ q := Ne.symm qa
    have vq : Live h q := hl q hq
    have eA : after ctx ≠ [] := by intro e0; simp [e0] at hq
    simp only [insertAfter, nodeClear, la, vp, va, vq, pa, ap, store_ok, load_upd_ne, live_upd, Res.bind_ok,
      Option.isSome_none, Bool.false_eq_true, if_false, ne_eq, not_false_eq_true]
    refine ⟨_, rfl, ?_, ?_, ?_, rfl, ?_, ?_, ?_⟩
    · simp [upd, pa, pq, hm, before, after, hA, par, Frame.addr]
    · intro b hb
      have bp : b ≠ p := by rintro rfl; exact hp hb
      simp only [place, upd, bp, if_false]
      by_cases ba : b = a
      · subst ba; simp [e, shape, aq]
      · by_cases bq : b = q
        · subst bq; cases h b <;> simp [ba, shape]
        · simp [ba, bq]
    · intro b hb
      have bp : b ≠ p := by rintro rfl; exact hp hb
      simp only [thread, upd, bp, if_false, before, after, hA]
      by_cases ba : b = a
      · subst ba; simp [e, aq, qa]
      · have : a ≠ b := Ne.symm ba
        by_cases bq : b = q
        · subst bq; cases h b <;> simp [ba, this]
        · have : q ≠ b := Ne.symm bq
          simp only [ba, bq, if_false]
          cases h b <;> simp [*]
    · simp only [before, after, hh]
      simp [List.head?_append]
    · simp only [before, after, ht]
      cases hb : after ctx with
      | nil => exact absurd hb eA
      | cons _ _ => simp [List.getLast?_append, List.getLast?_cons_cons]
    · intro b bp
      simp only [upd, bp, if_false]
      by_cases ba : b = a
      · subst ba; simp [e, aq]
      · by_cases bq : b = q
        · subst bq; cases h b <;> simp [ba]
        · simp [ba, bq]

theorem live_mem {s : St α} {t : Tree (Nat × α)} (h : Is s t) {b : Nat} (hb : b ∈ addrs t) : Live s.heap b := by
  obtain ⟨n, e⟩ := rep_isSome h.rep hb
  simp [Live, e]

theorem alloc_heap {s : St α} {p junk x b} (h : b ≠ p) : (alloc s p junk x).heap b = s.heap b := if_neg h

theorem itemInsert_ok (cmp : α → α → Int) {s : St α} {t : Tree (Nat × α)} (h : Is s t) {p : Nat} (hp : s.heap p = none)
    (junk : Node α) (x : α) {o} (ho : Avl.insert (pairCmp cmp) (p, x) t = .ok o) {fuel : Nat}
    (hf : Avl.height t + 2 ≤ fuel) :
    match o with
    | none => itemInsert cmp fuel s p junk x = .ok (s, none)
    | some t' => ∃ s', itemInsert cmp fuel s p junk x = .ok (s', some p) ∧ Is s' t' := by
  have hpt : p ∉ addrs t := fun hb => live_mem h hb hp
  have h1 : Rep (alloc s p junk x).heap none t := rep_frame h.rep fun b hb => alloc_heap (by rintro rfl; exact hpt hb)
  have h2 : Seg (alloc s p junk x).heap none (addrs t) none := seg_congr h.seg fun b hb => by
    unfold thread
    rw [alloc_heap (by rintro rfl; exact hpt hb)]
  have h3 : (alloc s p junk x).heap p = some { junk with item := x } := if_pos rfl
  have e0 : itemInsert cmp fuel s p junk x = (searchRightish cmp fuel (alloc s p junk x) x).bind fun q =>
      if q.2 then (nodeFree (alloc s p junk x) p).bind fun s => .ok (s, none)
      else (insertAfter fuel (alloc s p junk x) q.1 p).bind fun s => .ok (s, some p) := by
    unfold itemInsert
    simp only [load_of h3, Res.bind_ok]
    rfl
  rw [e0]
  have only1 : ∀ b, b ≠ p → (alloc s p junk x).heap b ≠ none → b ∈ addrs t := fun b hb hne => by
    rw [alloc_heap hb] at hne
    exact h.only b hne
  obtain ⟨fuel, rfl⟩ : ∃ k, fuel = k + 2 := ⟨fuel - 2, by omega⟩
  cases t with
  | nil =>
    have et : s.top = none := h.top
    have eh : s.head = none := h.head
    simp only [Avl.insert, Res.ok.injEq] at ho
    subst ho
    dsimp only
    have vp : Live (alloc s p junk x).heap p := by simp [Live, h3]
    have es : searchRightish cmp (fuel + 2) (alloc s p junk x) x = .ok (none, false) := by
      simp [searchRightish, alloc, et]
    rw [es, Res.ok_bind]
    have ei : ∃ s', insertAfter (fuel + 2) (alloc s p junk x) none p = .ok s' ∧
        s'.heap p = some ⟨none, none, none, none, none, x, 1, 1⟩ ∧ (∀ b, b ≠ p → s'.heap b = none) ∧ s'.top = some p ∧
        s'.head = some p ∧ s'.tail = some p := by
      have eh' : (alloc s p junk x).head = none := eh
      simp only [insertAfter, eh', insertTop, nodeClear, store_ok vp, Res.bind_ok]
      rw [store_ok (by simpa using vp), Res.bind_ok]
      refine ⟨_, rfl, ?_, ?_, rfl, rfl, rfl⟩
      · simp [upd, h3]
      · intro b hb
        by_contra hne
        simp only [upd, hb, if_false] at hne
        simpa using only1 b hb hne
    obtain ⟨s', e1, e2, e3, e4, e5, e6⟩ := ei
    refine ⟨s', by simp [e1], ⟨⟨_, _, e2⟩, trivial, trivial⟩, e4, by simp, ?_, by simp [e5], by simp [e6], ?_⟩
    · simp [Seg, thread, e2]
    · intro b hb
      by_contra hne
      exact hb (e3 b (by simpa using hne))
  | node l n c d r =>
    have et : searchRightish cmp (fuel + 2) (alloc s p junk x) x =
        rightishLoop cmp (alloc s p junk x).heap x (fuel + 2) (root (.node l n c d r)) := by
      simp only [searchRightish]
      have : (alloc s p junk x).top = some n.1 := h.top
      rw [this]; rfl
    rw [et]
    rcases rightishLoop_ok cmp (alloc s p junk x).heap s.top x p (.node l n c d r) [] (fuel + 2) (by omega) (by simp) h1 h.top
      (by simpa [before, after] using h2) with
      ⟨ctx', l', a', y', c', d', r', g1, -, -, -, -, -, -, g8, -⟩ | ⟨ctx', g1, g2, g3, g4, g5, g6⟩
    · rw [g8] at ho
      cases ho
      dsimp only
      rw [g1, Res.ok_bind]
      simp only [if_true, nodeFree, load_of h3, Res.bind_ok, Res.ok_bind, Res.ok.injEq, Prod.mk.injEq, and_true]
      obtain ⟨hh, top, hd, tl⟩ := s
      simp only [alloc, St.mk.injEq, and_true]
      funext b
      by_cases hb : b = p
      · simp [hb, ← hp]
      · simp [hb]
    · rw [ho] at g6
      simp only [before, after, List.nil_append, List.append_nil, List.length_nil, Nat.zero_add] at g4 g5
      cases o with
      | none =>
        exfalso
        simp only [Res.ok_bind, upInsert] at g6
        cases e : up ctx' (.node .nil (p, x) 1 1 .nil) <;> simp [e] at g6
      | some t' =>
        dsimp only
        simp only [Res.ok_bind, upInsert, up] at g6
        obtain ⟨u, e1, e2⟩ := bind_inv g6.symm
        cases e2
        rw [g2, Res.ok_bind]
        simp only [Bool.false_eq_true, if_false]
        have hseg : Seg (alloc s p junk x).heap none (before ctx' ++ after ctx') none := by rw [g4]; exact h2
        have hmem : ∀ b, b ∈ caddrs ctx' ↔ b ∈ addrs (.node l n c d r) := fun b => by rw [← mem_ctx, g4]
        have hnd : (caddrs ctx').Nodup := by rw [← nodup_ctx, g4]; exact h.nodup
        have hpc : p ∉ caddrs ctx' := by rw [hmem]; exact hpt
        have hhd : (alloc s p junk x).head = (before ctx' ++ after ctx').head? := by rw [g4]; exact h.head
        have htl : (alloc s p junk x).tail = (before ctx' ++ after ctx').getLast? := by rw [g4]; exact h.tail
        have hlv : ∀ b ∈ after ctx', Live (alloc s p junk x).heap b := fun b hb => by
          have : b ∈ addrs (.node l n c d r) := (hmem b).1 ((mem_ctx _ b).1 (by simp [hb]))
          rw [Live, alloc_heap (by rintro rfl; exact hpt this)]
          exact live_mem h this
        have honly : ∀ b, b ≠ p → (alloc s p junk x).heap b ≠ none → b ∈ caddrs ctx' := fun b hb hne => by
          rw [hmem]; exact only1 b hb hne
        cases ctx' with
        | nil => exact absurd rfl g1
        | cons f ctx =>
          cases f with
          | right l1 a y =>
            obtain ⟨s2, i1, i2⟩ := insertAfter_at (fuel := fuel + 1) (x := x) g3
              (by simpa [before, after] using hseg) hnd hpc h3 rfl hlv
              (by simpa [before, after] using hhd) (by simpa [before, after] using htl)
            obtain ⟨s', j1, j2⟩ := attached_ok (fuel := fuel + 1) (by simp) i2 g3 hseg hnd hpc honly (by omega) e1
            refine ⟨s', ?_, j2⟩
            have : (before (.right l1 a y :: ctx)).getLast? = some a := by simp [before]
            rw [this, i1]
            have : rebalance (fuel + 1) s2 (some a) = .ok s' := j1
            rw [this]; rfl
          | left a y r1 =>
            obtain ⟨s2, i1, i2⟩ := insertBefore_at (fuel := fuel) (x := x) g3
              (by simpa [before, after] using hseg) hnd hpc h3 rfl
              (by simpa [before, after] using hhd) (by simpa [before, after] using htl)
            obtain ⟨s', j1, j2⟩ := attached_ok (fuel := fuel) (by simp) i2 g3 hseg hnd hpc honly (by omega) e1
            refine ⟨s', ?_, j2⟩
            have i3 : insertAfter (fuel + 2) (alloc s p junk x) (before (.left a y r1 :: ctx)).getLast? p =
                insertBefore (fuel + 1) (alloc s p junk x) (some a) p := by
              cases hB : (before (.left a y r1 :: ctx)).getLast? with
              | none =>
                have : before (.left a y r1 :: ctx) = [] := by simpa using hB
                rw [this] at hhd
                have hhd' : (alloc s p junk x).head = some a := hhd
                simp only [insertAfter, hhd']
              | some q =>
                obtain ⟨nq, k1, k2⟩ := getLast?_before g3.2.2 (by simpa [before] using hB)
                obtain ⟨B, hB'⟩ : ∃ B, before (.left a y r1 :: ctx) = B ++ [q] :=
                  List.getLast?_eq_some_iff.1 hB
                rw [hB'] at hseg
                have k3 := seg_at (l := B) (l' := after (.left a y r1 :: ctx)) (by simpa using hseg)
                have k4 : nq.next = some a := by simpa [after] using (node_of_thread k1 k3).2
                simp only [insertAfter, load_of k1, Res.bind_ok, k2, if_true, k4]
            rw [i3, i1]
            have : rebalance fuel s2 (some a) = .ok s' := j1
            rw [this]; rfl

end AvlPtr
