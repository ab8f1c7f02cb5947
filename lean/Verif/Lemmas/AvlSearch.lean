import Verif.Lemmas.AvlPath

/-!
The threaded list (`Seg`) and the search in a tree of nodes: where `avl_search_rightish` ends, and what insertion and
deletion in the model without pointers (`Model/Avl`) do along the path of the search.
-/

namespace AvlPtr
open Avl (Tree inorder)

variable {α : Type}

/-! ### Frames up to the threaded list -/

/-- The fields of a node that belong to the tree. -/
def shape (n : Node α) : Option Nat × Option Nat × Option Nat × α × Nat × Nat :=
  (n.parent, n.left, n.right, n.item, n.count, n.depth)

theorem shape_eq {h' : Heap α} {b pv nx q l r x c d} {h : Heap α} (e : h b = some ⟨pv, nx, q, l, r, x, c, d⟩)
    (he : (h' b).map shape = (h b).map shape) : ∃ pv nx, h' b = some ⟨pv, nx, q, l, r, x, c, d⟩ := by
  rw [e] at he
  cases e' : h' b with
  | none => simp [e'] at he
  | some n =>
    obtain ⟨p1, p2, p3, p4, p5, p6, p7, p8⟩ := n
    simp [e', shape] at he
    obtain ⟨rfl, rfl, rfl, rfl, rfl, rfl⟩ := he
    exact ⟨p1, p2, rfl⟩

theorem rep_shape {h h' : Heap α} {q} {t : Tree (Nat × α)} (hr : Rep h q t)
    (he : ∀ b ∈ addrs t, (h' b).map shape = (h b).map shape) : Rep h' q t := by
  induction t generalizing q with
  | nil => trivial
  | node l x c d r ihl ihr =>
    obtain ⟨⟨pv, nx, e⟩, hl, hr⟩ := hr
    simp only [addrs_node, List.mem_append, List.mem_cons] at he
    exact ⟨shape_eq e (he x.1 (.inr (.inl rfl))), ihl hl fun b hb => he b (.inl hb), ihr hr fun b hb => he b (.inr (.inr hb))⟩

theorem repC_shape {h h' : Heap α} {top hole} {ctx : List (Frame α)} (hr : RepC h top hole ctx)
    (he : ∀ b ∈ caddrs ctx, (h' b).map shape = (h b).map shape) : RepC h' top hole ctx := by
  induction ctx generalizing hole with
  | nil => exact hr
  | cons f ctx ih =>
    cases f with
    | left a x r =>
      obtain ⟨⟨pv, nx, c, d, e⟩, hr, hc⟩ := hr
      simp only [caddrs, List.flatMap_cons, Frame.addrs, List.mem_append, List.mem_cons] at he
      obtain ⟨pv', nx', e'⟩ := shape_eq e (he a (by simp))
      exact ⟨⟨pv', nx', c, d, e'⟩, rep_shape hr fun b hb => he b (by simp [hb]), ih hc fun b hb => he b (.inr hb)⟩
    | right l a x =>
      obtain ⟨⟨pv, nx, c, d, e⟩, hr, hc⟩ := hr
      simp only [caddrs, List.flatMap_cons, Frame.addrs, List.mem_append, List.mem_cons] at he
      obtain ⟨pv', nx', e'⟩ := shape_eq e (he a (by simp))
      exact ⟨⟨pv', nx', c, d, e'⟩, rep_shape hr fun b hb => he b (by simp [hb]), ih hc fun b hb => he b (.inr hb)⟩

/-! ### The threaded list -/

/-- The pointers of the threaded list at an address. -/
def thread (h : Heap α) (b : Nat) : Option (Option Nat × Option Nat) := (h b).map fun n => (n.prev, n.next)

/-- The nodes of the list are linked in this order, between `pv` and `nx`. -/
def Seg (h : Heap α) : (pv : Option Nat) → List Nat → (nx : Option Nat) → Prop
  | _, [], _ => True
  | pv, a :: as, nx => thread h a = some (pv, as.head?.or nx) ∧ Seg h (some a) as nx

theorem seg_congr {h h' : Heap α} {pv nx} {l : List Nat} (hs : Seg h pv l nx) (he : ∀ b ∈ l, thread h' b = thread h b) :
    Seg h' pv l nx := by
  induction l generalizing pv with
  | nil => trivial
  | cons a l ih => exact ⟨(he a (by simp)).trans hs.1, ih hs.2 fun b hb => he b (by simp [hb])⟩

theorem seg_append {h : Heap α} {pv nx} {l l' : List Nat} :
    Seg h pv (l ++ l') nx ↔ Seg h pv l (l'.head?.or nx) ∧ Seg h (l.getLast?.or pv) l' nx := by
  induction l generalizing pv with
  | nil => simp [Seg]
  | cons a l ih =>
    simp only [List.cons_append, Seg, ih]
    cases l with
    | nil => simp [Seg]
    | cons b l =>
      have e1 : ∀ q : Option Nat, ((b :: l).getLast?).or q = some ((b :: l).getLast (by simp)) := by
        intro q; rw [List.getLast?_eq_some_getLast (by simp)]; rfl
      rw [List.getLast?_cons_cons, e1, e1]
      simp [Seg, and_assoc]

theorem seg_next {h h' : Heap α} {pv nx nx'} {l : List Nat} (hs : Seg h pv l nx) (hn : l.Nodup)
    (he : ∀ b ∈ l, thread h' b = if l.getLast? = some b then (thread h b).map (fun q => (q.1, nx')) else thread h b) :
    Seg h' pv l nx' := by
  induction l generalizing pv with
  | nil => trivial
  | cons a l ih =>
    rw [List.nodup_cons] at hn
    cases l with
    | nil =>
      refine ⟨?_, trivial⟩
      rw [he a (by simp), hs.1]; simp
    | cons b l =>
      refine ⟨?_, ih hs.2 hn.2 fun c hc => ?_⟩
      · rw [he a (by simp), if_neg, hs.1]
        · simp
        · rw [List.getLast?_cons_cons]
          intro e
          exact hn.1 (List.mem_of_getLast? e)
      · rw [he c (by simp [hc]), List.getLast?_cons_cons]

theorem seg_prev {h h' : Heap α} {pv pv' nx} {l : List Nat} (hs : Seg h pv l nx) (hn : l.Nodup)
    (he : ∀ b ∈ l, thread h' b = if l.head? = some b then (thread h b).map (fun q => (pv', q.2)) else thread h b) :
    Seg h' pv' l nx := by
  cases l with
  | nil => trivial
  | cons a l =>
    rw [List.nodup_cons] at hn
    refine ⟨?_, seg_congr hs.2 fun b hb => ?_⟩
    · rw [he a (by simp), hs.1]; simp
    · rw [he b (by simp [hb]), if_neg]
      simp only [List.head?_cons, Option.some.injEq]
      rintro rfl
      exact hn.1 hb

/-- The nodes before the hole of a path, from left to right. -/
def before : List (Frame α) → List Nat
  | [] => []
  | .left _ _ _ :: ctx => before ctx
  | .right l a _ :: ctx => before ctx ++ addrs l ++ [a]

/-- The nodes after the hole of a path, from left to right. -/
def after : List (Frame α) → List Nat
  | [] => []
  | .left a _ r :: ctx => a :: addrs r ++ after ctx
  | .right _ _ _ :: ctx => after ctx

theorem perm_ctx (ctx : List (Frame α)) (m : List Nat) : (before ctx ++ m ++ after ctx).Perm (m ++ caddrs ctx) := by
  induction ctx generalizing m with
  | nil => simp [before, after, caddrs]
  | cons f ctx ih =>
    cases f with
    | left a x r =>
      have := ih (m ++ a :: addrs r)
      simpa [before, after, caddrs, Frame.addrs] using this
    | right l a x =>
      have := ih (addrs l ++ a :: m)
      have h2 : (addrs l ++ a :: m ++ caddrs ctx).Perm (m ++ (addrs l ++ [a] ++ caddrs ctx)) := by
        simp only [List.append_assoc, List.cons_append]
        refine List.Perm.trans ?_ (List.perm_append_comm_assoc _ _ _)
        refine List.Perm.append_left _ ?_
        exact List.perm_middle.symm
      simpa [before, after, caddrs, Frame.addrs] using this.trans (by simpa [caddrs] using h2)

/-! ### Searching -/

/-- The comparison of two nodes with items. -/
def pairCmp (cmp : α → α → Int) (a b : Nat × α) : Int := cmp a.2 b.2

/-- What insertion into a subtree means for the whole tree. -/
def upInsert (ctx : List (Frame α)) : Option (Tree (Nat × α)) → Res (Option (Tree (Nat × α)))
  | none => .ok none
  | some t => (up ctx t).bind fun t => .ok (some t)

/-- What deletion from a subtree means for the whole tree. -/
def upDelete (ctx : List (Frame α)) : Option ((Nat × α) × Tree (Nat × α)) → Res (Option ((Nat × α) × Tree (Nat × α)))
  | none => .ok none
  | some (z, t) => (up ctx t).bind fun t => .ok (some (z, t))

/-- Deletion of the root of a tree with these subtrees. -/
def removeRoot (l r : Tree (Nat × α)) : Res (Tree (Nat × α)) :=
  match l with
  | .nil => .ok r
  | .node _ _ _ _ _ =>
    match r with
    | .nil => .ok l
    | .node _ _ _ _ _ => (Avl.deleteMax l).bind fun (m, l') => Avl.balance l' m r

theorem bind_assoc {β γ δ : Type} (r : Res β) (f : β → Res γ) (g : γ → Res δ) :
    (r.bind f).bind g = r.bind fun b => (f b).bind g := by
  cases r <;> rfl

theorem getLast?_before {h : Heap α} {top hole} {ctx : List (Frame α)} {b : Nat} (hc : RepC h top (some hole) ctx)
    (hb : (before ctx).getLast? = some b) : ∃ n, h b = some n ∧ n.right.isSome := by
  induction ctx generalizing hole with
  | nil => simp [before] at hb
  | cons f ctx ih =>
    cases f with
    | left a x r => exact ih hc.2.2 hb
    | right l a x =>
      obtain ⟨⟨pv, nx, c, d, e⟩, -, -⟩ := hc
      simp [before] at hb
      subst hb
      exact ⟨_, e, rfl⟩

theorem seg_at {h : Heap α} {pv nx} {l l' : List Nat} {a : Nat} (hs : Seg h pv (l ++ a :: l') nx) :
    thread h a = some (l.getLast?.or pv, l'.head?.or nx) := (seg_append.1 hs).2.1

theorem rightishLoop_ok (cmp : α → α → Int) (h : Heap α) (top : Option Nat) (x : α) (p : Nat) (u : Tree (Nat × α)) :
    ∀ (ctx : List (Frame α)) (fuel : Nat), Avl.height u ≤ fuel → u ≠ .nil → Rep h (par ctx) u → RepC h top (root u) ctx →
    Seg h none (before ctx ++ addrs u ++ after ctx) none →
    (∃ ctx' l a y c d r, rightishLoop cmp h x fuel (root u) = .ok (some a, true) ∧ Rep h (par ctx') (.node l (a, y) c d r) ∧
      RepC h top (some a) ctx' ∧ before ctx' ++ (addrs l ++ a :: addrs r) ++ after ctx' = before ctx ++ addrs u ++ after ctx ∧
      ctx'.length < ctx.length + Avl.height u ∧ cmp x y = 0 ∧ (a, y) ∈ inorder u ∧
      Avl.insert (pairCmp cmp) (p, x) u = .ok none ∧
      (Avl.delete (pairCmp cmp) (p, x) u).bind (upDelete ctx) =
        (removeRoot l r).bind fun v => (up ctx' v).bind fun t => .ok (some ((a, y), t))) ∨
    (∃ ctx', ctx' ≠ [] ∧ rightishLoop cmp h x fuel (root u) = .ok ((before ctx').getLast?, false) ∧ RepC h top none ctx' ∧
      before ctx' ++ after ctx' = before ctx ++ addrs u ++ after ctx ∧ ctx'.length ≤ ctx.length + Avl.height u ∧
      (Avl.insert (pairCmp cmp) (p, x) u).bind (upInsert ctx) =
        (up ctx' (.node .nil (p, x) 1 1 .nil)).bind fun t => .ok (some t)) := by
  induction u with
  | nil => intro ctx fuel hf hne; exact absurd rfl hne
  | node l n c d r ihl ihr =>
    intro ctx fuel hf _ hr hc hs
    obtain ⟨a, y⟩ := n
    obtain ⟨⟨pv, nx, e⟩, hl, hr'⟩ := hr
    simp only [Avl.height] at hf
    obtain ⟨fuel, rfl⟩ : ∃ k, fuel = k + 1 := ⟨fuel - 1, by omega⟩
    have e0 : rightishLoop cmp h x (fuel + 1) (root (.node l (a, y) c d r)) =
      (if cmp x y < 0 then if (root l).isSome then rightishLoop cmp h x fuel (root l) else .ok (pv, false)
      else if cmp x y > 0 then if (root r).isSome then rightishLoop cmp h x fuel (root r) else .ok (some a, false)
      else .ok (some a, true)) := by
      rw [root_node, rightishLoop, load_of e]; rfl
    rw [e0]
    unfold Avl.insert Avl.delete
    dsimp only [pairCmp]
    by_cases c1 : cmp x y < 0
    · simp only [if_pos c1]
      have hc' : RepC h top (root l) (.left a y r :: ctx) := ⟨⟨pv, nx, c, d, e⟩, hr', hc⟩
      have es : before (.left a y r :: ctx) ++ addrs l ++ after (.left a y r :: ctx) =
        before ctx ++ addrs (.node l (a, y) c d r) ++ after ctx := by simp [before, after]
      cases l with
      | nil =>
        right
        refine ⟨.left a y r :: ctx, by simp, ?_, hc', by rw [← es]; simp, by simp [Avl.height], ?_⟩
        · have : thread h a = _ := seg_at (l := before ctx) (l' := addrs r ++ after ctx) (by simpa using hs)
          simp [thread, e] at this
          simp [before, this.1]
        · simp only [Avl.insert, Res.ok_bind, upInsert, up, bind_assoc]
      | node l1 n1 c1' d1 l2 =>
        rw [root_node]
        simp only [Option.isSome_some, if_true]
        rcases ihl (.left a y r :: ctx) fuel (by omega) (by simp) hl hc' (by rw [es]; exact hs) with
          ⟨ctx', l', a', y', c', d', r', g1, g2, g3, g4, g5, g6, g7, g8, g9⟩ | ⟨ctx', g1, g2, g3, g4, g5, g6⟩
        · left
          refine ⟨ctx', l', a', y', c', d', r', g1, g2, g3, by rw [g4, es], ?_, g6, ?_, ?_, ?_⟩
          · simp only [Avl.height, List.length_cons] at g5 ⊢; omega
          · rw [inorder]; exact List.mem_append_left _ g7
          · rw [g8]; rfl
          · rw [← g9, bind_assoc]
            congr 1
            funext o
            rcases o with - | ⟨z, t⟩
            · rfl
            · simp only [upDelete, up, bind_assoc, Res.ok_bind]
        · right
          refine ⟨ctx', g1, g2, g3, by rw [g4, es], ?_, ?_⟩
          · simp only [Avl.height, List.length_cons] at g5 ⊢; omega
          · rw [← g6, bind_assoc]
            congr 1
            funext o
            rcases o with - | t
            · rfl
            · simp only [upInsert, up, bind_assoc, Res.ok_bind]
    · simp only [if_neg c1]
      by_cases c2 : cmp x y > 0
      · simp only [if_pos c2]
        have hc' : RepC h top (root r) (.right l a y :: ctx) := ⟨⟨pv, nx, c, d, e⟩, hl, hc⟩
        have es : before (.right l a y :: ctx) ++ addrs r ++ after (.right l a y :: ctx) =
          before ctx ++ addrs (.node l (a, y) c d r) ++ after ctx := by simp [before, after]
        cases r with
        | nil =>
          right
          refine ⟨.right l a y :: ctx, by simp, ?_, hc', by rw [← es]; simp, by simp [Avl.height], ?_⟩
          · simp [before]
          · simp only [Avl.insert, Res.ok_bind, upInsert, up, bind_assoc]
        | node l1 n1 c1' d1 l2 =>
          rw [root_node]
          simp only [Option.isSome_some, if_true]
          rcases ihr (.right l a y :: ctx) fuel (by omega) (by simp) hr' hc' (by rw [es]; exact hs) with
            ⟨ctx', l', a', y', c', d', r', g1, g2, g3, g4, g5, g6, g7, g8, g9⟩ | ⟨ctx', g1, g2, g3, g4, g5, g6⟩
          · left
            refine ⟨ctx', l', a', y', c', d', r', g1, g2, g3, by rw [g4, es], ?_, g6, ?_, ?_, ?_⟩
            · simp only [Avl.height, List.length_cons] at g5 ⊢; omega
            · rw [inorder]; exact List.mem_append_right _ (List.mem_cons_of_mem _ g7)
            · rw [g8]; rfl
            · rw [← g9, bind_assoc]
              congr 1
              funext o
              rcases o with - | ⟨z, t⟩
              · rfl
              · simp only [upDelete, up, bind_assoc, Res.ok_bind]
          · right
            refine ⟨ctx', g1, g2, g3, by rw [g4, es], ?_, ?_⟩
            · simp only [Avl.height, List.length_cons] at g5 ⊢; omega
            · rw [← g6, bind_assoc]
              congr 1
              funext o
              rcases o with - | t
              · rfl
              · simp only [upInsert, up, bind_assoc, Res.ok_bind]
      · simp only [if_neg c2]
        left
        refine ⟨ctx, l, a, y, c, d, r, rfl, ⟨⟨pv, nx, e⟩, hl, hr'⟩, hc, by simp, by simp [Avl.height], by omega,
          by simp [inorder], trivial, ?_⟩
        cases l with
        | nil => rfl
        | node _ _ _ _ _ =>
          cases r with
          | nil => rfl
          | node _ _ _ _ _ => simp only [removeRoot, bind_assoc, Res.ok_bind, upDelete]

end AvlPtr
