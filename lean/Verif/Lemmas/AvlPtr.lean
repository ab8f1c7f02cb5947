import Verif.Model.AvlPtr
import Verif.Props.Avl

/-!
How a heap of nodes represents a tree (`Rep`) and a path in it (`RepC`), and the effect of the four rotations of
`avl_rebalance` on them, by symbolic execution.  The trees are those of `Model/Avl` with pairs of an address and an item
as items.
-/

set_option linter.unusedSimpArgs false

namespace AvlPtr
open Avl (Tree inorder)

variable {α : Type}

/-- The pointer to the root of a tree of nodes. -/
def root : Tree (Nat × α) → Option Nat
  | .nil => none
  | .node _ (a, _) _ _ _ => some a

/-- The addresses of the nodes from left to right. -/
def addrs (t : Tree (Nat × α)) : List Nat := (inorder t).map Prod.fst

/-- The heap contains the tree, with `par` as parent of its root: every node has the pointers, the count and the depth
that belong to its place; `prev` and `next` are arbitrary. -/
def Rep (h : Heap α) : (par : Option Nat) → Tree (Nat × α) → Prop
  | _, .nil => True
  | par, .node l (a, x) c d r =>
    (∃ pv nx, h a = some ⟨pv, nx, par, root l, root r, x, c, d⟩) ∧ Rep h (some a) l ∧ Rep h (some a) r

/-- A step of a path from the root: to the left or to the right child of the node `a` with item `x`; the other subtree
is part of the step. -/
inductive Frame (α : Type) where
  | left (a : Nat) (x : α) (r : Tree (Nat × α))
  | right (l : Tree (Nat × α)) (a : Nat) (x : α)

/-- The node of the step. -/
def Frame.addr : Frame α → Nat
  | .left a _ _ => a
  | .right _ a _ => a

/-- The node above the hole of a path. -/
def par : List (Frame α) → Option Nat
  | [] => none
  | f :: _ => some f.addr

/-- The nodes of a step and of the subtree beside it. -/
def Frame.addrs : Frame α → List Nat
  | .left a _ r => a :: AvlPtr.addrs r
  | .right l a _ => AvlPtr.addrs l ++ [a]

/-- The heap contains the path: `hole` is the pointer to the node below it; counts, depths, `prev` and `next` of the nodes
of the path are arbitrary. -/
def RepC (h : Heap α) (top : Option Nat) : (hole : Option Nat) → List (Frame α) → Prop
  | hole, [] => top = hole
  | hole, .left a x r :: ctx =>
    (∃ pv nx c d, h a = some ⟨pv, nx, par ctx, hole, root r, x, c, d⟩) ∧ Rep h (some a) r ∧ RepC h top (some a) ctx
  | hole, .right l a x :: ctx =>
    (∃ pv nx c d, h a = some ⟨pv, nx, par ctx, root l, hole, x, c, d⟩) ∧ Rep h (some a) l ∧ RepC h top (some a) ctx

/-- The nodes of a path and of the subtrees beside it. -/
def caddrs (ctx : List (Frame α)) : List Nat := ctx.flatMap Frame.addrs

/-- The memory after `if (p) p->parent = q;`. -/
def reparent (h : Heap α) (p q : Option Nat) : Heap α :=
  fun b => if p = some b then (h b).map fun n => { n with parent := q } else h b

/-- The memory after an assignment to the pointer that the end of the path holds. -/
def place (ctx : List (Frame α)) (v : Option Nat) (h : Heap α) : Heap α :=
  match ctx with
  | [] => h
  | .left p _ _ :: _ => upd h p fun n => { n with left := v }
  | .right _ p _ :: _ => upd h p fun n => { n with right := v }

@[simp] theorem addrs_nil : addrs (.nil : Tree (Nat × α)) = [] := rfl
@[simp] theorem addrs_node (l : Tree (Nat × α)) (x c d r) : addrs (.node l x c d r) = addrs l ++ x.1 :: addrs r := by
  simp [addrs, inorder]
@[simp] theorem root_nil : root (.nil : Tree (Nat × α)) = none := rfl
@[simp] theorem root_node (l : Tree (Nat × α)) (x c d r) : root (.node l x c d r) = some x.1 := rfl

theorem root_mem {t : Tree (Nat × α)} {a : Nat} (h : root t = some a) : a ∈ addrs t := by
  cases t with
  | nil => simp at h
  | node l x c d r => simp at h; simp [h]

theorem rep_isSome {h : Heap α} {q} {t : Tree (Nat × α)} (hr : Rep h q t) {b : Nat} (hb : b ∈ addrs t) :
    ∃ n, h b = some n := by
  induction t generalizing q with
  | nil => simp at hb
  | node l x c d r ihl ihr =>
    obtain ⟨⟨pv, nx, e⟩, hl, hr⟩ := hr
    simp only [addrs_node, List.mem_append, List.mem_cons] at hb
    rcases hb with hb | rfl | hb
    · exact ihl hl hb
    · exact ⟨_, e⟩
    · exact ihr hr hb

theorem rep_frame {h h' : Heap α} {q} {t : Tree (Nat × α)} (hr : Rep h q t) (he : ∀ b ∈ addrs t, h' b = h b) :
    Rep h' q t := by
  induction t generalizing q with
  | nil => trivial
  | node l x c d r ihl ihr =>
    obtain ⟨⟨pv, nx, e⟩, hl, hr⟩ := hr
    simp only [addrs_node, List.mem_append, List.mem_cons] at he
    refine ⟨⟨pv, nx, ?_⟩, ihl hl fun b hb => he b (.inl hb), ihr hr fun b hb => he b (.inr (.inr hb))⟩
    rw [he x.1 (.inr (.inl rfl)), e]

theorem rep_reparent {h h' : Heap α} {q q'} {t : Tree (Nat × α)} (hr : Rep h q t) (hn : (addrs t).Nodup)
    (he : ∀ b ∈ addrs t, h' b = reparent h (root t) q' b) : Rep h' q' t := by
  cases t with
  | nil => trivial
  | node l x c d r =>
    obtain ⟨⟨pv, nx, e⟩, hl, hr⟩ := hr
    simp only [addrs_node, List.mem_append, List.mem_cons] at he
    simp only [addrs_node, List.nodup_append, List.nodup_cons, List.mem_cons] at hn
    refine ⟨⟨pv, nx, ?_⟩, rep_frame hl fun b hb => ?_, rep_frame hr fun b hb => ?_⟩
    · rw [he x.1 (.inr (.inl rfl))]; simp [reparent, e]
    · rw [he b (.inl hb), reparent, if_neg]
      have := hn.2.2 b hb x.1 (.inl rfl)
      simp; exact fun h => this h.symm
    · rw [he b (.inr (.inr hb)), reparent, if_neg]
      simp only [root_node, Option.some.injEq]
      rintro rfl
      exact hn.2.1.1 hb

theorem repC_frame {h h' : Heap α} {top hole} {ctx : List (Frame α)} (hr : RepC h top hole ctx)
    (he : ∀ b ∈ caddrs ctx, h' b = h b) : RepC h' top hole ctx := by
  induction ctx generalizing hole with
  | nil => exact hr
  | cons f ctx ih =>
    cases f with
    | left a x r =>
      obtain ⟨⟨pv, nx, c, d, e⟩, hr, hc⟩ := hr
      simp only [caddrs, List.flatMap_cons, Frame.addrs, List.mem_append, List.mem_cons] at he
      exact ⟨⟨pv, nx, c, d, by rw [he a (by simp), e]⟩, rep_frame hr fun b hb => he b (by simp [hb]),
        ih hc fun b hb => he b (.inr hb)⟩
    | right l a x =>
      obtain ⟨⟨pv, nx, c, d, e⟩, hr, hc⟩ := hr
      simp only [caddrs, List.flatMap_cons, Frame.addrs, List.mem_append, List.mem_cons] at he
      exact ⟨⟨pv, nx, c, d, by rw [he a (by simp), e]⟩, rep_frame hr fun b hb => he b (by simp [hb]),
        ih hc fun b hb => he b (.inr hb)⟩

theorem repC_place {h h' : Heap α} {top hole v} {ctx : List (Frame α)} (hr : RepC h top hole ctx) (hn : (caddrs ctx).Nodup)
    (he : ∀ b ∈ caddrs ctx, h' b = place ctx v h b) : RepC h' (if ctx = [] then v else top) v ctx := by
  cases ctx with
  | nil => simp [RepC]
  | cons f ctx =>
    cases f with
    | left a x r =>
      obtain ⟨⟨pv, nx, c, d, e⟩, hr, hc⟩ := hr
      simp only [caddrs, List.flatMap_cons, Frame.addrs, List.mem_append, List.mem_cons] at he
      simp only [caddrs, List.flatMap_cons, Frame.addrs, List.nodup_append, List.nodup_cons, List.mem_cons,
        List.cons_append, List.mem_append, not_or] at hn
      refine ⟨⟨pv, nx, c, d, by rw [he a (by simp)]; simp [place, upd, e]⟩, rep_frame hr fun b hb => ?_, ?_⟩
      · rw [he b (by simp [hb]), place, upd, if_neg]
        rintro rfl; exact hn.1.1 hb
      · simp only [reduceCtorEq, if_false]
        refine repC_frame hc fun b hb => ?_
        rw [he b (.inr hb), place, upd, if_neg]
        rintro rfl; exact hn.1.2 hb
    | right l a x =>
      obtain ⟨⟨pv, nx, c, d, e⟩, hr, hc⟩ := hr
      simp only [caddrs, List.flatMap_cons, Frame.addrs, List.mem_append, List.mem_cons] at he
      simp only [caddrs, List.flatMap_cons, Frame.addrs, List.nodup_append, List.nodup_cons, List.mem_cons,
        List.cons_append, List.mem_append, not_or] at hn
      refine ⟨⟨pv, nx, c, d, by rw [he a (by simp)]; simp [place, upd, e]⟩, rep_frame hr fun b hb => ?_, ?_⟩
      · rw [he b (by simp [hb]), place, upd, if_neg]
        rintro rfl; exact hn.1.2.2 _ hb _ (.inl rfl) rfl
      · simp only [reduceCtorEq, if_false]
        refine repC_frame hc fun b hb => ?_
        rw [he b (.inr hb), place, upd, if_neg]
        rintro rfl; exact hn.2.2 _ (.inr (.inl rfl)) _ hb rfl



/-! ### Execution -/

/-- There is a node at the address. -/
def Live (h : Heap α) (a : Nat) : Prop := h a ≠ none

@[simp] theorem live_upd {h : Heap α} {a f b} : Live (upd h a f) b ↔ Live h b := by
  unfold Live upd; split <;> simp
@[simp] theorem live_reparent {h : Heap α} {p q b} : Live (reparent h p q) b ↔ Live h b := by
  unfold Live reparent; split <;> simp
@[simp] theorem live_place {h : Heap α} {ctx : List (Frame α)} {v b} : Live (place ctx v h) b ↔ Live h b := by
  unfold place; split <;> simp

/-- The pointer is `NULL` or leads to a node. -/
def LiveP (h : Heap α) (p : Option Nat) : Prop := ∀ a, p = some a → Live h a

@[simp] theorem liveP_upd {h : Heap α} {a f p} : LiveP (upd h a f) p ↔ LiveP h p := by simp [LiveP]
@[simp] theorem liveP_reparent {h : Heap α} {p q b} : LiveP (reparent h p q) b ↔ LiveP h b := by simp [LiveP]
@[simp] theorem liveP_place {h : Heap α} {ctx : List (Frame α)} {v b} : LiveP (place ctx v h) b ↔ LiveP h b := by
  simp [LiveP]

@[simp] theorem liveP_some {h : Heap α} {a} : LiveP h (some a) ↔ Live h a := by simp [LiveP]

theorem load_upd_same {h : Heap α} {a f} : load (upd h a f) (some a) = (load h (some a)).bind fun n => .ok (f n) := by
  unfold load upd
  cases e' : h a <;> simp [e']

theorem load_upd_ne {h : Heap α} {a b f} (e : b ≠ a) : load (upd h a f) (some b) = load h (some b) := by
  simp [load, upd, e]

theorem load_reparent_ne {h : Heap α} {p q b} (e : p ≠ some b) : load (reparent h p q) (some b) = load h (some b) := by
  simp [load, reparent, e]

theorem load_reparent_same {h : Heap α} {a q} :
    load (reparent h (some a) q) (some a) = (load h (some a)).bind fun n => .ok { n with parent := q } := by
  unfold load reparent
  cases e' : h a <;> simp [e']

theorem place_ne {h : Heap α} {ctx : List (Frame α)} {v b} (e : b ∉ caddrs ctx) : place ctx v h b = h b := by
  unfold place
  split
  · rfl
  · simp only [caddrs, List.flatMap_cons, Frame.addrs, List.cons_append, List.mem_cons, not_or] at e
    simp [upd, e.1]
  · simp only [caddrs, List.flatMap_cons, Frame.addrs, List.append_assoc, List.mem_append, List.mem_cons, not_or] at e
    simp [upd, e.2.1.1]

theorem load_place_ne {h : Heap α} {ctx : List (Frame α)} {v b} (e : b ∉ caddrs ctx) :
    load (place ctx v h) (some b) = load h (some b) := by
  simp [load, place_ne e]

theorem store_ok {s : St α} {a f} (e : Live s.heap a) : store s (some a) f = .ok { s with heap := upd s.heap a f } := by
  unfold Live at e; unfold store
  cases e' : s.heap a <;> simp_all

theorem setParent_ok {s : St α} {p q} (e : LiveP s.heap p) :
    setParent s p q = .ok { s with heap := reparent s.heap p q } := by
  cases p with
  | none => rfl
  | some a =>
    rw [setParent, store_ok (e a rfl)]
    congr 2
    funext b
    simp only [upd, reparent, Option.some.injEq]
    by_cases hb : b = a
    · simp [hb]
    · rw [if_neg hb, if_neg (Ne.symm hb)]

theorem nodeCount_upd {h : Heap α} {t hd tl a f p} (e : p ≠ some a) :
    nodeCount ⟨upd h a f, t, hd, tl⟩ p = nodeCount ⟨h, t, hd, tl⟩ p := by
  cases p with
  | none => rfl
  | some b => simp only [nodeCount]; rw [load_upd_ne]; rintro rfl; exact e rfl

theorem nodeCount_reparent {h : Heap α} {t hd tl p q p'} :
    nodeCount ⟨reparent h p' q, t, hd, tl⟩ p = nodeCount ⟨h, t, hd, tl⟩ p := by
  cases p with
  | none => rfl
  | some b =>
    simp only [nodeCount, load, reparent]
    by_cases hb : p' = some b <;> cases h b <;> simp [hb]

/-- The pointer does not lead to a node of the path. -/
def Out (ctx : List (Frame α)) (p : Option Nat) : Prop := ∀ b, p = some b → b ∉ caddrs ctx

theorem nodeCount_place {h : Heap α} {t hd tl v p} {ctx : List (Frame α)} (e : Out ctx p) :
    nodeCount ⟨place ctx v h, t, hd, tl⟩ p = nodeCount ⟨h, t, hd, tl⟩ p := by
  cases p with
  | none => rfl
  | some b => simp only [nodeCount]; rw [load_place_ne (e b rfl)]

theorem nodeDepth_upd {h : Heap α} {t hd tl a f p} (e : p ≠ some a) :
    nodeDepth ⟨upd h a f, t, hd, tl⟩ p = nodeDepth ⟨h, t, hd, tl⟩ p := by
  cases p with
  | none => rfl
  | some b => simp only [nodeDepth]; rw [load_upd_ne]; rintro rfl; exact e rfl

theorem nodeDepth_reparent {h : Heap α} {t hd tl p q p'} :
    nodeDepth ⟨reparent h p' q, t, hd, tl⟩ p = nodeDepth ⟨h, t, hd, tl⟩ p := by
  cases p with
  | none => rfl
  | some b =>
    simp only [nodeDepth, load, reparent]
    by_cases hb : p' = some b <;> cases h b <;> simp [hb]

theorem nodeDepth_place {h : Heap α} {t hd tl v p} {ctx : List (Frame α)} (e : Out ctx p) :
    nodeDepth ⟨place ctx v h, t, hd, tl⟩ p = nodeDepth ⟨h, t, hd, tl⟩ p := by
  cases p with
  | none => rfl
  | some b => simp only [nodeDepth]; rw [load_place_ne (e b rfl)]

theorem nodeCount_some {s : St α} {a} : nodeCount s (some a) = (load s.heap (some a)).bind fun n => .ok n.count := rfl
theorem nodeDepth_some {s : St α} {a} : nodeDepth s (some a) = (load s.heap (some a)).bind fun n => .ok n.depth := rfl

theorem nodeCount_top {h : Heap α} {t hd tl t' p} : nodeCount ⟨h, t, hd, tl⟩ p = nodeCount ⟨h, t', hd, tl⟩ p := rfl

theorem load_of {h : Heap α} {a n} (e : h a = some n) : load h (some a) = .ok n := by simp [load, e]

theorem rep_count {h : Heap α} {q t hd tl} {l : Tree (Nat × α)} (hr : Rep h q l) :
    nodeCount ⟨h, t, hd, tl⟩ (root l) = .ok l.count := by
  cases l with
  | nil => rfl
  | node _ _ _ _ _ => obtain ⟨⟨pv, nx, e⟩, -, -⟩ := hr; simp [nodeCount, load_of e, Tree.count]

theorem rep_depth {h : Heap α} {q t hd tl} {l : Tree (Nat × α)} (hr : Rep h q l) :
    nodeDepth ⟨h, t, hd, tl⟩ (root l) = .ok l.depth := by
  cases l with
  | nil => rfl
  | node _ _ _ _ _ => obtain ⟨⟨pv, nx, e⟩, -, -⟩ := hr; simp [nodeDepth, load_of e, Tree.depth]

theorem rep_live {h : Heap α} {q} {l : Tree (Nat × α)} (hr : Rep h q l) : LiveP h (root l) := by
  intro a ha
  obtain ⟨n, e⟩ := rep_isSome hr (root_mem ha)
  simp [Live, e]

/-- The place where the end of the path holds its pointer. -/
def slot : List (Frame α) → Slot
  | [] => .top
  | .left p _ _ :: _ => .left p
  | .right _ p _ :: _ => .right p

theorem slotOf_ok {s : St α} {a ctx} (hc : RepC s.heap s.top (some a) ctx) (ha : a ∉ caddrs ctx) :
    slotOf s a (par ctx) = .ok (slot ctx) := by
  cases ctx with
  | nil => rfl
  | cons f ctx =>
    cases f with
    | left p x r =>
      obtain ⟨⟨pv, nx, c, d, e⟩, -, -⟩ := hc
      simp [slotOf, par, Frame.addr, load_of e, slot]
    | right l p x =>
      obtain ⟨⟨pv, nx, c, d, e⟩, -, -⟩ := hc
      have : some a ≠ root l := by
        intro e'
        exact ha (by simp [caddrs, Frame.addrs, root_mem e'.symm])
      simp [slotOf, par, Frame.addr, load_of e, slot, this]

/-- There is a node at the end of the path. -/
def live_ctx (h : Heap α) : List (Frame α) → Prop
  | [] => True
  | f :: _ => Live h f.addr

theorem live_of_repC {h : Heap α} {top hole} {ctx : List (Frame α)} (hc : RepC h top hole ctx) : live_ctx h ctx := by
  cases ctx with
  | nil => trivial
  | cons f ctx =>
    cases f <;> (obtain ⟨⟨pv, nx, c, d, e⟩, -, -⟩ := hc; simp [live_ctx, Live, Frame.addr, e])

@[simp] theorem live_ctx_upd {h : Heap α} {a f} {ctx : List (Frame α)} : live_ctx (upd h a f) ctx ↔ live_ctx h ctx := by
  cases ctx <;> simp [live_ctx]
@[simp] theorem live_ctx_reparent {h : Heap α} {p q} {ctx : List (Frame α)} : live_ctx (reparent h p q) ctx ↔ live_ctx h ctx := by
  cases ctx <;> simp [live_ctx]

theorem setSlot_ok {s : St α} {v} {ctx : List (Frame α)} (hl : live_ctx s.heap ctx) :
    setSlot s v (slot ctx) = .ok { s with heap := place ctx v s.heap, top := if ctx = [] then v else s.top } := by
  cases ctx with
  | nil => rfl
  | cons f ctx =>
    cases f with
    | left p x r => simp only [slot, setSlot]; rw [store_ok (a := p) hl]; simp [place]
    | right l p x => simp only [slot, setSlot]; rw [store_ok (a := p) hl]; simp [place]

theorem upd_ne {h : Heap α} {a b f} (e : b ≠ a) : upd h a f b = h b := if_neg e

theorem place_congr {h h' : Heap α} {ctx : List (Frame α)} {v b} (e : h b = h' b) : place ctx v h b = place ctx v h' b := by
  unfold place
  split <;> simp [upd, e]

/-- The fields of a node that rebalancing does not change. -/
def links (n : Node α) : Option Nat × Option Nat × α := (n.prev, n.next, n.item)

theorem links_upd {h : Heap α} {a f b} (e : ∀ n, links (f n) = links n) :
    (upd h a f b).map links = (h b).map links := by
  unfold upd
  split
  · cases h b <;> simp [e]
  · rfl

theorem links_reparent {h : Heap α} {p q b} : (reparent h p q b).map links = (h b).map links := by
  unfold reparent
  split
  · cases h b <;> simp [links]
  · rfl

theorem links_place {h : Heap α} {ctx : List (Frame α)} {v b} : (place ctx v h b).map links = (h b).map links := by
  unfold place
  split
  · rfl
  · exact links_upd fun _ => rfl
  · exact links_upd fun _ => rfl

/-- Head, tail, the `prev` and `next` pointers and the items are the same. -/
structure Same (s s' : St α) : Prop where
  head : s'.head = s.head
  tail : s'.tail = s.tail
  links : ∀ b, (s'.heap b).map links = (s.heap b).map links

theorem root_mk {l r : Tree (Nat × α)} {x} : root (Avl.mk l x r) = some x.1 := rfl
theorem count_mk {l r : Tree (Nat × α)} {x} : (Avl.mk l x r).count = l.count + r.count + 1 := rfl
theorem depth_mk {l r : Tree (Nat × α)} {x} :
    (Avl.mk l x r).depth = (if l.depth > r.depth then l.depth else r.depth) + 1 := rfl

set_option maxHeartbeats 2000000 in
theorem rotateRight_ok {s : St α} {a c} {pva nxa ca da xa pvc nxc cc dc xc} {ll lr r : Tree (Nat × α)}
    {ctx : List (Frame α)}
    (ea : s.heap a = some ⟨pva, nxa, par ctx, some c, root r, xa, ca, da⟩)
    (ec : s.heap c = some ⟨pvc, nxc, some a, root ll, root lr, xc, cc, dc⟩)
    (hll : Rep s.heap (some c) ll)
    (hlr : Rep s.heap (some c) lr)
    (hr : Rep s.heap (some a) r)
    (hctx : RepC s.heap s.top (some a) ctx)
    (hn : (addrs ll ++ c :: addrs lr ++ a :: addrs r ++ caddrs ctx).Nodup) :
    ∃ s', rotateRight s a (some c) (par ctx) (slot ctx) = .ok s' ∧
      Rep s'.heap (par ctx) (Avl.mk ll (c, xc) (Avl.mk lr (a, xa) r)) ∧
      RepC s'.heap s'.top (some c) ctx ∧ Same s s' := by
  have la := load_of ea
  have lc := load_of ec
  have va : Live s.heap a := by simp [Live, ea]
  have vc : Live s.heap c := by simp [Live, ec]
  have vctx := live_of_repC hctx
  obtain ⟨h, top, hd, tl⟩ := s
  dsimp only at *
  have nac : a ≠ c := by grind
  have nca : c ≠ a := by grind
  have actx : a ∉ caddrs ctx := by grind
  have cctx : c ∉ caddrs ctx := by grind
  have rlla : root ll ≠ some a := fun e => by have := root_mem e; grind
  have rllc : root ll ≠ some c := fun e => by have := root_mem e; grind
  have oll : Out ctx (root ll) := fun b e => by have := root_mem e; grind
  have vll := rep_live hll
  have rlra : root lr ≠ some a := fun e => by have := root_mem e; grind
  have rlrc : root lr ≠ some c := fun e => by have := root_mem e; grind
  have olr : Out ctx (root lr) := fun b e => by have := root_mem e; grind
  have vlr := rep_live hlr
  have rra : root r ≠ some a := fun e => by have := root_mem e; grind
  have rrc : root r ≠ some c := fun e => by have := root_mem e; grind
  have or : Out ctx (root r) := fun b e => by have := root_mem e; grind
  have vr := rep_live hr
  simp [rotateRight, calcCount, calcDepth, la, lc, va, vc, vctx, nac, nca, actx, cctx, rlla, rllc, rlra, rlrc, rra, rrc, oll, olr, or, vll, vlr, vr, rep_count hll, rep_count hlr, rep_count hr, rep_depth hll, rep_depth hlr, rep_depth hr, load_upd_same, load_upd_ne, load_reparent_ne, load_reparent_same, load_place_ne, store_ok, setParent_ok,
    setSlot_ok, nodeCount_some, nodeDepth_some, nodeCount_upd, nodeCount_reparent, nodeCount_place, nodeDepth_upd,
    nodeDepth_reparent, nodeDepth_place]
  refine ⟨?_, ?_, ?_⟩
  · refine ⟨⟨pvc, nxc, ?_⟩, rep_frame hll ?_, ⟨pva, nxa, ?_⟩, rep_reparent hlr (by grind) ?_, rep_frame hr ?_⟩
    · simp [upd, reparent, place_ne, ec, root_mk, count_mk, depth_mk, *]
    · intro b hb
      have : b ∉ caddrs ctx := by grind
      have : b ≠ a := by grind
      have : a ≠ b := Ne.symm this
      have : b ≠ c := by grind
      have : c ≠ b := Ne.symm this
      have : root lr ≠ some b := fun e => by have := root_mem e; grind
      have : root r ≠ some b := fun e => by have := root_mem e; grind
      simp [upd, reparent, place_ne, *]
    · simp [upd, reparent, place_ne, ea, root_mk, count_mk, depth_mk, *]
    · intro b hb
      have : b ∉ caddrs ctx := by grind
      have : b ≠ a := by grind
      have : a ≠ b := Ne.symm this
      have : b ≠ c := by grind
      have : c ≠ b := Ne.symm this
      have : root ll ≠ some b := fun e => by have := root_mem e; grind
      have : root r ≠ some b := fun e => by have := root_mem e; grind
      simp [upd, reparent, place_ne, *]
    · intro b hb
      have : b ∉ caddrs ctx := by grind
      have : b ≠ a := by grind
      have : a ≠ b := Ne.symm this
      have : b ≠ c := by grind
      have : c ≠ b := Ne.symm this
      have : root ll ≠ some b := fun e => by have := root_mem e; grind
      have : root lr ≠ some b := fun e => by have := root_mem e; grind
      simp [upd, reparent, place_ne, *]
  · refine repC_place hctx (by grind) fun b hb => ?_
    have : b ≠ a := by grind
    have : a ≠ b := Ne.symm this
    have : b ≠ c := by grind
    have : c ≠ b := Ne.symm this
    have : root ll ≠ some b := fun e => by have := root_mem e; grind
    have : root lr ≠ some b := fun e => by have := root_mem e; grind
    have : root r ≠ some b := fun e => by have := root_mem e; grind
    iterate 5 rw [upd_ne ‹_›]
    exact place_congr (by simp [upd, reparent, *])
  · exact ⟨rfl, rfl, fun b => by
      dsimp only
      repeat first
        | (refine Eq.trans (links_upd ?_) ?_; · intro _; rfl)
        | refine links_reparent.trans ?_
        | refine links_place.trans ?_
      rfl⟩

set_option maxHeartbeats 2000000 in
theorem rotateLeft_ok {s : St α} {a c} {pva nxa ca da xa pvc nxc cc dc xc} {l rl rr : Tree (Nat × α)}
    {ctx : List (Frame α)}
    (ea : s.heap a = some ⟨pva, nxa, par ctx, root l, some c, xa, ca, da⟩)
    (ec : s.heap c = some ⟨pvc, nxc, some a, root rl, root rr, xc, cc, dc⟩)
    (hl : Rep s.heap (some a) l)
    (hrl : Rep s.heap (some c) rl)
    (hrr : Rep s.heap (some c) rr)
    (hctx : RepC s.heap s.top (some a) ctx)
    (hn : (addrs l ++ a :: addrs rl ++ c :: addrs rr ++ caddrs ctx).Nodup) :
    ∃ s', rotateLeft s a (some c) (par ctx) (slot ctx) = .ok s' ∧
      Rep s'.heap (par ctx) (Avl.mk (Avl.mk l (a, xa) rl) (c, xc) rr) ∧
      RepC s'.heap s'.top (some c) ctx ∧ Same s s' := by
  have la := load_of ea
  have lc := load_of ec
  have va : Live s.heap a := by simp [Live, ea]
  have vc : Live s.heap c := by simp [Live, ec]
  have vctx := live_of_repC hctx
  obtain ⟨h, top, hd, tl⟩ := s
  dsimp only at *
  have nac : a ≠ c := by grind
  have nca : c ≠ a := by grind
  have actx : a ∉ caddrs ctx := by grind
  have cctx : c ∉ caddrs ctx := by grind
  have rla : root l ≠ some a := fun e => by have := root_mem e; grind
  have rlc : root l ≠ some c := fun e => by have := root_mem e; grind
  have ol : Out ctx (root l) := fun b e => by have := root_mem e; grind
  have vl := rep_live hl
  have rrla : root rl ≠ some a := fun e => by have := root_mem e; grind
  have rrlc : root rl ≠ some c := fun e => by have := root_mem e; grind
  have orl : Out ctx (root rl) := fun b e => by have := root_mem e; grind
  have vrl := rep_live hrl
  have rrra : root rr ≠ some a := fun e => by have := root_mem e; grind
  have rrrc : root rr ≠ some c := fun e => by have := root_mem e; grind
  have orr : Out ctx (root rr) := fun b e => by have := root_mem e; grind
  have vrr := rep_live hrr
  simp [rotateLeft, calcCount, calcDepth, la, lc, va, vc, vctx, nac, nca, actx, cctx, rla, rlc, rrla, rrlc, rrra, rrrc, ol, orl, orr, vl, vrl, vrr, rep_count hl, rep_count hrl, rep_count hrr, rep_depth hl, rep_depth hrl, rep_depth hrr, load_upd_same, load_upd_ne, load_reparent_ne, load_reparent_same, load_place_ne, store_ok, setParent_ok,
    setSlot_ok, nodeCount_some, nodeDepth_some, nodeCount_upd, nodeCount_reparent, nodeCount_place, nodeDepth_upd,
    nodeDepth_reparent, nodeDepth_place]
  refine ⟨?_, ?_, ?_⟩
  · refine ⟨⟨pvc, nxc, ?_⟩, ⟨⟨pva, nxa, ?_⟩, rep_frame hl ?_, rep_reparent hrl (by grind) ?_⟩, rep_frame hrr ?_⟩
    · simp [upd, reparent, place_ne, ec, root_mk, count_mk, depth_mk, *]
    · simp [upd, reparent, place_ne, ea, root_mk, count_mk, depth_mk, *]
    · intro b hb
      have : b ∉ caddrs ctx := by grind
      have : b ≠ a := by grind
      have : a ≠ b := Ne.symm this
      have : b ≠ c := by grind
      have : c ≠ b := Ne.symm this
      have : root rl ≠ some b := fun e => by have := root_mem e; grind
      have : root rr ≠ some b := fun e => by have := root_mem e; grind
      simp [upd, reparent, place_ne, *]
    · intro b hb
      have : b ∉ caddrs ctx := by grind
      have : b ≠ a := by grind
      have : a ≠ b := Ne.symm this
      have : b ≠ c := by grind
      have : c ≠ b := Ne.symm this
      have : root l ≠ some b := fun e => by have := root_mem e; grind
      have : root rr ≠ some b := fun e => by have := root_mem e; grind
      simp [upd, reparent, place_ne, *]
    · intro b hb
      have : b ∉ caddrs ctx := by grind
      have : b ≠ a := by grind
      have : a ≠ b := Ne.symm this
      have : b ≠ c := by grind
      have : c ≠ b := Ne.symm this
      have : root l ≠ some b := fun e => by have := root_mem e; grind
      have : root rl ≠ some b := fun e => by have := root_mem e; grind
      simp [upd, reparent, place_ne, *]
  · refine repC_place hctx (by grind) fun b hb => ?_
    have : b ≠ a := by grind
    have : a ≠ b := Ne.symm this
    have : b ≠ c := by grind
    have : c ≠ b := Ne.symm this
    have : root l ≠ some b := fun e => by have := root_mem e; grind
    have : root rl ≠ some b := fun e => by have := root_mem e; grind
    have : root rr ≠ some b := fun e => by have := root_mem e; grind
    iterate 5 rw [upd_ne ‹_›]
    exact place_congr (by simp [upd, reparent, *])
  · exact ⟨rfl, rfl, fun b => by
      dsimp only
      repeat first
        | (refine Eq.trans (links_upd ?_) ?_; · intro _; rfl)
        | refine links_reparent.trans ?_
        | refine links_place.trans ?_
      rfl⟩

set_option maxHeartbeats 2000000 in
theorem rotateLeftRight_ok {s : St α} {a c g} {pva nxa ca da xa pvc nxc cc dc xc pvg nxg cg dg xg} {ll gl gr r : Tree (Nat × α)}
    {ctx : List (Frame α)}
    (ea : s.heap a = some ⟨pva, nxa, par ctx, some c, root r, xa, ca, da⟩)
    (ec : s.heap c = some ⟨pvc, nxc, some a, root ll, some g, xc, cc, dc⟩)
    (eg : s.heap g = some ⟨pvg, nxg, some c, root gl, root gr, xg, cg, dg⟩)
    (hll : Rep s.heap (some c) ll)
    (hgl : Rep s.heap (some g) gl)
    (hgr : Rep s.heap (some g) gr)
    (hr : Rep s.heap (some a) r)
    (hctx : RepC s.heap s.top (some a) ctx)
    (hn : (addrs ll ++ c :: addrs gl ++ g :: addrs gr ++ a :: addrs r ++ caddrs ctx).Nodup) :
    ∃ s', rotateLeftRight s a (some c) (par ctx) (slot ctx) = .ok s' ∧
      Rep s'.heap (par ctx) (Avl.mk (Avl.mk ll (c, xc) gl) (g, xg) (Avl.mk gr (a, xa) r)) ∧
      RepC s'.heap s'.top (some g) ctx ∧ Same s s' := by
  have la := load_of ea
  have lc := load_of ec
  have lg := load_of eg
  have va : Live s.heap a := by simp [Live, ea]
  have vc : Live s.heap c := by simp [Live, ec]
  have vg : Live s.heap g := by simp [Live, eg]
  have vctx := live_of_repC hctx
  obtain ⟨h, top, hd, tl⟩ := s
  dsimp only at *
  have nac : a ≠ c := by grind
  have nag : a ≠ g := by grind
  have nca : c ≠ a := by grind
  have ncg : c ≠ g := by grind
  have nga : g ≠ a := by grind
  have ngc : g ≠ c := by grind
  have actx : a ∉ caddrs ctx := by grind
  have cctx : c ∉ caddrs ctx := by grind
  have gctx : g ∉ caddrs ctx := by grind
  have rlla : root ll ≠ some a := fun e => by have := root_mem e; grind
  have rllc : root ll ≠ some c := fun e => by have := root_mem e; grind
  have rllg : root ll ≠ some g := fun e => by have := root_mem e; grind
  have oll : Out ctx (root ll) := fun b e => by have := root_mem e; grind
  have vll := rep_live hll
  have rgla : root gl ≠ some a := fun e => by have := root_mem e; grind
  have rglc : root gl ≠ some c := fun e => by have := root_mem e; grind
  have rglg : root gl ≠ some g := fun e => by have := root_mem e; grind
  have ogl : Out ctx (root gl) := fun b e => by have := root_mem e; grind
  have vgl := rep_live hgl
  have rgra : root gr ≠ some a := fun e => by have := root_mem e; grind
  have rgrc : root gr ≠ some c := fun e => by have := root_mem e; grind
  have rgrg : root gr ≠ some g := fun e => by have := root_mem e; grind
  have ogr : Out ctx (root gr) := fun b e => by have := root_mem e; grind
  have vgr := rep_live hgr
  have rra : root r ≠ some a := fun e => by have := root_mem e; grind
  have rrc : root r ≠ some c := fun e => by have := root_mem e; grind
  have rrg : root r ≠ some g := fun e => by have := root_mem e; grind
  have or : Out ctx (root r) := fun b e => by have := root_mem e; grind
  have vr := rep_live hr
  simp [rotateLeftRight, calcCount, calcDepth, la, lc, lg, va, vc, vg, vctx, nac, nag, nca, ncg, nga, ngc, actx, cctx, gctx, rlla, rllc, rllg, rgla, rglc, rglg, rgra, rgrc, rgrg, rra, rrc, rrg, oll, ogl, ogr, or, vll, vgl, vgr, vr, rep_count hll, rep_count hgl, rep_count hgr, rep_count hr, rep_depth hll, rep_depth hgl, rep_depth hgr, rep_depth hr, load_upd_same, load_upd_ne, load_reparent_ne, load_reparent_same, load_place_ne, store_ok, setParent_ok,
    setSlot_ok, nodeCount_some, nodeDepth_some, nodeCount_upd, nodeCount_reparent, nodeCount_place, nodeDepth_upd,
    nodeDepth_reparent, nodeDepth_place]
  refine ⟨?_, ?_, ?_⟩
  · refine ⟨⟨pvg, nxg, ?_⟩, ⟨⟨pvc, nxc, ?_⟩, rep_frame hll ?_, rep_reparent hgl (by grind) ?_⟩,
      ⟨pva, nxa, ?_⟩, rep_reparent hgr (by grind) ?_, rep_frame hr ?_⟩
    · simp [upd, reparent, place_ne, eg, root_mk, count_mk, depth_mk, *]
    · simp [upd, reparent, place_ne, ec, root_mk, count_mk, depth_mk, *]
    · intro b hb
      have : b ∉ caddrs ctx := by grind
      have : b ≠ a := by grind
      have : a ≠ b := Ne.symm this
      have : b ≠ c := by grind
      have : c ≠ b := Ne.symm this
      have : b ≠ g := by grind
      have : g ≠ b := Ne.symm this
      have : root gl ≠ some b := fun e => by have := root_mem e; grind
      have : root gr ≠ some b := fun e => by have := root_mem e; grind
      have : root r ≠ some b := fun e => by have := root_mem e; grind
      simp [upd, reparent, place_ne, *]
    · intro b hb
      have : b ∉ caddrs ctx := by grind
      have : b ≠ a := by grind
      have : a ≠ b := Ne.symm this
      have : b ≠ c := by grind
      have : c ≠ b := Ne.symm this
      have : b ≠ g := by grind
      have : g ≠ b := Ne.symm this
      have : root ll ≠ some b := fun e => by have := root_mem e; grind
      have : root gr ≠ some b := fun e => by have := root_mem e; grind
      have : root r ≠ some b := fun e => by have := root_mem e; grind
      simp [upd, reparent, place_ne, *]
    · simp [upd, reparent, place_ne, ea, root_mk, count_mk, depth_mk, *]
    · intro b hb
      have : b ∉ caddrs ctx := by grind
      have : b ≠ a := by grind
      have : a ≠ b := Ne.symm this
      have : b ≠ c := by grind
      have : c ≠ b := Ne.symm this
      have : b ≠ g := by grind
      have : g ≠ b := Ne.symm this
      have : root ll ≠ some b := fun e => by have := root_mem e; grind
      have : root gl ≠ some b := fun e => by have := root_mem e; grind
      have : root r ≠ some b := fun e => by have := root_mem e; grind
      simp [upd, reparent, place_ne, *]
    · intro b hb
      have : b ∉ caddrs ctx := by grind
      have : b ≠ a := by grind
      have : a ≠ b := Ne.symm this
      have : b ≠ c := by grind
      have : c ≠ b := Ne.symm this
      have : b ≠ g := by grind
      have : g ≠ b := Ne.symm this
      have : root ll ≠ some b := fun e => by have := root_mem e; grind
      have : root gl ≠ some b := fun e => by have := root_mem e; grind
      have : root gr ≠ some b := fun e => by have := root_mem e; grind
      simp [upd, reparent, place_ne, *]
  · refine repC_place hctx (by grind) fun b hb => ?_
    have : b ≠ a := by grind
    have : a ≠ b := Ne.symm this
    have : b ≠ c := by grind
    have : c ≠ b := Ne.symm this
    have : b ≠ g := by grind
    have : g ≠ b := Ne.symm this
    have : root ll ≠ some b := fun e => by have := root_mem e; grind
    have : root gl ≠ some b := fun e => by have := root_mem e; grind
    have : root gr ≠ some b := fun e => by have := root_mem e; grind
    have : root r ≠ some b := fun e => by have := root_mem e; grind
    iterate 7 rw [upd_ne ‹_›]
    exact place_congr (by simp [upd, reparent, *])
  · exact ⟨rfl, rfl, fun b => by
      dsimp only
      repeat first
        | (refine Eq.trans (links_upd ?_) ?_; · intro _; rfl)
        | refine links_reparent.trans ?_
        | refine links_place.trans ?_
      rfl⟩

set_option maxHeartbeats 2000000 in
theorem rotateRightLeft_ok {s : St α} {a c g} {pva nxa ca da xa pvc nxc cc dc xc pvg nxg cg dg xg} {l gl gr rr : Tree (Nat × α)}
    {ctx : List (Frame α)}
    (ea : s.heap a = some ⟨pva, nxa, par ctx, root l, some c, xa, ca, da⟩)
    (ec : s.heap c = some ⟨pvc, nxc, some a, some g, root rr, xc, cc, dc⟩)
    (eg : s.heap g = some ⟨pvg, nxg, some c, root gl, root gr, xg, cg, dg⟩)
    (hl : Rep s.heap (some a) l)
    (hgl : Rep s.heap (some g) gl)
    (hgr : Rep s.heap (some g) gr)
    (hrr : Rep s.heap (some c) rr)
    (hctx : RepC s.heap s.top (some a) ctx)
    (hn : (addrs l ++ a :: addrs gl ++ g :: addrs gr ++ c :: addrs rr ++ caddrs ctx).Nodup) :
    ∃ s', rotateRightLeft s a (some c) (par ctx) (slot ctx) = .ok s' ∧
      Rep s'.heap (par ctx) (Avl.mk (Avl.mk l (a, xa) gl) (g, xg) (Avl.mk gr (c, xc) rr)) ∧
      RepC s'.heap s'.top (some g) ctx ∧ Same s s' := by
  have la := load_of ea
  have lc := load_of ec
  have lg := load_of eg
  have va : Live s.heap a := by simp [Live, ea]
  have vc : Live s.heap c := by simp [Live, ec]
  have vg : Live s.heap g := by simp [Live, eg]
  have vctx := live_of_repC hctx
  obtain ⟨h, top, hd, tl⟩ := s
  dsimp only at *
  have nac : a ≠ c := by grind
  have nag : a ≠ g := by grind
  have nca : c ≠ a := by grind
  have ncg : c ≠ g := by grind
  have nga : g ≠ a := by grind
  have ngc : g ≠ c := by grind
  have actx : a ∉ caddrs ctx := by grind
  have cctx : c ∉ caddrs ctx := by grind
  have gctx : g ∉ caddrs ctx := by grind
  have rla : root l ≠ some a := fun e => by have := root_mem e; grind
  have rlc : root l ≠ some c := fun e => by have := root_mem e; grind
  have rlg : root l ≠ some g := fun e => by have := root_mem e; grind
  have ol : Out ctx (root l) := fun b e => by have := root_mem e; grind
  have vl := rep_live hl
  have rgla : root gl ≠ some a := fun e => by have := root_mem e; grind
  have rglc : root gl ≠ some c := fun e => by have := root_mem e; grind
  have rglg : root gl ≠ some g := fun e => by have := root_mem e; grind
  have ogl : Out ctx (root gl) := fun b e => by have := root_mem e; grind
  have vgl := rep_live hgl
  have rgra : root gr ≠ some a := fun e => by have := root_mem e; grind
  have rgrc : root gr ≠ some c := fun e => by have := root_mem e; grind
  have rgrg : root gr ≠ some g := fun e => by have := root_mem e; grind
  have ogr : Out ctx (root gr) := fun b e => by have := root_mem e; grind
  have vgr := rep_live hgr
  have rrra : root rr ≠ some a := fun e => by have := root_mem e; grind
  have rrrc : root rr ≠ some c := fun e => by have := root_mem e; grind
  have rrrg : root rr ≠ some g := fun e => by have := root_mem e; grind
  have orr : Out ctx (root rr) := fun b e => by have := root_mem e; grind
  have vrr := rep_live hrr
  simp [rotateRightLeft, calcCount, calcDepth, la, lc, lg, va, vc, vg, vctx, nac, nag, nca, ncg, nga, ngc, actx, cctx, gctx, rla, rlc, rlg, rgla, rglc, rglg, rgra, rgrc, rgrg, rrra, rrrc, rrrg, ol, ogl, ogr, orr, vl, vgl, vgr, vrr, rep_count hl, rep_count hgl, rep_count hgr, rep_count hrr, rep_depth hl, rep_depth hgl, rep_depth hgr, rep_depth hrr, load_upd_same, load_upd_ne, load_reparent_ne, load_reparent_same, load_place_ne, store_ok, setParent_ok,
    setSlot_ok, nodeCount_some, nodeDepth_some, nodeCount_upd, nodeCount_reparent, nodeCount_place, nodeDepth_upd,
    nodeDepth_reparent, nodeDepth_place]
  refine ⟨?_, ?_, ?_⟩
  · refine ⟨⟨pvg, nxg, ?_⟩, ⟨⟨pva, nxa, ?_⟩, rep_frame hl ?_, rep_reparent hgl (by grind) ?_⟩,
      ⟨pvc, nxc, ?_⟩, rep_reparent hgr (by grind) ?_, rep_frame hrr ?_⟩
    · simp [upd, reparent, place_ne, eg, root_mk, count_mk, depth_mk, *]
    · simp [upd, reparent, place_ne, ea, root_mk, count_mk, depth_mk, *]
    · intro b hb
      have : b ∉ caddrs ctx := by grind
      have : b ≠ a := by grind
      have : a ≠ b := Ne.symm this
      have : b ≠ c := by grind
      have : c ≠ b := Ne.symm this
      have : b ≠ g := by grind
      have : g ≠ b := Ne.symm this
      have : root gl ≠ some b := fun e => by have := root_mem e; grind
      have : root gr ≠ some b := fun e => by have := root_mem e; grind
      have : root rr ≠ some b := fun e => by have := root_mem e; grind
      simp [upd, reparent, place_ne, *]
    · intro b hb
      have : b ∉ caddrs ctx := by grind
      have : b ≠ a := by grind
      have : a ≠ b := Ne.symm this
      have : b ≠ c := by grind
      have : c ≠ b := Ne.symm this
      have : b ≠ g := by grind
      have : g ≠ b := Ne.symm this
      have : root l ≠ some b := fun e => by have := root_mem e; grind
      have : root gr ≠ some b := fun e => by have := root_mem e; grind
      have : root rr ≠ some b := fun e => by have := root_mem e; grind
      simp [upd, reparent, place_ne, *]
    · simp [upd, reparent, place_ne, ec, root_mk, count_mk, depth_mk, *]
    · intro b hb
      have : b ∉ caddrs ctx := by grind
      have : b ≠ a := by grind
      have : a ≠ b := Ne.symm this
      have : b ≠ c := by grind
      have : c ≠ b := Ne.symm this
      have : b ≠ g := by grind
      have : g ≠ b := Ne.symm this
      have : root l ≠ some b := fun e => by have := root_mem e; grind
      have : root gl ≠ some b := fun e => by have := root_mem e; grind
      have : root rr ≠ some b := fun e => by have := root_mem e; grind
      simp [upd, reparent, place_ne, *]
    · intro b hb
      have : b ∉ caddrs ctx := by grind
      have : b ≠ a := by grind
      have : a ≠ b := Ne.symm this
      have : b ≠ c := by grind
      have : c ≠ b := Ne.symm this
      have : b ≠ g := by grind
      have : g ≠ b := Ne.symm this
      have : root l ≠ some b := fun e => by have := root_mem e; grind
      have : root gl ≠ some b := fun e => by have := root_mem e; grind
      have : root gr ≠ some b := fun e => by have := root_mem e; grind
      simp [upd, reparent, place_ne, *]
  · refine repC_place hctx (by grind) fun b hb => ?_
    have : b ≠ a := by grind
    have : a ≠ b := Ne.symm this
    have : b ≠ c := by grind
    have : c ≠ b := Ne.symm this
    have : b ≠ g := by grind
    have : g ≠ b := Ne.symm this
    have : root l ≠ some b := fun e => by have := root_mem e; grind
    have : root gl ≠ some b := fun e => by have := root_mem e; grind
    have : root gr ≠ some b := fun e => by have := root_mem e; grind
    have : root rr ≠ some b := fun e => by have := root_mem e; grind
    iterate 7 rw [upd_ne ‹_›]
    exact place_congr (by simp [upd, reparent, *])
  · exact ⟨rfl, rfl, fun b => by
      dsimp only
      repeat first
        | (refine Eq.trans (links_upd ?_) ?_; · intro _; rfl)
        | refine links_reparent.trans ?_
        | refine links_place.trans ?_
      rfl⟩

end AvlPtr
