import Verif.Base.Res

/-!
Model of the AVL tree of `/repo/src/mo_avl_tree.c` at the level of pointers: the nodes lie in a heap and are changed field
by field, in the order of the statements of the code.  Reading or writing through `NULL` or through an address without a
node is undefined behaviour.

* An address is a natural number, a pointer an `Option Nat`, `NULL` is `none`.
* A loop or recursion gets `fuel` as argument, the number of steps it may take; running out of fuel is an outcome
  different from `ok` (`Res.error`), so that `ok` includes termination.
* The tree object itself (`avl_tree_t`) is not in the heap and never `NULL`; it has no allocator (`avl_tree_init`, line
  427, sets it to `NULL`).  `malloc` does not fail; the address it returns and the previous content of the memory are
  arguments.
* `count` and `depth` are natural numbers (in the code `unsigned long` and `unsigned char`, see `C33_depth_fits`).
* The functions excluded from compilation by `AVL_TREE_COMMENT_UNUSED` are not modelled.
-/

namespace AvlPtr

variable {α : Type}

/-- `avl_node_t`, `/repo/src/mo_avl_tree.c` lines 68-81. -/
structure Node (α : Type) where
  prev : Option Nat
  next : Option Nat
  parent : Option Nat
  left : Option Nat
  right : Option Nat
  item : α
  count : Nat
  depth : Nat
deriving DecidableEq

/-- The memory that holds nodes; no code of its own (`malloc` and `free` of nodes, `/repo/src/mo_avl_tree.c` lines 460
and 544). -/
abbrev Heap (α : Type) := Nat → Option (Node α)

/-- `avl_tree_t`, `/repo/src/mo_avl_tree.c` lines 85-93 (without the functions), together with the memory. -/
structure St (α : Type) where
  heap : Heap α
  top : Option Nat
  head : Option Nat
  tail : Option Nat

/-- Reading `*p`, as in `/repo/src/mo_avl_tree.c` line 753; no function of its own in the code. -/
def load (h : Heap α) : Option Nat → Res (Node α)
  | none => .ub
  | some a => match h a with
    | none => .ub
    | some n => .ok n

/-- The memory after a change of the node at `a`; no function of its own in the code (assignments such as
`/repo/src/mo_avl_tree.c` line 754). -/
def upd (h : Heap α) (a : Nat) (f : Node α → Node α) : Heap α := fun b => if b = a then (h b).map f else h b

/-- An assignment to a field of `*p`, as in `/repo/src/mo_avl_tree.c` line 754; no function of its own in the code. -/
def store (s : St α) (p : Option Nat) (f : Node α → Node α) : Res (St α) :=
  match p with
  | none => .ub
  | some a => match s.heap a with
    | none => .ub
    | some _ => .ok { s with heap := upd s.heap a f }

/-- `if (p) p->parent = q;`, as in `/repo/src/mo_avl_tree.c` lines 771-772 and 896-897; no function of its own in the
code. -/
def setParent (s : St α) (p q : Option Nat) : Res (St α) :=
  match p with
  | none => .ok s
  | some a => store s (some a) fun n => { n with parent := q }

/-- The pointer variable to which `superparent` points, `/repo/src/mo_avl_tree.c` lines 765 and 881. -/
inductive Slot where
  | top
  | left (p : Nat)
  | right (p : Nat)

/-- The value of `superparent`, `/repo/src/mo_avl_tree.c` lines 765 and 881: the place where the pointer to the node `a`
with the given parent is stored. -/
def slotOf (s : St α) (a : Nat) : (parent : Option Nat) → Res Slot
  | none => .ok .top
  | some p => do
    let n ← load s.heap (some p)
    if some a = n.left then .ok (.left p) else .ok (.right p)

/-- `*superparent = v`, as in `/repo/src/mo_avl_tree.c` line 900. -/
def setSlot (s : St α) (v : Option Nat) : Slot → Res (St α)
  | .top => .ok { s with top := v }
  | .left p => store s (some p) fun n => { n with left := v }
  | .right p => store s (some p) fun n => { n with right := v }

/-- `AVL_NODE_COUNT`, `/repo/src/mo_avl_tree.c` line 109. -/
def nodeCount (s : St α) : Option Nat → Res Nat
  | none => .ok 0
  | some a => do
    let n ← load s.heap (some a)
    .ok n.count

/-- `AVL_NODE_DEPTH`, `/repo/src/mo_avl_tree.c` line 116. -/
def nodeDepth (s : St α) : Option Nat → Res Nat
  | none => .ok 0
  | some a => do
    let n ← load s.heap (some a)
    .ok n.depth

/-- `p->count = AVL_CALC_COUNT(p)`, `/repo/src/mo_avl_tree.c` lines 112 and 903. -/
def calcCount (s : St α) (p : Option Nat) : Res (St α) := do
  let n ← load s.heap p
  let l ← nodeCount s n.left
  let r ← nodeCount s n.right
  store s p fun n => { n with count := l + r + 1 }

/-- `p->depth = AVL_CALC_DEPTH(p)`, `/repo/src/mo_avl_tree.c` lines 119 and 907. -/
def calcDepth (s : St α) (p : Option Nat) : Res (St α) := do
  let n ← load s.heap p
  let l ← nodeDepth s n.left
  let r ← nodeDepth s n.right
  store s p fun n => { n with depth := (if l > r then l else r) + 1 }

/-- `avl_check_balance`, `/repo/src/mo_avl_tree.c` lines 129-133. -/
def checkBalance (s : St α) (a : Nat) : Res Int := do
  let n ← load s.heap (some a)
  let r ← nodeDepth s n.right
  let l ← nodeDepth s n.left
  let d : Int := (r : Int) - (l : Int)
  .ok (if d < -1 then -1 else if d > 1 then 1 else 0)

/-- Single rotation for a left side that is too deep, `/repo/src/mo_avl_tree.c` lines 895-909. -/
def rotateRight (s : St α) (a : Nat) (child parent : Option Nat) (slot : Slot) : Res (St α) := do
  let c ← load s.heap child
  let s ← store s (some a) fun n => { n with left := c.right }
  let n ← load s.heap (some a)
  let s ← setParent s n.left (some a)
  let s ← store s child fun n => { n with right := some a }
  let s ← store s (some a) fun n => { n with parent := child }
  let s ← setSlot s child slot
  let s ← store s child fun n => { n with parent := parent }
  let s ← calcCount s (some a)
  let s ← calcCount s child
  let s ← calcDepth s (some a)
  calcDepth s child

/-- Double rotation for a left side that is too deep, `/repo/src/mo_avl_tree.c` lines 911-935. -/
def rotateLeftRight (s : St α) (a : Nat) (child parent : Option Nat) (slot : Slot) : Res (St α) := do
  let c ← load s.heap child
  let gchild := c.right
  let g ← load s.heap gchild
  let s ← store s (some a) fun n => { n with left := g.right }
  let n ← load s.heap (some a)
  let s ← setParent s n.left (some a)
  let g ← load s.heap gchild
  let s ← store s child fun n => { n with right := g.left }
  let c ← load s.heap child
  let s ← setParent s c.right child
  let s ← store s gchild fun n => { n with right := some a }
  let g ← load s.heap gchild
  let s ← setParent s g.right gchild
  let s ← store s gchild fun n => { n with left := child }
  let g ← load s.heap gchild
  let s ← setParent s g.left gchild
  let s ← setSlot s gchild slot
  let s ← store s gchild fun n => { n with parent := parent }
  let s ← calcCount s (some a)
  let s ← calcCount s child
  let s ← calcCount s gchild
  let s ← calcDepth s (some a)
  let s ← calcDepth s child
  calcDepth s gchild

/-- Single rotation for a right side that is too deep, `/repo/src/mo_avl_tree.c` lines 949-963. -/
def rotateLeft (s : St α) (a : Nat) (child parent : Option Nat) (slot : Slot) : Res (St α) := do
  let c ← load s.heap child
  let s ← store s (some a) fun n => { n with right := c.left }
  let n ← load s.heap (some a)
  let s ← setParent s n.right (some a)
  let s ← store s child fun n => { n with left := some a }
  let s ← store s (some a) fun n => { n with parent := child }
  let s ← setSlot s child slot
  let s ← store s child fun n => { n with parent := parent }
  let s ← calcCount s (some a)
  let s ← calcCount s child
  let s ← calcDepth s (some a)
  calcDepth s child

/-- Double rotation for a right side that is too deep, `/repo/src/mo_avl_tree.c` lines 965-989. -/
def rotateRightLeft (s : St α) (a : Nat) (child parent : Option Nat) (slot : Slot) : Res (St α) := do
  let c ← load s.heap child
  let gchild := c.left
  let g ← load s.heap gchild
  let s ← store s (some a) fun n => { n with right := g.left }
  let n ← load s.heap (some a)
  let s ← setParent s n.right (some a)
  let g ← load s.heap gchild
  let s ← store s child fun n => { n with left := g.right }
  let c ← load s.heap child
  let s ← setParent s c.left child
  let s ← store s gchild fun n => { n with left := some a }
  let g ← load s.heap gchild
  let s ← setParent s g.left gchild
  let s ← store s gchild fun n => { n with right := child }
  let g ← load s.heap gchild
  let s ← setParent s g.right gchild
  let s ← setSlot s gchild slot
  let s ← store s gchild fun n => { n with parent := parent }
  let s ← calcCount s (some a)
  let s ← calcCount s child
  let s ← calcCount s gchild
  let s ← calcDepth s (some a)
  let s ← calcDepth s child
  calcDepth s gchild

/-- The body of the loop of `avl_rebalance` for the node `a`, `/repo/src/mo_avl_tree.c` lines 879-999; also the next
value of `avlnode`. -/
def rebalanceStep (s : St α) (a : Nat) : Res (St α × Option Nat) := do
  let n ← load s.heap (some a)
  let parent := n.parent
  let slot ← slotOf s a parent
  let b ← checkBalance s a
  if b = -1 then do
    let n ← load s.heap (some a)
    let child := n.left
    let c ← load s.heap child
    let l ← nodeDepth s c.left
    let r ← nodeDepth s c.right
    let s ← if l ≥ r then rotateRight s a child parent slot else rotateLeftRight s a child parent slot
    .ok (s, parent)
  else if b = 1 then do
    let n ← load s.heap (some a)
    let child := n.right
    let c ← load s.heap child
    let r ← nodeDepth s c.right
    let l ← nodeDepth s c.left
    let s ← if r ≥ l then rotateLeft s a child parent slot else rotateRightLeft s a child parent slot
    .ok (s, parent)
  else do
    let s ← calcCount s (some a)
    let s ← calcDepth s (some a)
    .ok (s, parent)

/-- `avl_rebalance`, `/repo/src/mo_avl_tree.c` lines 872-1002. -/
def rebalance : (fuel : Nat) → St α → Option Nat → Res (St α)
  | _, s, none => .ok s
  | 0, _, some _ => .error
  | fuel + 1, s, some a => do
    let (s, parent) ← rebalanceStep s a
    rebalance fuel s parent

/-! ### Insertion -/

/-- `avl_node_clear`, `/repo/src/mo_avl_tree.c` lines 509-517. -/
def nodeClear (s : St α) (p : Nat) : Res (St α) :=
  store s (some p) fun n => { n with left := none, right := none, count := 1, depth := 1 }

/-- `avl_alloc` and `avl_node_init`, `/repo/src/mo_avl_tree.c` lines 522-547: `malloc` has returned the address `p` of
memory with the content `junk`. -/
def alloc (s : St α) (p : Nat) (junk : Node α) (x : α) : St α :=
  { s with heap := fun b => if b = p then some { junk with item := x } else s.heap b }

/-- `avl_insert_top`, `/repo/src/mo_avl_tree.c` lines 553-558. -/
def insertTop (s : St α) (p : Nat) : Res (St α) := do
  let s ← nodeClear s p
  let s ← store s (some p) fun n => { n with prev := none, next := none, parent := none }
  .ok { s with head := some p, tail := some p, top := some p }

mutual

/-- `avl_node_insert_before`, `/repo/src/mo_avl_tree.c` lines 563-588. -/
def insertBefore (fuel : Nat) (s : St α) (node : Option Nat) (p : Nat) : Res (St α) :=
  match fuel with
  | 0 => .error
  | fuel + 1 =>
    match node with
    | none => match s.tail with
      | some t => insertAfter fuel s (some t) p
      | none => insertTop s p
    | some a => do
      let n ← load s.heap (some a)
      if n.left.isSome then insertAfter fuel s n.prev p
      else do
        let s ← nodeClear s p
        let s ← store s (some p) fun m => { m with next := some a }
        let s ← store s (some p) fun m => { m with parent := some a }
        let n ← load s.heap (some a)
        let s ← store s (some p) fun m => { m with prev := n.prev }
        let s ← match n.prev with
          | some q => store s (some q) fun m => { m with next := some p }
          | none => .ok { s with head := some p }
        let s ← store s (some a) fun m => { m with prev := some p }
        let s ← store s (some a) fun m => { m with left := some p }
        rebalance fuel s (some a)

/-- `avl_node_insert_after`, `/repo/src/mo_avl_tree.c` lines 593-618. -/
def insertAfter (fuel : Nat) (s : St α) (node : Option Nat) (p : Nat) : Res (St α) :=
  match fuel with
  | 0 => .error
  | fuel + 1 =>
    match node with
    | none => match s.head with
      | some t => insertBefore fuel s (some t) p
      | none => insertTop s p
    | some a => do
      let n ← load s.heap (some a)
      if n.right.isSome then insertBefore fuel s n.next p
      else do
        let s ← nodeClear s p
        let s ← store s (some p) fun m => { m with prev := some a }
        let s ← store s (some p) fun m => { m with parent := some a }
        let n ← load s.heap (some a)
        let s ← store s (some p) fun m => { m with next := n.next }
        let s ← match n.next with
          | some q => store s (some q) fun m => { m with prev := some p }
          | none => .ok { s with tail := some p }
        let s ← store s (some a) fun m => { m with next := some p }
        let s ← store s (some a) fun m => { m with right := some p }
        rebalance fuel s (some a)

end

/-! ### Searching -/

/-- The loop of `avl_search_rightish`, `/repo/src/mo_avl_tree.c` lines 343-359, at the node `a`. -/
def rightishLoop (cmp : α → α → Int) (h : Heap α) (x : α) : (fuel : Nat) → (a : Option Nat) → Res (Option Nat × Bool)
  | 0, _ => .error
  | fuel + 1, a => do
    let n ← load h a
    let c := cmp x n.item
    if c < 0 then
      if n.left.isSome then rightishLoop cmp h x fuel n.left else .ok (n.prev, false)
    else if c > 0 then
      if n.right.isSome then rightishLoop cmp h x fuel n.right else .ok (a, false)
    else .ok (a, true)

/-- `avl_search_rightish`, `/repo/src/mo_avl_tree.c` lines 324-362: the node and `*exact`. -/
def searchRightish (cmp : α → α → Int) (fuel : Nat) (s : St α) (x : α) : Res (Option Nat × Bool) :=
  match s.top with
  | none => .ok (none, false)
  | some a => rightishLoop cmp s.heap x fuel (some a)

/-- The loops of `avl_search_rightmost_equal`, `/repo/src/mo_avl_tree.c` lines 244-261: `first` tells whether the first or
the second inner loop is executed, `node` is the node to whose child it goes next, `r` the result so far. -/
def rightmostLoop (cmp : α → α → Int) (h : Heap α) (x : α) :
    (fuel : Nat) → (first : Bool) → (node r : Option Nat) → Res (Option Nat)
  | 0, _, _, _ => .error
  | fuel + 1, first, node, r => do
    let n ← load h node
    let node := if first then n.right else n.left
    match node with
    | none => .ok r
    | some a => do
      let n ← load h (some a)
      if first then
        if cmp x n.item ≠ 0 then rightmostLoop cmp h x fuel false (some a) r
        else rightmostLoop cmp h x fuel true (some a) (some a)
      else
        if cmp x n.item = 0 then rightmostLoop cmp h x fuel true (some a) (some a)
        else rightmostLoop cmp h x fuel false (some a) r

/-- `avl_item_search_right`, `/repo/src/mo_avl_tree.c` lines 391-403: the node and `*exact`. -/
def itemSearchRight (cmp : α → α → Int) (fuel : Nat) (s : St α) (x : α) : Res (Option Nat × Bool) := do
  let (node, exact) ← searchRightish cmp fuel s x
  if exact then do
    let r ← rightmostLoop cmp s.heap x fuel true node node
    .ok (r, true)
  else .ok (node, false)

/-- `avl_item_search`, `/repo/src/mo_avl_tree.c` lines 408-413. -/
def itemSearch (cmp : α → α → Int) (fuel : Nat) (s : St α) (x : α) : Res (Option Nat) := do
  let (node, exact) ← searchRightish cmp fuel s x
  .ok (if exact then node else none)

/-- `avl_count`, `/repo/src/mo_avl_tree.c` lines 157-161. -/
def count (s : St α) : Res Nat := nodeCount s s.top

/-! ### The functions called by the archive and the loggers -/

/-- Freeing the node at `p`, `/repo/src/mo_avl_tree.c` lines 450-462. -/
def nodeFree (s : St α) (p : Nat) : Res (St α) := do
  let _ ← load s.heap (some p)
  .ok { s with heap := fun b => if b = p then none else s.heap b }

/-- `avl_item_insert` with `avl_node_insert`, `/repo/src/mo_avl_tree.c` lines 623-629 and 653-667: the state and the
returned pointer. -/
def itemInsert (cmp : α → α → Int) (fuel : Nat) (s : St α) (p : Nat) (junk : Node α) (x : α) :
    Res (St α × Option Nat) := do
  let s := alloc s p junk x
  let m ← load s.heap (some p)
  let (node, exact) ← searchRightish cmp fuel s m.item
  if exact then do
    let s ← nodeFree s p
    .ok (s, none)
  else do
    let s ← insertAfter fuel s node p
    .ok (s, some p)

/-- The start of `avl_node_unlink`, `/repo/src/mo_avl_tree.c` lines 753-761: `a` is taken out of the threaded list. -/
def unlinkList (s : St α) (a : Nat) : Res (St α) := do
  let n ← load s.heap (some a)
  let s ← match n.prev with
    | some q => store s (some q) fun m => { m with next := n.next }
    | none => .ok { s with head := n.next }
  let n ← load s.heap (some a)
  match n.next with
  | some q => store s (some q) fun m => { m with prev := n.prev }
  | none => .ok { s with tail := n.prev }

/-- The rest of `avl_node_unlink`, `/repo/src/mo_avl_tree.c` lines 763-798: `a` is taken out of the tree. -/
def unlinkTree (fuel : Nat) (s : St α) (a : Nat) : Res (St α) := do
  let n ← load s.heap (some a)
  let parent := n.parent
  let slot ← slotOf s a parent
  let left := n.left
  let right := n.right
  match left with
  | none => do
    let s ← setSlot s right slot
    let s ← setParent s right parent
    rebalance fuel s parent
  | some l =>
    match right with
    | none => do
      let s ← setSlot s (some l) slot
      let s ← store s (some l) fun m => { m with parent := parent }
      rebalance fuel s parent
    | some r => do
      let subst := n.prev
      let (s, balnode) ← if subst = some l then .ok (s, subst)
        else do
          let m ← load s.heap subst
          let balnode := m.parent
          let s ← store s balnode fun k => { k with right := m.left }
          let k ← load s.heap balnode
          let s ← setParent s k.right balnode
          let s ← store s subst fun k => { k with left := some l }
          let s ← store s (some l) fun k => { k with parent := subst }
          .ok (s, balnode)
      let s ← store s subst fun k => { k with right := some r }
      let s ← store s subst fun k => { k with parent := parent }
      let s ← store s (some r) fun k => { k with parent := subst }
      let s ← setSlot s subst slot
      rebalance fuel s balnode

/-- `avl_node_unlink`, `/repo/src/mo_avl_tree.c` lines 744-799. -/
def nodeUnlink (fuel : Nat) (s : St α) (a : Nat) : Res (St α) := do
  let s ← unlinkList s a
  unlinkTree fuel s a

/-- `avl_node_delete`, `/repo/src/mo_avl_tree.c` lines 805-815: the state and the returned item, which has been freed with
the function of the tree if there is one (lines 810-811). -/
def nodeDelete (fuel : Nat) (s : St α) : Option Nat → Res (St α × Option α)
  | none => .ok (s, none)
  | some a => do
    let n ← load s.heap (some a)
    let s ← nodeUnlink fuel s a
    let s ← nodeFree s a
    .ok (s, some n.item)

/-- `avl_item_delete`, `/repo/src/mo_avl_tree.c` lines 821-823. -/
def itemDelete (cmp : α → α → Int) (fuel : Nat) (s : St α) (x : α) : Res (St α × Option α) := do
  let node ← itemSearch cmp fuel s x
  nodeDelete fuel s node

/-- The loop of `avl_tree_purge`, `/repo/src/mo_avl_tree.c` lines 484-494: the state and the freed items. -/
def purgeLoop : (fuel : Nat) → St α → (node : Option Nat) → Res (St α × List α)
  | _, s, none => .ok (s, [])
  | 0, _, some _ => .error
  | fuel + 1, s, some a => do
    let n ← load s.heap (some a)
    let s ← nodeFree s a
    let (s, items) ← purgeLoop fuel s n.next
    .ok (s, n.item :: items)

/-- `avl_tree_purge` with `avl_tree_clear`, `/repo/src/mo_avl_tree.c` lines 444-448 and 468-497; `avl_tree_destruct`
(lines 502-507) then frees the tree object. -/
def purge (fuel : Nat) (s : St α) : Res (St α × List α) := do
  let (s, items) ← purgeLoop fuel s s.head
  .ok ({ s with top := none, head := none, tail := none }, items)

/-- `avl_tree_construct`, `avl_tree_init`, `/repo/src/mo_avl_tree.c` lines 419-438, when no node is allocated. -/
def empty : St α := ⟨fun _ => none, none, none, none⟩

/-! ### Histories -/

/-- A call of a function of `/repo/src/mo_avl_tree.c` that changes the tree: `avl_item_insert` (lines 653-667), for which
`malloc` returns `p` and memory with the content `junk`, `avl_item_delete` (lines 821-823), `avl_node_delete` (lines
805-815) for a node, `avl_tree_purge` (lines 468-497). -/
inductive Op (α : Type) where
  | insert (p : Nat) (junk : Node α) (x : α)
  | deleteItem (x : α)
  | deleteNode (p : Nat)
  | purge

/-- What a call returns or frees: the new node, the item, or the freed items in their order
(`/repo/src/mo_avl_tree.c` lines 653, 805, 821 and 486-491). -/
inductive Ret (α : Type) where
  | node (p : Option Nat)
  | item (x : Option α)
  | items (xs : List α)
deriving DecidableEq

/-- One call, `/repo/src/mo_avl_tree.c` lines 468-497, 653-667, 805-815 and 821-823. -/
def step (cmp : α → α → Int) (fuel : Nat) (s : St α) : Op α → Res (St α × Ret α)
  | .insert p junk x => do
    let (s, r) ← itemInsert cmp fuel s p junk x
    .ok (s, .node r)
  | .deleteItem x => do
    let (s, r) ← itemDelete cmp fuel s x
    .ok (s, .item r)
  | .deleteNode p => do
    let (s, r) ← nodeDelete fuel s (some p)
    .ok (s, .item r)
  | .purge => do
    let (s, r) ← purge fuel s
    .ok (s, .items r)

/-- A sequence of calls; no code of its own (the calls are in `/repo/src/mo_avl_tree.c` lines 468-823). -/
def run (cmp : α → α → Int) (fuel : Nat) : St α → List (Op α) → Res (St α × List (Ret α))
  | s, [] => .ok (s, [])
  | s, op :: ops => do
    let (s, r) ← step cmp fuel s op
    let (s, rs) ← run cmp fuel s ops
    .ok (s, r :: rs)

end AvlPtr
