import Verif.Base.Res

/-!
Model of the AVL tree, `/repo/src/mo_avl_tree.c`, with functional trees: a node stores its item, its count
and its depth; the parent pointers are implicit (walking up the parents is returning from the recursion).
The threaded list given by the `prev`/`next` pointers and `head`/`tail` is a separate component of the state
(`Avl.items`), so that its agreement with the tree is something to prove. Nodes are identified by their
items. Allocation failures are not modelled. The depth is stored in an `unsigned char` (line 79); here it is
a natural number (see `C33_depth_fits`).
-/

namespace Avl

variable {α : Type}

/-- `avl_node_t`, `/repo/src/mo_avl_tree.c` lines 67-81: left, item, count, depth, right. -/
inductive Tree (α : Type) where
  | nil
  | node (l : Tree α) (x : α) (count depth : Nat) (r : Tree α)
deriving DecidableEq

/-- `AVL_NODE_COUNT`, `/repo/src/mo_avl_tree.c` line 107. -/
def Tree.count : Tree α → Nat
  | .nil => 0
  | .node _ _ c _ _ => c

/-- `AVL_NODE_DEPTH`, `/repo/src/mo_avl_tree.c` line 114. -/
def Tree.depth : Tree α → Nat
  | .nil => 0
  | .node _ _ _ d _ => d

/-- A node whose count and depth are recalculated with `AVL_CALC_COUNT` and `AVL_CALC_DEPTH`,
`/repo/src/mo_avl_tree.c` lines 110 and 117. -/
def mk (l : Tree α) (x : α) (r : Tree α) : Tree α :=
  .node l x (l.count + r.count + 1) ((if l.depth > r.depth then l.depth else r.depth) + 1) r

/-- `avl_check_balance`, `/repo/src/mo_avl_tree.c` lines 129-133. -/
def checkBalance (l r : Tree α) : Int :=
  let d : Int := (r.depth : Int) - (l.depth : Int)
  if d < -1 then -1 else if d > 1 then 1 else 0

/-- One iteration of the loop of `avl_rebalance`, `/repo/src/mo_avl_tree.c` lines 878-1001, for a node with
the given children and item; the result is the subtree put in its place. Following a NULL pointer is
undefined. -/
def balance (l : Tree α) (x : α) (r : Tree α) : Res (Tree α) :=
  if checkBalance l r = -1 then
    match l with
    | .nil => .ub
    | .node ll lx _ _ lr =>
      if ll.depth ≥ lr.depth then .ok (mk ll lx (mk lr x r))
      else match lr with
        | .nil => .ub
        | .node gl gx _ _ gr => .ok (mk (mk ll lx gl) gx (mk gr x r))
  else if checkBalance l r = 1 then
    match r with
    | .nil => .ub
    | .node rl rx _ _ rr =>
      if rr.depth ≥ rl.depth then .ok (mk (mk l x rl) rx rr)
      else match rl with
        | .nil => .ub
        | .node gl gx _ _ gr => .ok (mk (mk l x gl) gx (mk gr rx rr))
  else .ok (mk l x r)

/-- Attaching a new node at the end of the search path and rebalancing all the way up:
`avl_node_insert`, `avl_node_insert_after`, `avl_node_insert_before`, `avl_insert_top` and `avl_rebalance`
(`/repo/src/mo_avl_tree.c` lines 549-630 and 872-1002). Simplification: the code looks up the predecessor
`node->prev` of the last node of the search path and comes back to the last node by `->next` when the
predecessor has a right child; here the new node is attached directly where the search ended. `none` when an
equal item is found (line 628). -/
def insert (cmp : α → α → Int) (x : α) : Tree α → Res (Option (Tree α))
  | .nil => .ok (some (.node .nil x 1 1 .nil))
  | .node l y _ _ r =>
    let c := cmp x y
    if c < 0 then
      (insert cmp x l).bind fun
      | none => .ok none
      | some l' => (balance l' y r).bind fun t => .ok (some t)
    else if c > 0 then
      (insert cmp x r).bind fun
      | none => .ok none
      | some r' => (balance l y r').bind fun t => .ok (some t)
    else .ok none

/-- Taking out the rightmost node of a subtree (the predecessor `subst` of the removed node,
`/repo/src/mo_avl_tree.c` lines 779-787) and rebalancing from its parent up to the top of the subtree. -/
def deleteMax : Tree α → Res (α × Tree α)
  | .nil => .ub
  | .node l x _ _ r =>
    match r with
    | .nil => .ok (x, l)
    | .node _ _ _ _ _ =>
      (deleteMax r).bind fun (m, r') => (balance l x r').bind fun t => .ok (m, t)

/-- `avl_item_delete` and `avl_node_unlink` with `avl_rebalance`, `/repo/src/mo_avl_tree.c` lines 744-799,
805-815 and 821-823. `none` when the item is not found. -/
def delete (cmp : α → α → Int) (x : α) : Tree α → Res (Option (α × Tree α))
  | .nil => .ok none
  | .node l y _ _ r =>
    let c := cmp x y
    if c < 0 then
      (delete cmp x l).bind fun
      | none => .ok none
      | some (z, l') => (balance l' y r).bind fun t => .ok (some (z, t))
    else if c > 0 then
      (delete cmp x r).bind fun
      | none => .ok none
      | some (z, r') => (balance l y r').bind fun t => .ok (some (z, t))
    else
      match l with
      | .nil => .ok (some (y, r))
      | .node _ _ _ _ _ =>
        match r with
        | .nil => .ok (some (y, l))
        | .node _ _ _ _ _ =>
          (deleteMax l).bind fun (m, l') => (balance l' m r).bind fun t => .ok (some (y, t))

/-! ### Searching -/

/-- The element before `y` in the threaded list: `node->prev`. -/
def prevOf [DecidableEq α] (items : List α) (y : α) : Option α :=
  match items with
  | a :: b :: rest => if b = y then some a else prevOf (b :: rest) y
  | _ => none

/-- The element after `y` in the threaded list: `node->next`. -/
def nextOf [DecidableEq α] (items : List α) (y : α) : Option α :=
  match items with
  | a :: b :: rest => if a = y then some b else nextOf (b :: rest) y
  | _ => none

/-- `avl_search_rightish`, `/repo/src/mo_avl_tree.c` lines 324-363: the node and whether it is an exact
match. -/
def searchRightish [DecidableEq α] (cmp : α → α → Int) (items : List α) (x : α) : Tree α → Option α × Bool
  | .nil => (none, false)
  | .node l y _ _ r =>
    let c := cmp x y
    if c < 0 then
      match l with
      | .nil => (prevOf items y, false)
      | .node _ _ _ _ _ => searchRightish cmp items x l
    else if c > 0 then
      match r with
      | .nil => (some y, false)
      | .node _ _ _ _ _ => searchRightish cmp items x r
    else (some y, true)

/-- The two inner loops of `avl_search_rightmost_equal`, `/repo/src/mo_avl_tree.c` lines 244-262:
`right = true` in the first inner loop (after `node = node->right`), `false` in the second one (after
`node = node->left`); `best` is `r`. -/
def rightmostLoop (cmp : α → α → Int) (x : α) : (right : Bool) → Tree α → (best : α) → α
  | _, .nil, best => best
  | true, .node l y _ _ r, best =>
    if cmp x y ≠ 0 then rightmostLoop cmp x false l best else rightmostLoop cmp x true r y
  | false, .node l y _ _ r, best =>
    if cmp x y = 0 then rightmostLoop cmp x true r y else rightmostLoop cmp x false l best

/-- The right subtree of the node at which `avl_search_rightish` stops with an exact match. -/
def exactRight (cmp : α → α → Int) (x : α) : Tree α → Tree α
  | .nil => .nil
  | .node l y _ _ r =>
    let c := cmp x y
    if c < 0 then exactRight cmp x l else if c > 0 then exactRight cmp x r else r

/-- `avl_item_search_right`, `/repo/src/mo_avl_tree.c` lines 391-403. -/
def searchRight [DecidableEq α] (cmp : α → α → Int) (items : List α) (x : α) (t : Tree α) : Option α × Bool :=
  match searchRightish cmp items x t with
  | (some y, true) => (some (rightmostLoop cmp x true (exactRight cmp x t) y), true)
  | res => res

/-- `avl_item_search`, `/repo/src/mo_avl_tree.c` lines 408-413. -/
def search [DecidableEq α] (cmp : α → α → Int) (items : List α) (x : α) (t : Tree α) : Option α :=
  match searchRightish cmp items x t with
  | (y, true) => y
  | (_, false) => none

/-! ### The whole structure -/

/-- `avl_tree_t`, `/repo/src/mo_avl_tree.c` lines 85-93: the tree and the threaded list from `head` to
`tail`. -/
structure Avl (α : Type) where
  tree : Tree α
  items : List α

/-- `avl_tree_construct`, `/repo/src/mo_avl_tree.c` lines 419-438. -/
def empty : Avl α := ⟨.nil, []⟩

/-- Linking a new node after `p` in the threaded list; after no node means at the head
(`/repo/src/mo_avl_tree.c` lines 576-584 and 608-614). -/
def linkAfter [DecidableEq α] (p : Option α) (x : α) : List α → List α
  | [] => [x]
  | a :: as => match p with
    | none => x :: a :: as
    | some p => if a = p then a :: x :: as else a :: linkAfter (some p) x as

/-- `avl_item_insert`, `/repo/src/mo_avl_tree.c` lines 653-667: the new structure and whether a node was
inserted. -/
def itemInsert [DecidableEq α] (cmp : α → α → Int) (a : Avl α) (x : α) : Res (Avl α × Bool) :=
  (insert cmp x a.tree).bind fun
  | none => .ok (a, false)
  | some t => .ok (⟨t, linkAfter (searchRightish cmp a.items x a.tree).1 x a.items⟩, true)

/-- `avl_item_delete`, `/repo/src/mo_avl_tree.c` lines 821-823: the new structure and the removed item. -/
def itemDelete [DecidableEq α] (cmp : α → α → Int) (a : Avl α) (x : α) : Res (Avl α × Option α) :=
  (delete cmp x a.tree).bind fun
  | none => .ok (a, none)
  | some (y, t) => .ok (⟨t, a.items.erase y⟩, some y)

/-- `avl_count`, `/repo/src/mo_avl_tree.c` lines 157-161. -/
def count (a : Avl α) : Nat := a.tree.count

/-- An operation on the set. -/
inductive Op (α : Type) where
  | insert (x : α)
  | delete (x : α)

/-- The effect of a sequence of operations; the outcome of an operation is whether the set changed. -/
def run [DecidableEq α] (cmp : α → α → Int) : Avl α → List (Op α) → Res (Avl α × List Bool)
  | a, [] => .ok (a, [])
  | a, .insert x :: ops =>
    (itemInsert cmp a x).bind fun (a', b) => (run cmp a' ops).bind fun (f, bs) => .ok (f, b :: bs)
  | a, .delete x :: ops =>
    (itemDelete cmp a x).bind fun (a', o) => (run cmp a' ops).bind fun (f, bs) => .ok (f, o.isSome :: bs)

end Avl
