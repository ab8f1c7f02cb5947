import Verif.Model.LoggerBiobj

/-!
# Model of the memory for the solutions of the bi-objective logger

Every evaluated or fed solution is copied into an item (four blocks of memory, `/repo/src/logger_biobj.c` lines 183-197), which is put
into two trees, released when it is dominated, and released with the trees. The functions below are those of
`Verif.Model.LoggerBiobj` with the list of the items that are allocated and not yet released, named by their evaluation numbers.
Reading or releasing an item that is not in the list is undefined. Where a tree is searched, all its items are counted as read
(the code reads those on the path of the search), so that the model has undefined behaviour at least where the code has. The nodes of the
trees are the subject of `Verif.Model.AvlPtr`.
-/

namespace BiobjItems
open LoggerBiobj (Item Arch State Params Op cmpObj after createItem output treeOutput)
open MO

/-- The items that are allocated: `item`, `item->x`, `item->y` and `item->normalized_y` of `logger_biobj_node_create`,
`/repo/src/logger_biobj.c` lines 183-197. -/
abbrev Mem := List Nat

/-- Reading of items, e.g. by `avl_tree_compare_by_eval_number`, `/repo/src/logger_biobj.c` lines 251-260. -/
def reads (m : Mem) (l : List Item) : Res Unit := if l.all fun it => decide (it.ev ∈ m) then .ok () else .ub

/-- `logger_biobj_node_free`, `/repo/src/logger_biobj.c` lines 220-227. -/
def freeItem (m : Mem) (it : Item) : Res Mem := if it.ev ∈ m then .ok (m.erase it.ev) else .ub

/-- Removal of a dominated node, `/repo/src/logger_biobj.c` lines 331-340 and 358-367: the item of the node is read, the buffer
tree is searched (it has no free function, lines 1113-1115), then the archive tree releases the item (`avl_node_delete`,
`/repo/src/mo_avl_tree.c` lines 805-815). -/
def removeNode (ci : Bool) (m : Mem) (s : Arch) (n : Item) : Res (Mem × Arch) :=
  (reads m (n :: s.buffer.items)).bind fun _ =>
  (LoggerBiobj.removeNode ci s n).bind fun s =>
  (freeItem m n).bind fun m => .ok (m, s)

/-- The loop of `logger_biobj_tree_update`, `/repo/src/logger_biobj.c` lines 351-371. -/
def removeLoop (ci : Bool) (it : Item) : List Item → Mem → Arch → Res (Mem × Arch)
  | [], m, s => .ok (m, s)
  | n :: ns, m, s =>
    (reads m [it, n]).bind fun _ =>
    (dominance [it.n1, it.n2] [n.n1, n.n2]).bind fun d =>
      if d = 1 then (removeNode ci m s n).bind fun (m, s) => removeLoop ci it ns m s else .ok (m, s)

/-- The insertion of an accepted solution, `/repo/src/logger_biobj.c` lines 350-443: after the loop both trees are searched, and the
neighbours of the new item are read. -/
def insertNew (ci : Bool) (it : Item) (next : List Item) (m : Mem) (s : Arch) : Res (Mem × Arch) :=
  (removeLoop ci it next m s).bind fun (m, s) =>
  (reads m (it :: s.archive.items ++ s.buffer.items)).bind fun _ =>
  (LoggerBiobj.insertNew ci it [] s).bind fun s => .ok (m, s)

/-- `logger_biobj_tree_update`, `/repo/src/logger_biobj.c` lines 306-446, preceded by lines 199-200: an infeasible item is left as it is
(lines 315-316), a weakly dominated one is released (line 348). -/
def treeUpdate (ci : Bool) (m : Mem) (s : Arch) (it : Item) : Res (Mem × Arch × Bool) :=
  let s := { s with contrib := Function.update s.contrib it.ev 0 }
  (reads m [it]).bind fun _ =>
  if !it.feasible then .ok (m, s, false)
  else
    (reads m s.archive.items).bind fun _ =>
    match (Avl.searchRight cmpObj s.archive.items it s.archive.tree).1 with
    | none => (insertNew ci it s.archive.items m s).bind fun (m, s) => .ok (m, s, true)
    | some n =>
      (dominance [it.n1, it.n2] [n.n1, n.n2]).bind fun d =>
        if d > -1 then
          let next := after n s.archive.items
          if d = 1 then
            (removeNode ci m s n).bind fun (m, s) => (insertNew ci it next m s).bind fun (m, s) => .ok (m, s, true)
          else (insertNew ci it next m s).bind fun (m, s) => .ok (m, s, true)
        else (freeItem m it).bind fun m => .ok (m, s, false)

variable {T : Type}

/-- The item as far as it can be read. -/
def readable (m : Mem) (it : Item) : Option Item := if it.ev ∈ m then some it else none

/-- `logger_biobj_evaluate`, `/repo/src/logger_biobj.c` lines 748-796. -/
noncomputable def evaluate (P : Params T) (m : Mem) (s : State T) (x : List ℚ) (y1 y2 : ℚ) (cons : List ℚ) : Res (Mem × State T) :=
  let s := { s with evals := s.evals + 1 }
  (createItem P.i1 P.i2 P.n1 P.n2 s.evals x y1 y2 cons).bind fun it =>
  (treeUpdate P.ci (m ++ [it.ev]) s.arch it).bind fun (m, a, performed) =>
  (if performed && decide (P.mode = .all) then
      (reads m a.buffer.items).bind fun _ =>
      (treeOutput a a.buffer.items).bind fun ls =>
        .ok { s with arch := { a with buffer := Avl.empty }, adat := s.adat ++ ls }
    else .ok { s with arch := a }).bind fun s =>
  (output P s performed (readable m it)).bind fun s => .ok (m, s)

/-- `coco_logger_biobj_feed_solution`, `/repo/src/logger_biobj.c` lines 869-906. -/
noncomputable def feed (P : Params T) (dim : Nat) (m : Mem) (s : State T) (ev : Nat) (y1 y2 : ℚ) : Res (Mem × State T) :=
  (Res.assert (decide (P.mode = .read))).bind fun _ =>
  let s := { s with prevEvals := s.evals }
  if s.prevEvals ≥ ev then .error
  else
    let s := { s with evals := ev }
    (createItem P.i1 P.i2 P.n1 P.n2 s.evals (List.replicate dim 0) y1 y2 []).bind fun it =>
    (treeUpdate P.ci (m ++ [it.ev]) s.arch it).bind fun (m, a, performed) =>
    (output P { s with arch := a } performed (readable m it)).bind fun s => .ok (m, s)

/-- One call; see `LoggerBiobj.step` for the lines in `/repo/src/logger_biobj.c`. -/
noncomputable def step (P : Params T) (dim : Nat) (m : Mem) (s : State T) : Op → Res (Mem × State T)
  | .evaluate x y1 y2 cons => evaluate P m s x y1 y2 cons
  | .feed ev y1 y2 => feed P dim m s ev y1 y2
  | .restart => .ok (m, LoggerBiobj.restart s)
  | .recommend x y1 y2 cons => .ok (m, LoggerBiobj.recommend s x y1 y2 cons)

/-- A sequence of calls, see `LoggerBiobj.run`. -/
noncomputable def run (P : Params T) (dim : Nat) (m : Mem) (s : State T) : List Op → Res (Mem × State T)
  | [] => .ok (m, s)
  | op :: ops => (step P dim m s op).bind fun (m, s) => run P dim m s ops

/-- `avl_tree_purge`, `/repo/src/mo_avl_tree.c` lines 468-497, for the archive tree: every item is released. -/
def freeAll : List Item → Mem → Res Mem
  | [], m => .ok m
  | it :: its, m => (freeItem m it).bind fun m => freeAll its m

/-- `logger_biobj_free`, `/repo/src/logger_biobj.c` lines 942-988: the archive is written in mode `final` (line 953), then the
archive tree is released with its items (line 974) and the buffer tree without (line 975). -/
noncomputable def finish (P : Params T) (m : Mem) (s : State T) : Res (Mem × State T) :=
  (if P.mode = .final then reads m s.arch.archive.items else .ok ()).bind fun _ =>
  (LoggerBiobj.finish P s).bind fun s' =>
  (freeAll s.arch.archive.items m).bind fun m => .ok (m, s')

end BiobjItems
