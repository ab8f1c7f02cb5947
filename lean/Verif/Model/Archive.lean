import Verif.Model.Avl
import Verif.Model.MO

/-!
Model of `/repo/src/coco_archive.c`: the archive of bi-objective solutions. Objective values are rational
numbers and arithmetic is exact. The construction of the suite and the problem (lines 118-136) is replaced by
the ideal and nadir point taken from that problem; the formatting of the texts of the extremes (148, 153) is
replaced by given texts.
-/

namespace Archive
open MO

/-- `coco_archive_avl_item_t`, `/repo/src/coco_archive.c` lines 42-45. `id` stands for the address of the
item: the number of items created before. -/
structure Item where
  id : Nat
  y1 : ℚ
  y2 : ℚ
  text : String
deriving DecidableEq

/-- `coco_archive_compare_by_last_objective`, `/repo/src/coco_archive.c` lines 77-86. -/
def cmp (a b : Item) : Int :=
  if Utils.almostEqual a.y2 b.y2 precision then 0 else if a.y2 < b.y2 then -1 else 1

/-- `struct coco_archive_s`, `/repo/src/coco_archive.c` lines 19-35. Pointers to nodes are the items of the
nodes; `created` is the number of items created so far. -/
structure State where
  tree : Avl.Avl Item
  ideal : List ℚ
  nadir : List ℚ
  isUpToDate : Bool
  numberOfSolutions : Nat
  hypervolume : ℚ
  current : Option Item
  extreme1 : Option Item
  extreme2 : Option Item
  extremesAlreadyReturned : Bool
  created : Nat

/-- `coco_archive_node_item_create`, `/repo/src/coco_archive.c` lines 50-62. -/
def createItem (s : State) (y1 y2 : ℚ) (text : String) : Res Item :=
  (normalize [y1, y2] s.ideal s.nadir).bind fun
  | [a, b] => .ok ⟨s.created, a, b, text⟩
  | _ => .ub

/-- `avl_node_delete` of a node of the tree, `/repo/src/mo_avl_tree.c` lines 805-815, preceded by the
assertion of `/repo/src/coco_archive.c` lines 199 and 222. The node is found by comparison instead of by its
address. -/
def removeNode (s : State) (n : Item) : Res State :=
  (Res.assert (decide (some n ≠ s.extreme1 ∧ some n ≠ s.extreme2))).bind fun _ =>
  (Avl.itemDelete cmp s.tree n).bind fun
  | (t, some _) => .ok { s with tree := t }
  | (_, none) => .ub

/-- The loop of `coco_archive_add_solution`, `/repo/src/coco_archive.c` lines 212-227. The list holds the nodes
from `next_node` on. -/
def removeLoop (item : Item) : List Item → State → Res State
  | [], s => .ok s
  | n :: ns, s =>
    (dominance [item.y1, item.y2] [n.y1, n.y2]).bind fun d =>
      if d = 1 then (removeNode s n).bind fun s => removeLoop item ns s
      else .ok s

/-- The nodes after `n` in the threaded list. -/
def after (n : Item) : List Item → List Item
  | [] => []
  | m :: ms => if m = n then ms else after n ms

/-- The part of `coco_archive_add_solution` for an accepted solution, `/repo/src/coco_archive.c` lines 208-236. -/
def addAccepted (item : Item) (next : List Item) (s : State) : Res (State × Int) :=
  (removeLoop item next s).bind fun s =>
  (Avl.itemInsert cmp s.tree item).bind fun (t, inserted) =>
    .ok ({ s with tree := t, isUpToDate := false }, if inserted then 1 else 0)

/-- `coco_archive_add_solution`, `/repo/src/coco_archive.c` lines 171-239. -/
def add (s : State) (y1 y2 : ℚ) (text : String) : Res (State × Int) :=
  (createItem s y1 y2 text).bind fun item =>
  let s := { s with created := s.created + 1 }
  match (Avl.searchRight cmp s.tree.items item s.tree.tree).1 with
  | none => addAccepted item s.tree.items s
  | some n =>
    (dominance [item.y1, item.y2] [n.y1, n.y2]).bind fun d =>
      if d > -1 then
        let next := after n s.tree.items
        if d = 1 then (removeNode s n).bind fun s => addAccepted item next s
        else addAccepted item next s
      else .ok (s, 0)

/-- `coco_archive_allocate` and `coco_archive`, `/repo/src/coco_archive.c` lines 91-169. `t1` and `t2` are the
texts of the extremes. -/
def create (i1 i2 n1 n2 : ℚ) (t1 t2 : String) : Res State :=
  let s : State := ⟨Avl.empty, [i1, i2], [n1, n2], false, 0, 0, none, none, none, false, 0⟩
  (add s n1 i2 t1).bind fun (s, update) =>
  (Res.assert (decide (update = 1))).bind fun _ =>
  (add s i1 n2 t2).bind fun (s, update) =>
  (Res.assert (decide (update = 1))).bind fun _ =>
  let s := { s with extreme1 := s.tree.items.head?, extreme2 := s.tree.items.getLast? }
  (Res.assert (decide (s.extreme1 ≠ s.extreme2))).bind fun _ => .ok s

/-- The loop of `coco_archive_update`, `/repo/src/coco_archive.c` lines 261-275. -/
def hypLoop : List Item → ℚ → Res ℚ
  | node :: left :: rest, h =>
    if withinROI [left.y1, left.y2] then
      let hyp := if withinROI [node.y1, node.y2] then (node.y1 - left.y1) * (1 - left.y2)
                 else (1 - left.y1) * (1 - left.y2)
      (Res.assert (decide (hyp ≥ 0))).bind fun _ => hypLoop (left :: rest) (h + hyp)
    else hypLoop (left :: rest) h
  | _, h => .ok h

/-- `coco_archive_update`, `/repo/src/coco_archive.c` lines 244-281. -/
def update (s : State) : Res State :=
  if s.isUpToDate then .ok s
  else if s.tree.items = [] then .ub
  else
    (hypLoop s.tree.items 0).bind fun h =>
      .ok { s with numberOfSolutions := Avl.count s.tree, hypervolume := h, isUpToDate := true,
                   current := none, extremesAlreadyReturned := false }

/-- Reading the text of a node: undefined for a NULL pointer and for a node that is no longer in the tree. -/
def textOf (s : State) (n : Option Item) : Res String :=
  match n with
  | some n => if n ∈ s.tree.items then .ok n.text else .ub
  | none => .ub

/-- Following `next` of a node: undefined for a NULL pointer and for a node that is no longer in the tree. -/
def nextPtr (s : State) (n : Option Item) : Res (Option Item) :=
  match n with
  | some n => if n ∈ s.tree.items then .ok (Avl.nextOf s.tree.items n) else .ub
  | none => .ub

/-- The recursion of `coco_archive_get_next_solution_text`, `/repo/src/coco_archive.c` lines 283-324; `none` is
the NULL returned at its end. The recursive call advances in the list; `fuel` bounds its depth. -/
def nextText : (fuel : Nat) → State → Res (State × Option String)
  | 0, _ => .ub
  | fuel + 1, s =>
    (update s).bind fun s =>
    if !s.extremesAlreadyReturned then
      if s.current = none then
        (textOf s s.extreme1).bind fun t => .ok ({ s with current := s.extreme2 }, some t)
      else if s.current = s.extreme2 then
        (textOf s s.extreme2).bind fun t =>
          .ok ({ s with extremesAlreadyReturned := true, current := s.tree.items.head? }, some t)
      else .ok (s, none)
    else if s.current = none then .ok (s, some "")
    else if s.current = s.extreme1 ∨ s.current = s.extreme2 then
      (nextPtr s s.current).bind fun n => nextText fuel { s with current := n }
    else
      (textOf s s.current).bind fun t =>
      (nextPtr s s.current).bind fun n => .ok ({ s with current := n }, some t)

/-- `coco_archive_get_next_solution_text`, `/repo/src/coco_archive.c` lines 283-324. At most the two extremes
are skipped, so that three levels of recursion suffice. -/
def getNextText (s : State) : Res (State × Option String) := nextText 3 s

/-- `coco_archive_get_number_of_solutions`, `/repo/src/coco_archive.c` lines 326-329. -/
def getNumber (s : State) : Res (State × Nat) := (update s).bind fun s => .ok (s, s.numberOfSolutions)

/-- `coco_archive_get_hypervolume`, `/repo/src/coco_archive.c` lines 331-334. -/
def getHypervolume (s : State) : Res (State × ℚ) := (update s).bind fun s => .ok (s, s.hypervolume)

/-- The public operations on an archive. -/
inductive Op where
  | add (y1 y2 : ℚ) (text : String)
  | next
  | number
  | hyp

/-- Their results. -/
inductive Out where
  | added (r : Int)
  | text (t : Option String)
  | count (n : Nat)
  | value (h : ℚ)
deriving DecidableEq

/-- One call. -/
def step (s : State) : Op → Res (State × Out)
  | .add y1 y2 t => (add s y1 y2 t).bind fun (s, r) => .ok (s, .added r)
  | .next => (getNextText s).bind fun (s, t) => .ok (s, .text t)
  | .number => (getNumber s).bind fun (s, n) => .ok (s, .count n)
  | .hyp => (getHypervolume s).bind fun (s, h) => .ok (s, .value h)

/-- A sequence of calls. -/
def run (s : State) : List Op → Res (State × List Out)
  | [] => .ok (s, [])
  | op :: ops => (step s op).bind fun (s, o) => (run s ops).bind fun (s, os) => .ok (s, o :: os)

end Archive
