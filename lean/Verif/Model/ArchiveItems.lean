import Verif.Model.Archive

/-!
# Model of the memory of the archive of solutions

The functions below are those of `Verif.Model.Archive` with the list of the blocks of memory that are allocated and not yet
released. Reading or releasing a block that is not in the list is undefined. Where the tree is searched, all its items are counted
as read (the code reads those on the path of the search), so that the model has undefined behaviour at least where the code has. The
nodes of the tree are the subject of `Verif.Model.AvlPtr`; the memory of the suite used in `coco_archive` is that of `Verif.Model.Memory`.
-/

namespace ArchiveItems
open Archive (Item State Op cmp after)
open MO

/-- The blocks allocated by `/repo/src/coco_archive.c`: the structure (line 94), its tree (line 97), the strings of lines 124-126, the
points of lines 144-145, the texts of lines 148 and 153, the vector of line 178, and the three blocks of an item (lines 55, 58, 60), which is
named by the number of items created before. -/
inductive Block where
  | archive
  | tree
  | suiteInstance
  | suiteOptions
  | ideal
  | nadir
  | line
  | vector
  | item (id : Nat)
  | values (id : Nat)
  | text (id : Nat)
deriving DecidableEq

/-- The blocks that are allocated. -/
abbrev Mem := List Block

/-- `coco_allocate_memory`, `/repo/src/coco_runtime_c.c` lines 80-90. -/
def alloc (m : Mem) (b : Block) : Mem := b :: m

/-- `coco_free_memory`, `/repo/src/coco_runtime_c.c` line 92. -/
def free (m : Mem) (b : Block) : Res Mem := if b ∈ m then .ok (m.erase b) else .ub

/-- Reading of blocks. -/
def reads (m : Mem) (bs : List Block) : Res Unit := if bs.all fun b => decide (b ∈ m) then .ok () else .ub

/-- The blocks read for the objective values of items, e.g. by `coco_archive_compare_by_last_objective`,
`/repo/src/coco_archive.c` lines 77-86. -/
def valueBlocks (l : List Item) : List Block := l.flatMap fun it => [.item it.id, .values it.id]

/-- `coco_archive_node_item_free`, `/repo/src/coco_archive.c` lines 67-72. -/
def freeItem (m : Mem) (id : Nat) : Res Mem :=
  (free m (.values id)).bind fun m => (free m (.text id)).bind fun m => free m (.item id)

/-- `coco_archive_node_item_create`, `/repo/src/coco_archive.c` lines 50-62. -/
def createItem (m : Mem) (s : State) (y1 y2 : ℚ) (text : String) : Res (Mem × Item) :=
  let m := alloc m (.item s.created)
  (Archive.createItem s y1 y2 text).bind fun it =>
  .ok (alloc (alloc m (.values it.id)) (.text it.id), it)

/-- Removal of a dominated node, `/repo/src/coco_archive.c` lines 199-200 and 222-223: `avl_node_delete` releases its item
(`/repo/src/mo_avl_tree.c` lines 805-815). -/
def removeNode (m : Mem) (s : State) (n : Item) : Res (Mem × State) :=
  (Archive.removeNode s n).bind fun s => (freeItem m n.id).bind fun m => .ok (m, s)

/-- The loop of `coco_archive_add_solution`, `/repo/src/coco_archive.c` lines 212-227. -/
def removeLoop (item : Item) : List Item → Mem → State → Res (Mem × State)
  | [], m, s => .ok (m, s)
  | n :: ns, m, s =>
    (reads m (valueBlocks [item, n])).bind fun _ =>
    (dominance [item.y1, item.y2] [n.y1, n.y2]).bind fun d =>
      if d = 1 then (removeNode m s n).bind fun (m, s) => removeLoop item ns m s
      else .ok (m, s)

/-- The part of `coco_archive_add_solution` for an accepted solution, `/repo/src/coco_archive.c` lines 208-236; an item that is not
inserted is released (line 230). -/
def addAccepted (item : Item) (next : List Item) (m : Mem) (s : State) : Res (Mem × State × Int) :=
  (removeLoop item next m s).bind fun (m, s) =>
  (reads m (valueBlocks (item :: s.tree.items))).bind fun _ =>
  (Avl.itemInsert cmp s.tree item).bind fun (t, inserted) =>
  (if inserted then .ok m else freeItem m item.id).bind fun m =>
    .ok (m, { s with tree := t, isUpToDate := false }, if inserted then 1 else 0)

/-- `coco_archive_add_solution`, `/repo/src/coco_archive.c` lines 171-239. -/
def add (m : Mem) (s : State) (y1 y2 : ℚ) (text : String) : Res (Mem × State × Int) :=
  (createItem (alloc m .vector) s y1 y2 text).bind fun (m, item) =>
  (free m .vector).bind fun m =>
  let s := { s with created := s.created + 1 }
  (reads m (valueBlocks (item :: s.tree.items))).bind fun _ =>
  match (Avl.searchRight cmp s.tree.items item s.tree.tree).1 with
  | none => addAccepted item s.tree.items m s
  | some n =>
    (dominance [item.y1, item.y2] [n.y1, n.y2]).bind fun d =>
      if d > -1 then
        let next := after n s.tree.items
        if d = 1 then (removeNode m s n).bind fun (m, s) => addAccepted item next m s
        else addAccepted item next m s
      else (freeItem m item.id).bind fun m => .ok (m, s, 0)

/-- The addition of an extreme in `coco_archive`, `/repo/src/coco_archive.c` lines 148-151 and 153-156. -/
def addExtreme (m : Mem) (s : State) (y1 y2 : ℚ) (text : String) : Res (Mem × State) :=
  (add (alloc m .line) s y1 y2 text).bind fun (m, s, update) =>
  (free m .line).bind fun m =>
  (Res.assert (decide (update = 1))).bind fun _ => .ok (m, s)

/-- `coco_archive_allocate` and `coco_archive`, `/repo/src/coco_archive.c` lines 91-169. -/
def create (i1 i2 n1 n2 : ℚ) (t1 t2 : String) : Res (Mem × State) :=
  let m := alloc (alloc [] .archive) .tree
  let m := alloc (alloc m .suiteInstance) .suiteOptions
  let m := alloc (alloc m .ideal) .nadir
  let s : State := ⟨Avl.empty, [i1, i2], [n1, n2], false, 0, 0, none, none, none, false, 0⟩
  (addExtreme m s n1 i2 t1).bind fun (m, s) =>
  (addExtreme m s i1 n2 t2).bind fun (m, s) =>
  let s := { s with extreme1 := s.tree.items.head?, extreme2 := s.tree.items.getLast? }
  (Res.assert (decide (s.extreme1 ≠ s.extreme2))).bind fun _ =>
  (free m .suiteInstance).bind fun m =>
  (free m .suiteOptions).bind fun m => .ok (m, s)

/-- `coco_archive_update`, `/repo/src/coco_archive.c` lines 244-281. -/
def update (m : Mem) (s : State) : Res State :=
  if s.isUpToDate then .ok s
  else (reads m (valueBlocks s.tree.items)).bind fun _ => Archive.update s

/-- What a call of `coco_archive_get_next_solution_text` returns: the pointer to the text of an item
(`/repo/src/coco_archive.c` lines 293, 300, 318) or to the constant `""` (line 309). -/
inductive Text where
  | of (id : Nat)
  | empty
deriving DecidableEq

/-- Reading the pointer to the text of a node, `/repo/src/coco_archive.c` lines 293, 300 and 318. -/
def textOf (m : Mem) (s : State) (n : Option Item) : Res Text :=
  match n with
  | some n => if n ∈ s.tree.items then (reads m [.item n.id]).bind fun _ => .ok (.of n.id) else .ub
  | none => .ub

/-- The recursion of `coco_archive_get_next_solution_text`, `/repo/src/coco_archive.c` lines 283-324; `none` is the NULL
returned at its end. -/
def nextText (m : Mem) : (fuel : Nat) → State → Res (State × Option Text)
  | 0, _ => .ub
  | fuel + 1, s =>
    (update m s).bind fun s =>
    if !s.extremesAlreadyReturned then
      if s.current = none then
        (textOf m s s.extreme1).bind fun t => .ok ({ s with current := s.extreme2 }, some t)
      else if s.current = s.extreme2 then
        (textOf m s s.extreme2).bind fun t =>
          .ok ({ s with extremesAlreadyReturned := true, current := s.tree.items.head? }, some t)
      else .ok (s, none)
    else if s.current = none then .ok (s, some .empty)
    else if s.current = s.extreme1 ∨ s.current = s.extreme2 then
      (Archive.nextPtr s s.current).bind fun n => nextText m fuel { s with current := n }
    else
      (textOf m s s.current).bind fun t =>
      (Archive.nextPtr s s.current).bind fun n => .ok ({ s with current := n }, some t)

/-- The results of the calls. -/
inductive Out where
  | added (r : Int)
  | text (t : Option Text)
  | count (n : Nat)
  | value (h : ℚ)
deriving DecidableEq

/-- One call (`/repo/src/coco_archive.c` lines 171-334). -/
def step (m : Mem) (s : State) : Op → Res (Mem × State × Out)
  | .add y1 y2 t => (add m s y1 y2 t).bind fun (m, s, r) => .ok (m, s, .added r)
  | .next => (nextText m 3 s).bind fun (s, t) => .ok (m, s, .text t)
  | .number => (update m s).bind fun s => .ok (m, s, .count s.numberOfSolutions)
  | .hyp => (update m s).bind fun s => .ok (m, s, .value s.hypervolume)

/-- A sequence of calls. -/
def run (m : Mem) (s : State) : List Op → Res (Mem × State × List Out)
  | [] => .ok (m, s, [])
  | op :: ops => (step m s op).bind fun (m, s, o) => (run m s ops).bind fun (m, s, os) => .ok (m, s, o :: os)

/-- `avl_tree_purge`, `/repo/src/mo_avl_tree.c` lines 468-497: every item is released. -/
def freeItems : List Item → Mem → Res Mem
  | [], m => .ok m
  | it :: its, m => (freeItem m it.id).bind fun m => freeItems its m

/-- `coco_archive_free`, `/repo/src/coco_archive.c` lines 336-344; the tree is released with its items (`avl_tree_destruct`,
`/repo/src/mo_avl_tree.c` lines 502-507). -/
def destroy (m : Mem) (s : State) : Res Mem :=
  (freeItems s.tree.items m).bind fun m =>
  (free m .tree).bind fun m =>
  (free m .ideal).bind fun m =>
  (free m .nadir).bind fun m => free m .archive

end ArchiveItems
