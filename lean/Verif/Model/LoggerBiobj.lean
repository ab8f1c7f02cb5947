import Verif.Model.Avl
import Verif.Model.MO
import Verif.Model.Triggers

/-!
Model of the bi-objective logger, `/repo/src/logger_biobj.c`, with its single indicator, the hypervolume.

Objective values, decision values and constraint values are rational numbers and arithmetic is exact; the
indicator value is a real number because of the distance to the region of interest. The objective and
constraint values of an evaluated solution are inputs (evaluation of the inner problem is the subject of
`Verif.Model.Problem`). A line of a data file is modelled by the values it shows, before formatting. Opening
files, headers and the info file are not modelled; neither is the observer pointer.
-/

namespace LoggerBiobj
open MO

/-- `observer_biobj_log_nondom_e`, `/repo/src/observer_biobj.c` line 13. -/
inductive Mode where
  | none | final | all | read
deriving DecidableEq

/-- `logger_biobj_avl_item_t`, `/repo/src/logger_biobj.c` lines 158-169, without the contribution
(see `Arch.contrib`). The evaluation number identifies the item. -/
structure Item where
  ev : Nat
  x : List ℚ
  y1 : ℚ
  y2 : ℚ
  feasible : Bool
  n1 : ℚ
  n2 : ℚ
  within : Bool
deriving DecidableEq

/-- `avl_tree_compare_by_last_objective`, `/repo/src/logger_biobj.c` lines 234-243. -/
def cmpObj (a b : Item) : Int :=
  if Utils.almostEqual a.n2 b.n2 precision then 0 else if a.n2 < b.n2 then -1 else 1

/-- `avl_tree_compare_by_eval_number`, `/repo/src/logger_biobj.c` lines 251-260. -/
def cmpEv (a b : Item) : Int := if a.ev < b.ev then -1 else if a.ev > b.ev then 1 else 0

/-- The sum of the positive constraint values, `/repo/src/logger_biobj.c` lines 207-210. -/
def sumPositive (c : List ℚ) : ℚ := c.foldl (fun s v => if v > 0 then s + v else s) 0

/-- `logger_biobj_node_create`, `/repo/src/logger_biobj.c` lines 174-215. -/
def createItem (i1 i2 n1 n2 : ℚ) (ev : Nat) (x : List ℚ) (y1 y2 : ℚ) (cons : List ℚ) : Res Item :=
  (normalize [y1, y2] [i1, i2] [n1, n2]).bind fun
  | [a, b] => .ok ⟨ev, x, y1, y2, !decide (sumPositive cons > 0), a, b, withinROI [a, b]⟩
  | _ => .ub

/-! ### The archive -/

/-- The trees and the hypervolume of `logger_biobj_data_t` and `logger_biobj_indicator_t`,
`/repo/src/logger_biobj.c` lines 103 and 140-142. `contrib` gives the field `indicator_contribution[0]` of the
item with the given evaluation number (line 165). -/
structure Arch where
  archive : Avl.Avl Item
  buffer : Avl.Avl Item
  cur : ℚ
  contrib : Nat → ℚ

/-- The nodes after `n` in the threaded list. -/
def after (n : Item) : List Item → List Item
  | [] => []
  | m :: ms => if m = n then ms else after n ms

/-- Removal of a dominated node, `/repo/src/logger_biobj.c` lines 331-340 and 358-367. `avl_node_delete`
(`/repo/src/mo_avl_tree.c` lines 805-815) gets the node; here it is found by comparison. `ci` is
`compute_indicators`. -/
def removeNode (ci : Bool) (s : Arch) (n : Item) : Res Arch :=
  let cur := if ci then s.cur - s.contrib n.ev else s.cur
  (Avl.itemDelete cmpEv s.buffer n).bind fun (b, _) =>
  (Avl.itemDelete cmpObj s.archive n).bind fun
  | (a, some _) => .ok { s with archive := a, buffer := b, cur := cur }
  | (_, none) => .ub

/-- The loop of `logger_biobj_tree_update`, `/repo/src/logger_biobj.c` lines 351-371. The list holds the nodes
from `next_node` on. -/
def removeLoop (ci : Bool) (it : Item) : List Item → Arch → Res Arch
  | [], s => .ok s
  | n :: ns, s =>
    (dominance [it.n1, it.n2] [n.n1, n.n2]).bind fun d =>
      if d = 1 then (removeNode ci s n).bind fun s => removeLoop ci it ns s
      else .ok s

/-- The update of the contribution of the next item, `/repo/src/logger_biobj.c` lines 382-398. -/
def updateNext (s : Arch) (it : Item) : Res Arch :=
  match Avl.nextOf s.archive.items it with
  | some nx =>
    if nx.within then
      let c := (it.n1 - nx.n1) * (1 - nx.n2)
      (Res.assert (decide (c ≥ 0))).bind fun _ =>
        .ok { s with cur := s.cur - s.contrib nx.ev + c, contrib := Function.update s.contrib nx.ev c }
    else .ok s
  | none => .ok s

/-- The contribution of the new item, `/repo/src/logger_biobj.c` lines 400-432. -/
def newContribution (items : List Item) (it : Item) : ℚ :=
  match Avl.prevOf items it with
  | some pv => if pv.within then (pv.n1 - it.n1) * (1 - it.n2) else (1 - it.n1) * (1 - it.n2)
  | none => (1 - it.n1) * (1 - it.n2)

/-- The addition of the contribution of the new item, `/repo/src/logger_biobj.c` lines 400-440. -/
def updateNew (s : Arch) (it : Item) : Res Arch :=
  let c := newContribution s.archive.items it
  (Res.assert (decide (c ≥ 0))).bind fun _ =>
    .ok { s with cur := s.cur + c, contrib := Function.update s.contrib it.ev c }

/-- The insertion of an accepted solution, `/repo/src/logger_biobj.c` lines 350-443. -/
def insertNew (ci : Bool) (it : Item) (next : List Item) (s : Arch) : Res Arch :=
  (removeLoop ci it next s).bind fun s =>
  (Avl.itemInsert cmpObj s.archive it).bind fun (a, inserted) =>
  (Res.assert inserted).bind fun _ =>
  (Avl.itemInsert cmpEv s.buffer it).bind fun (b, _) =>
  let s := { s with archive := a, buffer := b }
  if ci && it.within then (updateNext s it).bind fun s => updateNew s it else .ok s

/-- `logger_biobj_tree_update`, `/repo/src/logger_biobj.c` lines 306-446, preceded by the initialisation of the
contribution of the new item (lines 199-200). The result tells whether the update was performed and whether the
new item is still allocated: it is freed if it is weakly dominated (line 348), not if it is infeasible
(lines 315-316). -/
def treeUpdate (ci : Bool) (s : Arch) (it : Item) : Res (Arch × Bool × Option Item) :=
  let s := { s with contrib := Function.update s.contrib it.ev 0 }
  if !it.feasible then .ok (s, false, some it)
  else match (Avl.searchRight cmpObj s.archive.items it s.archive.tree).1 with
    | none => (insertNew ci it s.archive.items s).bind fun s => .ok (s, true, some it)
    | some n =>
      (dominance [it.n1, it.n2] [n.n1, n.n2]).bind fun d =>
        if d > -1 then
          let next := after n s.archive.items
          if d = 1 then
            (removeNode ci s n).bind fun s => (insertNew ci it next s).bind fun s => .ok (s, true, some it)
          else (insertNew ci it next s).bind fun s => .ok (s, true, some it)
        else .ok (s, false, none)

/-! ### The indicator and the data files -/

/-- `logger_biobj_indicator_t`, `/repo/src/logger_biobj.c` lines 87-109, with the lines written to its files.
`penalty = none` is the initial DBL_MAX, which is not below any distance. The type `T` stands for
`coco_observer_targets_t` (see `Params.trigger`). -/
structure Ind (T : Type) where
  targetHit : Bool
  targets : T
  evaluationLogged : Bool
  evaluations : Triggers.Evaluations
  penalty : Option ℝ
  overall : ℝ
  previous : ℝ
  dat : List (Nat × ℝ × ℝ)
  tdat : List (Nat × ℝ)
  rdat : List (Nat × ℝ)

/-- `logger_biobj_data_t`, `/repo/src/logger_biobj.c` lines 118-149, with the lines written to the archive and
recommendation files. -/
structure State (T : Type) where
  arch : Arch
  evals : Nat
  prevEvals : Nat
  restarted : Bool
  adat : List (Nat × ℚ × ℚ × List ℚ)
  mdat : List (Nat × ℚ × ℚ × List ℚ × List ℚ)
  ind : Ind T

/-- What the logger is created with. `trigger` and `last` are `coco_observer_targets_trigger` and
`coco_observer_targets_get_last_target`, `/repo/src/coco_observer.c` lines 257-280 (the target triggers
themselves are modelled in `Verif.Model.Triggers`). -/
structure Params (T : Type) where
  mode : Mode
  ci : Bool
  i1 : ℚ
  i2 : ℚ
  n1 : ℚ
  n2 : ℚ
  best : ℝ
  trigger : T → ℝ → Bool × T
  last : T → ℝ

variable {T : Type}

/-- `logger_biobj` and `logger_biobj_indicator`, `/repo/src/logger_biobj.c` lines 495-572 and 1019-1162: the
initial values. -/
noncomputable def init (targets : T) (base : List Nat) (dim : Nat) : State T :=
  { arch := ⟨Avl.empty, Avl.empty, 0, fun _ => 0⟩, evals := 0, prevEvals := 0, restarted := false, adat := [], mdat := [],
    ind := { targetHit := false, targets := targets, evaluationLogged := false,
             evaluations := Triggers.evalInit base dim, penalty := none, overall := 0, previous := 0, dat := [],
             tdat := [], rdat := [] } }

/-- INFINITY_FOR_LOGGING, `/repo/src/coco.h` line 89. -/
def infinityForLogging : ℝ := 3 * 10 ^ 21

open Classical in
/-- The new penalty, `/repo/src/logger_biobj.c` lines 680-688. -/
noncomputable def newPenalty (cur : ℚ) (penalty : Option ℝ) (it : Item) : Res ℝ :=
  if Utils.almostEqual cur 0 precision then
    (distanceToROI [it.n1, it.n2]).bind fun d =>
      let p := match penalty with | none => d | some p => if p < d then p else d
      if p ≥ 0 then .ok p else .assertFail
  else .ok 0

/-- The new indicator value and the target triggers, `/repo/src/logger_biobj.c` lines 672-701. Reading the
item after it was freed is undefined. -/
noncomputable def updateValue (P : Params T) (cur : ℚ) (evals : Nat) (performed : Bool) (node : Option Item)
    (i : Ind T) : Res (Ind T) :=
  let i := { i with targetHit := false, previous := i.overall }
  if performed then
    match node with
    | none => .ub
    | some it =>
      (newPenalty cur i.penalty it).bind fun p =>
        let v := P.best - (cur : ℝ) + p
        .ok { i with penalty := some p, overall := v, targetHit := (P.trigger i.targets v).1,
                     targets := (P.trigger i.targets v).2 }
  else if evals = 1 then
    match node with
    | none => .ub
    | some it =>
      if !it.feasible then
        let v := infinityForLogging
        .ok { i with overall := v, targetHit := (P.trigger i.targets v).1, targets := (P.trigger i.targets v).2 }
      else .ok i
  else .ok i

/-- Output to the dat file, `/repo/src/logger_biobj.c` lines 704-708. -/
def logDat (P : Params T) (evals : Nat) (i : Ind T) : Ind T :=
  if i.targetHit then { i with dat := i.dat ++ [(evals, i.overall, P.last i.targets)] } else i

/-- The loop over skipped evaluation numbers, `/repo/src/logger_biobj.c` lines 713-719. -/
noncomputable def logSkipped : List Nat → Ind T → Res (Ind T)
  | [], i => .ok i
  | j :: js, i =>
    (Triggers.evalTrigger i.evaluations j).bind fun (b, e) =>
      let i := { i with evaluationLogged := b, evaluations := e,
                        tdat := if b then i.tdat ++ [(j, i.previous)] else i.tdat }
      logSkipped js i

/-- The trigger for the current evaluation number, `/repo/src/logger_biobj.c` lines 723-728. -/
noncomputable def logTdat (evals : Nat) (i : Ind T) : Res (Ind T) :=
  (Triggers.evalTrigger i.evaluations evals).bind fun (b, e) =>
    .ok { i with evaluationLogged := b, evaluations := e,
                 tdat := if b then i.tdat ++ [(evals, i.overall)] else i.tdat }

/-- Output to the rdat file, `/repo/src/logger_biobj.c` lines 731-734. -/
def logRdat (restarted : Bool) (evals : Nat) (i : Ind T) : Ind T :=
  if restarted then { i with rdat := i.rdat ++ [(evals, i.overall)] } else i

/-- `logger_biobj_output`, `/repo/src/logger_biobj.c` lines 661-742. -/
noncomputable def output (P : Params T) (s : State T) (performed : Bool) (node : Option Item) : Res (State T) :=
  if P.ci then
    (updateValue P s.arch.cur s.evals performed node s.ind).bind fun i =>
    (if P.mode = .read then logSkipped (List.range' (s.prevEvals + 1) (s.evals - (s.prevEvals + 1)))
        (logDat P s.evals i)
      else .ok (logDat P s.evals i)).bind fun i =>
    (logTdat s.evals i).bind fun i =>
    .ok { s with ind := logRdat s.restarted s.evals i, restarted := false }
  else .ok { s with restarted := false }

/-- `logger_biobj_tree_output`, `/repo/src/logger_biobj.c` lines 265-295: the lines for the items of a tree.
Reading an item that is no longer in the archive (and therefore freed) is undefined. -/
def treeOutput (a : Arch) : List Item → Res (List (Nat × ℚ × ℚ × List ℚ))
  | [] => .ok []
  | it :: its =>
    if it ∈ a.archive.items then (treeOutput a its).bind fun ls => .ok ((it.ev, it.y1, it.y2, it.x) :: ls) else .ub

/-- `logger_biobj_evaluate`, `/repo/src/logger_biobj.c` lines 748-796, for a solution with the given decision,
objective and constraint values. -/
noncomputable def evaluate (P : Params T) (s : State T) (x : List ℚ) (y1 y2 : ℚ) (cons : List ℚ) : Res (State T) :=
  let s := { s with evals := s.evals + 1 }
  (createItem P.i1 P.i2 P.n1 P.n2 s.evals x y1 y2 cons).bind fun it =>
  (treeUpdate P.ci s.arch it).bind fun (a, performed, node) =>
  (if performed && decide (P.mode = .all) then
      (treeOutput a a.buffer.items).bind fun ls =>
        .ok { s with arch := { a with buffer := Avl.empty }, adat := s.adat ++ ls }
    else .ok { s with arch := a }).bind fun s =>
  output P s performed node

/-- `coco_logger_biobj_feed_solution`, `/repo/src/logger_biobj.c` lines 869-906; `dim` is the number of
variables. The result is 1 if the archive was updated. -/
noncomputable def feed (P : Params T) (dim : Nat) (s : State T) (ev : Nat) (y1 y2 : ℚ) : Res (State T × Bool) :=
  (Res.assert (decide (P.mode = .read))).bind fun _ =>
  let s := { s with prevEvals := s.evals }
  if s.prevEvals ≥ ev then .error
  else
    let s := { s with evals := ev }
    (createItem P.i1 P.i2 P.n1 P.n2 s.evals (List.replicate dim 0) y1 y2 []).bind fun it =>
    (treeUpdate P.ci s.arch it).bind fun (a, performed, node) =>
    (output P { s with arch := a } performed node).bind fun s => .ok (s, performed)

/-- `logger_biobj_signal_restart`, `/repo/src/logger_biobj.c` lines 1003-1010. -/
def restart (s : State T) : State T := if s.evals > 0 then { s with restarted := true } else s

/-- `logger_biobj_recommend`, `/repo/src/logger_biobj.c` lines 802-853 (with `log_vars`). -/
def recommend (s : State T) (x : List ℚ) (y1 y2 : ℚ) (cons : List ℚ) : State T :=
  { s with mdat := s.mdat ++ [(s.evals, y1, y2, cons, x)] }

/-- The loop of `logger_biobj_finalize`, `/repo/src/logger_biobj.c` lines 921-928. -/
def resort : List Item → Avl.Avl Item → Res (Avl.Avl Item)
  | [], t => .ok t
  | it :: its, t => (Avl.itemInsert cmpEv t it).bind fun (t, _) => resort its t

/-- `logger_biobj_free`, `/repo/src/logger_biobj.c` lines 942-988, with `logger_biobj_finalize` (911-937) and
`logger_biobj_indicator_finalize` (577-595). -/
noncomputable def finish (P : Params T) (s : State T) : Res (State T) :=
  (if P.mode = .final then
      (resort s.arch.archive.items Avl.empty).bind fun t =>
      (treeOutput s.arch t.items).bind fun ls => .ok { s with adat := s.adat ++ ls }
    else .ok s).bind fun s =>
  if P.ci then
    let i := s.ind
    let i := if !i.targetHit then { i with dat := i.dat ++ [(s.evals, i.overall, P.last i.targets)] } else i
    let i := if !i.evaluationLogged then { i with tdat := i.tdat ++ [(s.evals, i.overall)] } else i
    .ok { s with ind := i }
  else .ok s

/-- The calls on an observed problem. -/
inductive Op where
  | evaluate (x : List ℚ) (y1 y2 : ℚ) (cons : List ℚ)
  | feed (ev : Nat) (y1 y2 : ℚ)
  | restart
  | recommend (x : List ℚ) (y1 y2 : ℚ) (cons : List ℚ)

/-- One call. -/
noncomputable def step (P : Params T) (dim : Nat) (s : State T) : Op → Res (State T)
  | .evaluate x y1 y2 cons => evaluate P s x y1 y2 cons
  | .feed ev y1 y2 => (feed P dim s ev y1 y2).bind fun (s, _) => .ok s
  | .restart => .ok (restart s)
  | .recommend x y1 y2 cons => .ok (recommend s x y1 y2 cons)

/-- A sequence of calls. -/
noncomputable def run (P : Params T) (dim : Nat) (s : State T) : List Op → Res (State T)
  | [] => .ok s
  | op :: ops => (step P dim s op).bind fun s => run P dim s ops

end LoggerBiobj
