import Mathlib.Data.List.Dedup
import Mathlib.Algebra.Order.Ring.Rat

/-!
# Repeating an experiment in Python (C122)

`ExperimentRepeater`, `/repo/build/python/src/cocoex/utilities.py` lines 593-905, and the loop which its documentation gives.
-/

namespace PyRepeat

/-- `(id_function, dimension)`, the keys of `_data`, `/repo/build/python/src/cocoex/utilities.py` lines 673-675. -/
abbrev Key := Nat × Nat

/-- What `track` records of a problem, `/repo/build/python/src/cocoex/utilities.py` lines 728-734. -/
structure Trial where
  key : Key
  inst : Nat
  evals : Nat
  success : Bool
deriving DecidableEq, Repr

/-- The parameters, lines 661-670. -/
structure Params where
  multiplier : ℚ
  minSuccesses : Nat
  maxSweeps : Nat

/-- The attributes `_data` and `_sweeps`, lines 673-677. The dictionary of dictionaries of lists is given by the list of all
calls of `track` in order. -/
structure Repeater where
  trials : List Trial
  sweeps : Nat
deriving DecidableEq, Repr

/-- `data`, lines 762-773: the entries for a function and dimension. -/
def data (h : List Trial) (k : Key) : List Trial := h.filter fun t => t.key = k

/-- `instances`, lines 777-782 (in any order). -/
def instances (d : List Trial) : List Nat := (d.map (·.inst)).dedup

/-- `len(data_of_instance)`, lines 774-776. -/
def count (d : List Trial) (i : Nat) : Nat := (d.filter fun t => t.inst = i).length

/-- `trials`, lines 783-791. -/
def trials (d : List Trial) : List Nat := (instances d).map (count d)

/-- The sum of `evaluations`, lines 796-799. -/
def evaluations (d : List Trial) : Nat := (d.map (·.evals)).sum

/-- The sum of `successes`, lines 792-795. -/
def successes (d : List Trial) : Nat := (d.filter (·.success)).length

/-- `budget_exhausted`, lines 800-803, with `budget_from_dimension`, lines 690-698, for the offset 0. -/
def exhausted (p : Params) (k : Key) (d : List Trial) : Bool :=
  decide ((max 1 (instances d).length : Nat) * ((k.2 : ℚ) * p.multiplier) ≤ (evaluations d : ℚ))

/-- `succeeded`, lines 804-806. -/
def succeeded (p : Params) (d : List Trial) : Bool := decide (p.minSuccesses ≤ successes d)

/-- `missing_trials`, lines 887-893. -/
def missing (d : List Trial) (i : Nat) : Int := (max 1 ((trials d).foldr max 0) : Nat) - (count d i : Int)

/-- `done` with a problem, lines 854-859. -/
def doneProblem (p : Params) (s : Repeater) (k : Key) (i : Nat) : Bool :=
  let d := data s.trials k
  if s.sweeps ≤ 1 ∨ missing d i ≠ 0 ∨ (succeeded p d = false ∧ exhausted p k d = false) then false else true

/-- `remaining_problems` without a suite, lines 879-886, as often as there are trials. -/
def remaining (p : Params) (s : Repeater) : List Trial := s.trials.filter fun t => !doneProblem p s t.key t.inst

/-- `done` without argument, lines 862-867: the answer and the new state. -/
def doneAll (p : Params) (s : Repeater) : Bool × Repeater :=
  let s' : Repeater := { s with sweeps := s.sweeps + 1 }
  let done := decide (p.maxSweeps ≤ s'.sweeps) || (decide (1 < s'.sweeps) && s'.trials.isEmpty) ||
    (!s'.trials.isEmpty && (remaining p s').isEmpty)
  (done, if done then s else s')

/-- An experiment on a problem instance: the evaluations and the success, which may depend on everything before
(`fmin` in lines 611-612). -/
abbrev Run := List Trial → Key → Nat → Nat × Bool

/-- `for problem in suite`, lines 608-613. -/
def sweep (p : Params) (run : Run) : Repeater → List (Key × Nat) → Repeater
  | s, [] => s
  | s, (k, i) :: suite =>
    if doneProblem p s k i then sweep p run s suite
    else sweep p run { s with trials := s.trials ++ [⟨k, i, (run s.trials k i).1, (run s.trials k i).2⟩] } suite

/-- `while not repeater.done()`, lines 607-613; `none` if the loop has not ended after `fuel` calls. -/
def loop (p : Params) (run : Run) (suite : List (Key × Nat)) : Nat → Repeater → Option Repeater
  | 0, _ => none
  | fuel + 1, s =>
    let r := doneAll p s
    if r.1 then some r.2 else loop p run suite fuel (sweep p run r.2 suite)

end PyRepeat
