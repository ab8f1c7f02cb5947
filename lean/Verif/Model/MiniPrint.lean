import Mathlib.Tactic.Common

/-!
# The minimal display of progress in Python (C137)

The class `MiniPrint`, `/repo/build/python/src/cocoex/utilities.py` lines 422-482.
-/

namespace MiniPrint

/-- The argument `final_message`: false or empty, a text, or another true value, which has no length
(`/repo/build/python/src/cocoex/utilities.py` lines 476-481). -/
inductive Message
  | none | text (s : List Char) | yes
deriving DecidableEq, Repr

/-- What a call sees: dimension, index and function of the problem, whether its final target was hit, and the other arguments
(`/repo/build/python/src/cocoex/utilities.py` line 444). -/
structure Call where
  dim : Nat
  index : Nat
  fn : Nat
  hit : Bool
  restarted : Bool
  final : Bool
  message : Message
deriving DecidableEq, Repr

/-- What is printed: the end of a line, the line with the dimension (and the time, which is left out), a function, a symbol, and at the end
a text or the number of sweeps (`/repo/build/python/src/cocoex/utilities.py` lines 450-451, 466-481). -/
inductive Token
  | newline | heading (d : Nat) | func (f : Nat) | symbol (c : Char) | text (s : List Char) | done (k : Nat)
deriving DecidableEq, Repr

/-- The attributes, `/repo/build/python/src/cocoex/utilities.py` lines 428-435; `None` is `none`, -1 as index too. `_functions` is not
used. -/
structure State where
  dim : Option Nat
  fn : Option Nat
  last : Option Nat
  calls : Nat
  sweeps : Nat

/-- `__init__`, `/repo/build/python/src/cocoex/utilities.py` lines 428-435. -/
def State.init : State := ⟨none, none, none, 0, 0⟩

/-- The symbol of a call, `/repo/build/python/src/cocoex/utilities.py` line 472. -/
def symbol (c : Call) : Char := if c.hit then '|' else if c.restarted then ':' else '.'

/-- `new_dimension`, `/repo/build/python/src/cocoex/utilities.py` lines 445-446. -/
def isNew (s : State) (c : Call) : Bool := s.dim != some c.dim || s.last.any (fun i => decide (i > c.index))

/-- The end of a call, `/repo/build/python/src/cocoex/utilities.py` lines 473-481, with the number of sweeps. -/
def ending (c : Call) (sweeps : Nat) : List Token :=
  if c.final then
    match c.message with
    | .none => []
    | .text t => [.text t]
    | .yes => [.done sweeps]
  else []

/-- `__call__`, `/repo/build/python/src/cocoex/utilities.py` lines 444-482. -/
def call (s : State) (c : Call) : State × List Token :=
  let new := isNew s c
  let head := if new then (if s.dim.isSome then [Token.newline] else []) ++ [.heading c.dim] else []
  let s := if new then { s with dim := some c.dim, calls := 0 } else s
  let change := s.fn != some c.fn || new
  let wrap := change && !new && decide (s.calls ≥ 50)
  let calls := if wrap then 0 else s.calls
  let label := if change then (if wrap then [Token.newline] else []) ++ [.func c.fn] else []
  let sweeps := if c.final then s.sweeps + 1 else s.sweeps
  (⟨s.dim, if change then some c.fn else s.fn, some c.index, calls + 1, sweeps⟩,
    head ++ label ++ [.symbol (symbol c)] ++ ending c sweeps)

/-- The output of a sequence of calls, `/repo/build/python/src/cocoex/utilities.py` lines 444-482. -/
def run (s : State) : List Call → List Token
  | [] => []
  | c :: cs => (call s c).2 ++ run (call s c).1 cs

end MiniPrint
