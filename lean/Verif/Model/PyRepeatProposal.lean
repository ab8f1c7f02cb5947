import Verif.Model.PyRepeat
import Verif.Model.PyProposal

/-!
# Initial solutions for repeated experiments in Python (C140)

`ExperimentRepeater.initial_solution_proposal` and `n_trials`, `/repo/build/python/src/cocoex/utilities.py` lines 723-727 and 894-905,
on the recorded trials (`PyRepeat`) and the proposals of a problem (`PyProposal`). Simplified: `nonzero_odds` is an integer (line 900
raises an exception otherwise).
-/

namespace PyRepeatProposal

/-- `n_trials` of a problem, `/repo/build/python/src/cocoex/utilities.py` lines 725-726, which is also the sum in line 902. -/
def nTrials (h : List PyRepeat.Trial) (k : PyRepeat.Key) : Nat := (PyRepeat.trials (PyRepeat.data h k)).sum

/-- The argument of the proposal, `/repo/build/python/src/cocoex/utilities.py` lines 903-905; `none` is a division by zero. -/
def restartNumber (trials : Nat) (nonzeroOdds : Int) : Option Int :=
  if nonzeroOdds = 0 then some (trials + 1)
  else if nonzeroOdds + 1 = 0 then none
  else some (if (trials : Int).fmod (nonzeroOdds + 1) ≠ 0 then trials else 0)

/-- `initial_solution_proposal`, `/repo/build/python/src/cocoex/utilities.py` lines 894-905: the counter of the problem and the point,
`none` if an exception is raised. `calls` is the counter of the problem before, `d` its random numbers. -/
noncomputable def propose {n : Nat} (h : List PyRepeat.Trial) (k : PyRepeat.Key) (P : PyProposal.Prob n) (nonzeroOdds : Int)
    (calls : Nat) (d : PyProposal.Draw n) : Option (Nat × (Fin n → ℝ)) :=
  (restartNumber (nTrials h k) nonzeroOdds).map fun r => PyProposal.call P calls (some r) d

end PyRepeatProposal
