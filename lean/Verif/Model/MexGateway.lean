/-!
# The gateway from Matlab

Models `mexFunction`, `build/matlab/cocoCall.c` lines 687-769, the numbers of arguments that the functions behind it accept and whether
they assign a result (lines 12-679). What the functions do with their arguments is not modelled here (C131 has a part of it).
Simplified: the first argument is a text (`mxArrayToString` does not fail), `mexErrMsgIdAndTxt` ends the call.
-/

namespace MexGateway

/-- A function behind the gateway, `build/matlab/cocoCall.c` lines 12-679: its name, the number of inputs it demands, whether it assigns
an output, and whether it demands that an output is wanted (lines 509-511). -/
structure Fn where
  name : String
  inputs : Nat
  output : Bool
  needsOutput : Bool
  deriving DecidableEq, Repr

/-- `build/matlab/cocoCall.c` lines 12-46. -/
def cocoEvaluateFunction : Fn := ⟨"cocoEvaluateFunction", 2, true, false⟩

/-- `build/matlab/cocoCall.c` lines 48-82. -/
def cocoEvaluateConstraint : Fn := ⟨"cocoEvaluateConstraint", 2, true, false⟩

/-- `build/matlab/cocoCall.c` lines 84-111. -/
def cocoRecommendSolution : Fn := ⟨"cocoRecommendSolution", 2, false, false⟩

/-- `build/matlab/cocoCall.c` lines 113-134. -/
def cocoObserver : Fn := ⟨"cocoObserver", 2, true, false⟩

/-- `build/matlab/cocoCall.c` lines 136-150. -/
def cocoObserverFree : Fn := ⟨"cocoObserverFree", 1, false, false⟩

/-- `build/matlab/cocoCall.c` lines 152-172. -/
def cocoObserverSignalRestart : Fn := ⟨"cocoObserverSignalRestart", 2, false, false⟩

/-- `build/matlab/cocoCall.c` lines 174-200. -/
def cocoProblemAddObserver : Fn := ⟨"cocoProblemAddObserver", 2, true, false⟩

/-- `build/matlab/cocoCall.c` lines 202-220. -/
def cocoProblemFinalTargetHit : Fn := ⟨"cocoProblemFinalTargetHit", 1, true, false⟩

/-- `build/matlab/cocoCall.c` lines 222-236. -/
def cocoProblemFree : Fn := ⟨"cocoProblemFree", 1, false, false⟩

/-- `build/matlab/cocoCall.c` lines 238-256. -/
def cocoProblemGetDimension : Fn := ⟨"cocoProblemGetDimension", 1, true, false⟩

/-- `build/matlab/cocoCall.c` lines 258-276. -/
def cocoProblemGetEvaluations : Fn := ⟨"cocoProblemGetEvaluations", 1, true, false⟩

/-- `build/matlab/cocoCall.c` lines 278-296. -/
def cocoProblemGetEvaluationsConstraints : Fn := ⟨"cocoProblemGetEvaluationsConstraints", 1, true, false⟩

/-- `build/matlab/cocoCall.c` lines 298-315. -/
def cocoProblemGetId : Fn := ⟨"cocoProblemGetId", 1, true, false⟩

/-- `build/matlab/cocoCall.c` lines 317-338. -/
def cocoProblemGetInitialSolution : Fn := ⟨"cocoProblemGetInitialSolution", 1, true, false⟩

/-- `build/matlab/cocoCall.c` lines 340-365. -/
def cocoProblemGetLargestFValuesOfInterest : Fn := ⟨"cocoProblemGetLargestFValuesOfInterest", 1, true, false⟩

/-- `build/matlab/cocoCall.c` lines 367-392. -/
def cocoProblemGetLargestValuesOfInterest : Fn := ⟨"cocoProblemGetLargestValuesOfInterest", 1, true, false⟩

/-- `build/matlab/cocoCall.c` lines 394-411. -/
def cocoProblemGetName : Fn := ⟨"cocoProblemGetName", 1, true, false⟩

/-- `build/matlab/cocoCall.c` lines 413-431. -/
def cocoProblemGetNumberOfObjectives : Fn := ⟨"cocoProblemGetNumberOfObjectives", 1, true, false⟩

/-- `build/matlab/cocoCall.c` lines 433-451. -/
def cocoProblemGetNumberOfConstraints : Fn := ⟨"cocoProblemGetNumberOfConstraints", 1, true, false⟩

/-- `build/matlab/cocoCall.c` lines 453-471. -/
def cocoProblemGetNumberOfIntegerVariables : Fn := ⟨"cocoProblemGetNumberOfIntegerVariables", 1, true, false⟩

/-- `build/matlab/cocoCall.c` lines 473-497. -/
def cocoProblemGetSmallestValuesOfInterest : Fn := ⟨"cocoProblemGetSmallestValuesOfInterest", 1, true, false⟩

/-- `build/matlab/cocoCall.c` lines 499-520. -/
def cocoProblemGetBestValue : Fn := ⟨"cocoProblemGetBestValue", 1, true, true⟩

/-- `build/matlab/cocoCall.c` lines 522-535. -/
def cocoProblemIsValid : Fn := ⟨"cocoProblemIsValid", 1, true, false⟩

/-- `build/matlab/cocoCall.c` lines 537-564. -/
def cocoProblemRemoveObserver : Fn := ⟨"cocoProblemRemoveObserver", 2, true, false⟩

/-- `build/matlab/cocoCall.c` lines 566-582. -/
def cocoSetLogLevel : Fn := ⟨"cocoSetLogLevel", 1, true, false⟩

/-- `build/matlab/cocoCall.c` lines 584-608. -/
def cocoSuite : Fn := ⟨"cocoSuite", 3, true, false⟩

/-- `build/matlab/cocoCall.c` lines 610-624. -/
def cocoSuiteFree : Fn := ⟨"cocoSuiteFree", 1, false, false⟩

/-- `build/matlab/cocoCall.c` lines 626-653. -/
def cocoSuiteGetNextProblem : Fn := ⟨"cocoSuiteGetNextProblem", 2, true, false⟩

/-- `build/matlab/cocoCall.c` lines 655-679. -/
def cocoSuiteGetProblem : Fn := ⟨"cocoSuiteGetProblem", 2, true, false⟩

/-- The comparisons in order, `build/matlab/cocoCall.c` lines 706-763. -/
def table : List (String × Fn) := [
  ("cocoevaluatefunction", cocoEvaluateFunction),
  ("cocoevaluateconstraint", cocoEvaluateConstraint),
  ("cocorecommendsolution", cocoRecommendSolution),
  ("cocoobserver", cocoObserver),
  ("cocoobserverfree", cocoObserverFree),
  ("cocoobserversignalrestart", cocoObserverSignalRestart),
  ("cocoproblemaddobserver", cocoProblemAddObserver),
  ("cocoproblemfinaltargethit", cocoProblemFinalTargetHit),
  ("cocoproblemfree", cocoProblemFree),
  ("cocoproblemgetdimension", cocoProblemGetDimension),
  ("cocoproblemgetevaluations", cocoProblemGetEvaluations),
  ("cocoproblemgetevaluationsconstraints", cocoProblemGetEvaluationsConstraints),
  ("cocoproblemgetid", cocoProblemGetId),
  ("cocoproblemgetinitialsolution", cocoProblemGetInitialSolution),
  ("cocoproblemgetlargestfvaluesofinterest", cocoProblemGetLargestFValuesOfInterest),
  ("cocoproblemgetlargestvaluesofinterest", cocoProblemGetLargestValuesOfInterest),
  ("cocoproblemgetname", cocoProblemGetName),
  ("cocoproblemgetnumberofobjectives", cocoProblemGetNumberOfObjectives),
  ("cocoproblemgetnumberofconstraints", cocoProblemGetNumberOfConstraints),
  ("cocoproblemgetnumberofintegervariables", cocoProblemGetNumberOfIntegerVariables),
  ("cocoproblemgetsmallestvaluesofinterest", cocoProblemGetSmallestValuesOfInterest),
  ("cocoproblemgetbestvalue", cocoProblemGetBestValue),
  ("cocoproblemisvalid", cocoProblemIsValid),
  ("cocoproblemremoveobserver", cocoProblemRemoveObserver),
  ("cocosetloglevel", cocoSetLogLevel),
  ("cocosuite", cocoSuite),
  ("cocosuitefree", cocoSuiteFree),
  ("cocosuitegetnextproblem", cocoSuiteGetNextProblem),
  ("cocosuitegetproblem", cocoSuiteGetProblem)]

/-- What a call does: an error message, a warning, or a call of a function with arguments, and whether it has assigned an output
(`build/matlab/cocoCall.c` lines 687-769). -/
inductive Outcome (α : Type) where
  | error
  | warning
  | called (name : String) (args : List α) (assigned : Bool)
  deriving DecidableEq, Repr

/-- The loop that converts to lower case, `build/matlab/cocoCall.c` lines 701-703. -/
def lower (s : List Char) : List Char := s.map Char.toLower

/-- The tests at the beginning of a function, for example `build/matlab/cocoCall.c` lines 506-511, then the function itself. -/
def enter {α : Type} (f : Fn) (nlhs : Nat) (args : List α) : Outcome α :=
  if args.length ≠ f.inputs then .error
  else if f.needsOutput = true ∧ nlhs < 1 then .error
  else .called f.name args f.output

/-- The comparisons, `build/matlab/cocoCall.c` lines 706-766. -/
def switch {α : Type} (nlhs : Nat) (name : List Char) (args : List α) : List (String × Fn) → Outcome α
  | [] => .warning
  | (n, f) :: t => if n.toList = name then enter f nlhs args else switch nlhs name args t

/-- `mexFunction`, `build/matlab/cocoCall.c` lines 687-769, for a name and the arguments behind it. -/
def gateway {α : Type} (nlhs : Nat) (name : List Char) (args : List α) : Outcome α :=
  if args.length + 1 < 2 then .error else switch nlhs (lower name) args table

end MexGateway
