import Mathlib.Tactic
import Verif.Model.MexGateway

/-!
# The gateway from Matlab (C141)
-/

namespace MexGateway

/-! ### Specification -/

/-- A function for Matlab users, one file of `build/matlab` each: the name that it gives to the gateway, the number of arguments that it
passes on, and whether it uses a result. -/
structure Spec.Wrapper where
  name : String
  inputs : Nat
  usesResult : Bool
  deriving DecidableEq

/-- All of them, from the files `build/matlab/coco*.m`. -/
def Spec.wrappers : List Spec.Wrapper := [
  ⟨"cocoEvaluateConstraint", 2, true⟩,
  ⟨"cocoEvaluateFunction", 2, true⟩,
  ⟨"cocoObserver", 2, true⟩,
  ⟨"cocoObserverFree", 1, false⟩,
  ⟨"cocoObserverSignalRestart", 2, false⟩,
  ⟨"cocoProblemAddObserver", 2, true⟩,
  ⟨"cocoProblemFinalTargetHit", 1, true⟩,
  ⟨"cocoProblemFree", 1, false⟩,
  ⟨"cocoProblemGetBestValue", 1, true⟩,
  ⟨"cocoProblemGetDimension", 1, true⟩,
  ⟨"cocoProblemGetEvaluations", 1, true⟩,
  ⟨"cocoProblemGetEvaluationsConstraints", 1, true⟩,
  ⟨"cocoProblemGetId", 1, true⟩,
  ⟨"cocoProblemGetInitialSolution", 1, true⟩,
  ⟨"cocoProblemGetLargestFValuesOfInterest", 1, true⟩,
  ⟨"cocoProblemGetLargestValuesOfInterest", 1, true⟩,
  ⟨"cocoProblemGetName", 1, true⟩,
  ⟨"cocoProblemGetNumberOfConstraints", 1, true⟩,
  ⟨"cocoProblemGetNumberOfIntegerVariables", 1, true⟩,
  ⟨"cocoProblemGetNumberOfObjectives", 1, true⟩,
  ⟨"cocoProblemGetSmallestValuesOfInterest", 1, true⟩,
  ⟨"cocoProblemIsValid", 1, true⟩,
  ⟨"cocoProblemRemoveObserver", 2, true⟩,
  ⟨"cocoRecommendSolution", 2, false⟩,
  ⟨"cocoSetLogLevel", 1, true⟩,
  ⟨"cocoSuite", 3, true⟩,
  ⟨"cocoSuiteFree", 1, false⟩,
  ⟨"cocoSuiteGetNextProblem", 2, true⟩,
  ⟨"cocoSuiteGetProblem", 2, true⟩]

/-- Equal up to upper and lower case (of the letters from A to Z). -/
def Spec.Same (a b : List Char) : Prop := List.Forall₂ (fun x y => x.toLower = y.toLower) a b

/-! ### Proofs -/

theorem same_iff (a b : List Char) : Spec.Same a b ↔ lower a = lower b := by
  unfold Spec.Same lower
  induction a generalizing b with
  | nil => cases b <;> simp
  | cons x a ih => cases b <;> simp [ih]

theorem switch_find {α : Type} (nlhs : Nat) (name : List Char) (args : List α) (t : List (String × Fn)) :
    switch nlhs name args t = match t.find? fun e => e.1.toList = name with
      | some e => enter e.2 nlhs args
      | none => .warning := by
  induction t with
  | nil => rfl
  | cons e t ih =>
    obtain ⟨n, f⟩ := e
    by_cases h : n.toList = name <;> simp [switch, h, ih]

/-- The first entry for the name of each wrapper. -/
theorem wrapper_found : ∀ w ∈ Spec.wrappers, ∃ e, (table.find? fun e => e.1.toList = lower w.name.toList) = some e ∧
    e.2.name = w.name ∧ e.2.inputs = w.inputs ∧ e.2.output = w.usesResult ∧ (e.2.needsOutput = true → w.usesResult = true) ∧
    0 < w.inputs := by
  have : ∀ w ∈ Spec.wrappers, ((table.find? fun e => e.1.toList = lower w.name.toList).any fun e =>
      decide (e.2.name = w.name ∧ e.2.inputs = w.inputs ∧ e.2.output = w.usesResult ∧
        (e.2.needsOutput = true → w.usesResult = true) ∧ 0 < w.inputs)) = true := by
    decide +kernel
  intro w hw
  have := this w hw
  cases h : table.find? fun e => e.1.toList = lower w.name.toList with
  | none => rw [h] at this; simp at this
  | some e => rw [h] at this; exact ⟨e, rfl, of_decide_eq_true this⟩

/-- Each entry belongs to a wrapper. -/
theorem entry_known : ∀ e ∈ table, ∃ w ∈ Spec.wrappers, e.1.toList = lower w.name.toList := by
  decide +kernel

/-- **C141** (the functions for Matlab users). Each function of the Matlab interface reaches the function of the same name, however its name
is spelled in upper and lower case, with exactly its arguments; none of its calls is refused, and a result is assigned exactly if
the function uses one. -/
theorem C141_wrappers {α : Type} (w : Spec.Wrapper) (hw : w ∈ Spec.wrappers) (s : List Char) (hs : Spec.Same s w.name.toList)
    (args : List α) (ha : args.length = w.inputs) (nlhs : Nat) (hn : w.usesResult = true → 1 ≤ nlhs) :
    gateway nlhs s args = .called w.name args w.usesResult := by
  obtain ⟨e, he, h1, h2, h3, h4, h5⟩ := wrapper_found w hw
  have hl : ¬ args.length + 1 < 2 := by omega
  rw [gateway, if_neg hl, switch_find, (same_iff _ _).1 hs, he]
  show enter e.2 nlhs args = _
  have : ¬ (e.2.needsOutput = true ∧ nlhs < 1) := fun h => by
    have := hn (h4 h.1)
    omega
  rw [enter, if_neg (by rw [h2]; exact fun h => h ha), if_neg this, h1, h3]

/-- **C141** (wrong number of arguments). With another number of arguments than that of the function there is an error message and no
function gets to work; so it is for all names if there is no argument behind the name. -/
theorem C141_wrong_number {α : Type} (w : Spec.Wrapper) (hw : w ∈ Spec.wrappers) (s : List Char) (hs : Spec.Same s w.name.toList)
    (args : List α) (ha : args.length ≠ w.inputs) (nlhs : Nat) :
    gateway nlhs s args = .error ∧ ∀ t, gateway nlhs t ([] : List α) = .error := by
  refine ⟨?_, fun t => by simp [gateway]⟩
  obtain ⟨e, he, h1, h2, -⟩ := wrapper_found w hw
  by_cases hl : args.length + 1 < 2
  · rw [gateway, if_pos hl]
  · rw [gateway, if_neg hl, switch_find, (same_iff _ _).1 hs, he]
    show enter e.2 nlhs args = _
    rw [enter, if_pos (by rw [h2]; exact ha)]

/-- **C141** (other names). A call with arguments ends with the warning exactly if the name is, up to upper and lower case, that of no
function of the interface; then no function is called. -/
theorem C141_unknown {α : Type} (s : List Char) (args : List α) (ha : args ≠ []) (nlhs : Nat) :
    gateway nlhs s args = .warning ↔ ∀ w ∈ Spec.wrappers, ¬ Spec.Same s w.name.toList := by
  have hl : ¬ args.length + 1 < 2 := by
    have := List.length_pos_iff.2 ha
    omega
  rw [gateway, if_neg hl, switch_find]
  constructor
  · intro h w hw hs
    obtain ⟨e, he, -⟩ := wrapper_found w hw
    rw [(same_iff _ _).1 hs, he] at h
    simp only [enter] at h
    split_ifs at h
  · intro h
    cases hf : table.find? fun e => e.1.toList = lower s with
    | none => rfl
    | some e =>
      exfalso
      obtain ⟨w, hw, hn⟩ := entry_known e (List.mem_of_find?_eq_some hf)
      have : e.1.toList = lower s := by simpa using List.find?_some hf
      exact h w hw ((same_iff _ _).2 (this.symm.trans hn))

/-! ### Cases that meet the hypotheses -/

example : gateway 1 "COCOevaluatefunction".toList [1, 2] = .called "cocoEvaluateFunction" [1, 2] true := by decide +kernel

example : gateway 0 "cocoProblemFree".toList [1, 2] = .error := by decide +kernel

example : gateway 1 "cocoProblem".toList [1, 2] = .warning := by decide +kernel

example : (⟨"cocoSuite", 3, true⟩ : Spec.Wrapper) ∈ Spec.wrappers ∧ Spec.Same "COCOSUITE".toList "cocoSuite".toList := by
  refine ⟨by decide +kernel, (same_iff _ _).2 (by decide +kernel)⟩

end MexGateway
