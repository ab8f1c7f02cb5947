import Mathlib.Tactic
import Verif.Model.PySettings

/-!
# Writing and reading the settings of an experiment in Python (C139)
-/

namespace PySettings

variable {Obj : Type}

/-! ### Specification -/

/-- The prefixes that are left out: those given, else `_` and `self`. -/
def Spec.prefixes : Option (List (List Char)) → List (List Char)
  | none => ["_".toList, "self".toList]
  | some l => l

/-- The item of key `k` and value `v` is to be recorded as `v'`: no prefix of the list begins the key, and the text of the value is
a literal with the value `v'`. -/
def Spec.Recorded (P : Python Obj) (ignore : Option (List (List Char))) (k v v' : Obj) : Prop :=
  (∀ p ∈ Spec.prefixes ignore, ¬ p <+: P.str k) ∧ P.eval (P.repr v) = some v'

/-- The key is a literal, like the names of variables. -/
def Spec.Literal (P : Python Obj) (k : Obj) : Prop := P.eval (P.repr k) = some k

/-! ### Proofs -/

theorem ignored_iff (P : Python Obj) (ignore : List (List Char)) (k : Obj) :
    ignored P ignore k = true ↔ ∃ p ∈ ignore, p <+: P.str k := by
  simp [ignored, List.any_eq_true]

theorem evalText_repr (P : Python Obj) (ignore : List (List Char)) (d : Dict Obj)
    (hk : ∀ kv ∈ d, ignored P ignore kv.1 = false → Spec.Literal P kv.1) :
    ∃ r, evalText P (reprDict P (dictToEval P ignore d)) = some r ∧ (r.map Prod.fst).Sublist (d.map Prod.fst) ∧
      ∀ k v', (k, v') ∈ r ↔ ∃ v, (k, v) ∈ d ∧ ignored P ignore k = false ∧ P.eval (P.repr v) = some v' := by
  induction d with
  | nil => exact ⟨[], rfl, by simp, by simp⟩
  | cons kv d ih =>
    obtain ⟨k, v⟩ := kv
    obtain ⟨r, hr, hs, hm⟩ := ih fun kv h => hk kv (List.mem_cons_of_mem _ h)
    have hk := hk (k, v) List.mem_cons_self
    by_cases hi : ignored P ignore k = true
    · refine ⟨r, by simp only [dictToEval, hi, if_true]; exact hr, ?_, fun k' v' => (hm k' v').trans ?_⟩
      · simpa using hs.cons k
      · refine ⟨fun ⟨w, h1, h2⟩ => ⟨w, List.mem_cons_of_mem _ h1, h2⟩, fun ⟨w, h1, h2, h3⟩ => ⟨w, ?_, h2, h3⟩⟩
        rcases List.mem_cons.1 h1 with h | h
        · cases h
          rw [hi] at h2
          cases h2
        · exact h
    · have hi : ignored P ignore k = false := by simpa using hi
      cases he : P.eval (P.repr v) with
      | none =>
        refine ⟨r, by simp only [dictToEval, hi, he]; exact hr, ?_, fun k' v' => (hm k' v').trans ?_⟩
        · simpa using hs.cons k
        · refine ⟨fun ⟨w, h1, h2⟩ => ⟨w, List.mem_cons_of_mem _ h1, h2⟩, fun ⟨w, h1, h2, h3⟩ => ⟨w, ?_, h2, h3⟩⟩
          rcases List.mem_cons.1 h1 with h | h
          · cases h
            rw [he] at h3
            cases h3
          · exact h
      | some w =>
        have hl : P.eval (P.repr k) = some k := hk hi
        refine ⟨(k, w) :: r, ?_, ?_, fun k' v' => ?_⟩
        · have hde : dictToEval P ignore ((k, v) :: d) = (k, v) :: dictToEval P ignore d := by simp [dictToEval, hi, he]
          rw [hde]
          show evalText P ((P.repr k, P.repr v) :: reprDict P (dictToEval P ignore d)) = _
          simp only [evalText, hl, he, hr]
        · simpa using hs.cons_cons k
        · rw [List.mem_cons, hm]
          constructor
          · rintro (h | ⟨u, h1, h2⟩)
            · cases h
              exact ⟨v, List.mem_cons_self, hi, he⟩
            · exact ⟨u, List.mem_cons_of_mem _ h1, h2⟩
          · rintro ⟨u, h1, h2, h3⟩
            rcases List.mem_cons.1 h1 with h | h
            · cases h
              rw [he] at h3
              cases h3
              exact Or.inl rfl
            · exact Or.inr ⟨u, h, h2, h3⟩

/-- **C139** (partial, what is written can be read). The settings are written under a new name, and the keys that are not left out are
literals. Then reading the file raises no exception and gives exactly the items to be recorded, with keys in the old order.
(The full statement is about all dictionaries; for other keys it is false: `C139_unreadable`.) -/
theorem C139_round_trip_partial (P : Python Obj) (d : Dict Obj) (name : String) (ignore : Option (List (List Char))) (fs : Files)
    (warn : Bool) (hnew : fs name = none)
    (hk : ∀ kv ∈ d, (∀ p ∈ Spec.prefixes ignore, ¬ p <+: P.str kv.1) → Spec.Literal P kv.1) :
    (writeSetting P d name ignore fs).2 = false ∧
    ∃ r, readSetting P name warn (writeSetting P d name ignore fs).1 = .value r ∧ (r.map Prod.fst).Sublist (d.map Prod.fst) ∧
      ∀ k v', (k, v') ∈ r ↔ ∃ v, (k, v) ∈ d ∧ Spec.Recorded P ignore k v v' := by
  have hi : ∀ k, ignored P (Spec.prefixes ignore) k = false ↔ ∀ p ∈ Spec.prefixes ignore, ¬ p <+: P.str k := by
    intro k
    rw [← Bool.not_eq_true, ignored_iff]
    push Not
    rfl
  obtain ⟨r, hr, hs, hm⟩ := evalText_repr P (Spec.prefixes ignore) d fun kv h1 h2 => hk kv h1 ((hi _).1 h2)
  have hw : writeSetting P d name ignore fs =
      (fun n => if n = name then some (reprDict P (dictToEval P (Spec.prefixes ignore) d)) else fs n, false) := by
    simp only [writeSetting, hnew]
    cases ignore <;> rfl
  refine ⟨by rw [hw], r, ?_, hs, fun k v' => (hm k v').trans ?_⟩
  · rw [hw]
    simp [readSetting, hr]
  · simp only [hi, Spec.Recorded]

/-- **C139** (settings that are literals come back unchanged). If keys and values are literals and no key begins with one of the
prefixes, reading gives the very dictionary that was written. -/
theorem C139_identity (P : Python Obj) (d : Dict Obj) (name : String) (ignore : Option (List (List Char))) (fs : Files)
    (warn : Bool) (hnew : fs name = none)
    (hd : ∀ kv ∈ d, (∀ p ∈ Spec.prefixes ignore, ¬ p <+: P.str kv.1) ∧ Spec.Literal P kv.1 ∧ Spec.Literal P kv.2) :
    readSetting P name warn (writeSetting P d name ignore fs).1 = .value d := by
  have hw : writeSetting P d name ignore fs =
      (fun n => if n = name then some (reprDict P (dictToEval P (Spec.prefixes ignore) d)) else fs n, false) := by
    simp only [writeSetting, hnew]
    cases ignore <;> rfl
  have : evalText P (reprDict P (dictToEval P (Spec.prefixes ignore) d)) = some d := by
    clear hw hnew
    induction d with
    | nil => rfl
    | cons kv d ih =>
      obtain ⟨k, v⟩ := kv
      obtain ⟨h1, h2, h3⟩ := hd (k, v) List.mem_cons_self
      have ih := ih fun kv h => hd kv (List.mem_cons_of_mem _ h)
      have hi : ignored P (Spec.prefixes ignore) k = false := by
        rw [← Bool.not_eq_true, ignored_iff]
        push Not
        exact h1
      have h2 : P.eval (P.repr k) = some k := h2
      have h3 : P.eval (P.repr v) = some v := h3
      have hde : dictToEval P (Spec.prefixes ignore) ((k, v) :: d) = (k, v) :: dictToEval P (Spec.prefixes ignore) d := by
        simp [dictToEval, hi, h3]
      rw [hde]
      show evalText P ((P.repr k, P.repr v) :: reprDict P (dictToEval P (Spec.prefixes ignore) d)) = _
      simp only [evalText, h2, h3, ih]
  rw [hw]
  simp [readSetting, this]

/-- **C139** (nothing is overwritten). A file that exists stays as it is, with a warning; no other file is changed. -/
theorem C139_nothing_overwritten (P : Python Obj) (d : Dict Obj) (name : String) (ignore : Option (List (List Char))) (fs : Files) :
    (∀ n t, fs n = some t → (writeSetting P d name ignore fs).1 n = some t) ∧
    (∀ n, n ≠ name → (writeSetting P d name ignore fs).1 n = fs n) ∧
    ((writeSetting P d name ignore fs).2 = true ↔ ∃ t, fs name = some t) ∧
    ∃ t, (writeSetting P d name ignore fs).1 name = some t := by
  unfold writeSetting
  cases h : fs name with
  | none =>
    refine ⟨fun n t hn => ?_, fun n hn => by simp [hn], by simp, by simp⟩
    have : n ≠ name := by
      rintro rfl
      rw [h] at hn
      cases hn
    simp [this, hn]
  | some t => exact ⟨fun n t hn => hn, fun n _ => rfl, by simp, t, h⟩

/-- **C139** (no file). Reading gives no value exactly if there is no file, and then warns if asked to. -/
theorem C139_missing (P : Python Obj) (name : String) (warn w : Bool) (fs : Files) :
    readSetting P name warn fs = .missing w ↔ fs name = none ∧ w = warn := by
  unfold readSetting
  cases h : fs name with
  | none => simp [eq_comm]
  | some t =>
    cases h : evalText P t <;> simp [h]

/-- **C139** (what is written cannot be read). Only the values are tested: a key whose text is no literal is written if it is not left
out and its value is a literal, and reading the file then raises an exception, whatever the other items are. -/
theorem C139_unreadable (P : Python Obj) (d : Dict Obj) (name : String) (ignore : Option (List (List Char))) (fs : Files)
    (warn : Bool) (hnew : fs name = none) (k v v' : Obj) (hm : (k, v) ∈ d) (hr : Spec.Recorded P ignore k v v')
    (hk : P.eval (P.repr k) = none) :
    readSetting P name warn (writeSetting P d name ignore fs).1 = .raises := by
  have hw : writeSetting P d name ignore fs =
      (fun n => if n = name then some (reprDict P (dictToEval P (Spec.prefixes ignore) d)) else fs n, false) := by
    simp only [writeSetting, hnew]
    cases ignore <;> rfl
  have hi : ignored P (Spec.prefixes ignore) k = false := by
    rw [← Bool.not_eq_true, ignored_iff]
    push Not
    exact hr.1
  have : evalText P (reprDict P (dictToEval P (Spec.prefixes ignore) d)) = none := by
    clear hw hnew
    induction d with
    | nil => simp at hm
    | cons kv d ih =>
      obtain ⟨k', u⟩ := kv
      rcases List.mem_cons.1 hm with h | h
      · cases h
        simp only [dictToEval, hi, hr.2]
        simp [reprDict, evalText, hk]
      · have ih := ih h
        simp only [dictToEval]
        split_ifs with hc
        · exact ih
        · cases he : P.eval (P.repr u) with
          | none => exact ih
          | some w =>
            simp only [reprDict, List.map_cons, evalText] at ih ⊢
            rw [ih]
            cases P.eval (P.repr k') <;> cases P.eval (P.repr u) <;> rfl
  rw [hw]
  simp [readSetting, this]

/-! ### Cases that meet the hypotheses -/

/-- Objects for the examples: names, and something that is no literal. -/
inductive Ex.Thing where
  | name (s : String)
  | module_
  deriving DecidableEq

/-- A small Python for the examples: the text of a name is the name, and is a literal; that of a module is not. -/
def Ex.python : Python Ex.Thing where
  str | .name s => s.toList | .module_ => "<module>".toList
  repr | .name s => s | .module_ => "<module>"
  eval t := if t = "<module>" then none else some (.name t)

/-- A name, a private one and a module: only the first is recorded. -/
example : readSetting Ex.python "parameters.pydat" true
    (writeSetting Ex.python [(.name "budget", .name "10"), (.name "_x", .name "1"), (.name "np", .module_), (.name "selfish", .name "2")]
      "parameters.pydat" none fun _ => none).1 = .value [(.name "budget", .name "10")] := by
  simp [writeSetting, readSetting, dictToEval, ignored, Ex.python, reprDict, evalText, defaultIgnore, List.isPrefixOf]

example : Spec.Literal Ex.python (.name "budget") ∧ Spec.Recorded Ex.python none (.name "budget") (.name "10") (.name "10") := by
  simp [Spec.Literal, Spec.Recorded, Spec.prefixes, Ex.python]

/-- A key that is no literal but has one as value. -/
example : Spec.Recorded Ex.python none .module_ (.name "10") (.name "10") ∧
    Ex.python.eval (Ex.python.repr .module_) = none := by
  simp [Spec.Recorded, Spec.prefixes, Ex.python]

end PySettings
