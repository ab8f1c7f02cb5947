import Verif.Model.ObserverMake
import Verif.Props.FileSystem
import Verif.Props.LoggerRw
import Verif.Props.Observer

/-!
# Creating observers: C111, C112
-/

namespace ObserverMake
open CStr Str Options FileSystem FileSystem.Spec

/-! ## Specification -/

namespace Spec

/-- A key is not in the options, or it is given with a word or with a text in quotation marks that fits a buffer. -/
def Text (cap : Nat) (options key : List Char) : Option (List Char) → Prop
  | none => ∀ k, ¬ Str.Spec.OccursAt options key k
  | some v => v ≠ [] ∧ v.length < cap ∧ ∃ pre gap sp rest,
      (Options.Spec.Entry options pre key gap sp (v ++ rest) ∧ (∀ c ∈ v, isSpace c = false) ∧ v.head? ≠ some '"' ∧
        ∀ c, rest.head? = some c → isSpace c = true) ∨
      (Options.Spec.Entry options pre key gap sp ('"' :: (v ++ '"' :: rest)) ∧ '"' ∉ v)

/-- A key is not in the options, or it is given with a text from which a number is read. -/
def Number (scan : List Char → Int × Option Dbl) (options key : List Char) : Option Dbl → Prop
  | none => ∀ k, ¬ Str.Spec.OccursAt options key k
  | some v => ∃ pre gap sp body, Options.Spec.Entry options pre key gap sp body ∧
      (∀ c, body.head? = some c → isSpace c = false) ∧ scan body = (1, some v)

/-- The general options of an observer, as far as they are given. -/
structure Request where
  outer : Option (List Char)
  result : Option (List Char)
  algorithm : Option (List Char)
  info : Option (List Char)
  base : Option (List Char)
  targets : Option Nat
  evaluations : Option Nat
  logPrecision : Option Dbl
  linPrecision : Option Dbl
  precisionX : Option Int
  precisionF : Option Int
  precisionG : Option Int
  discreteAsInt : Option Int

/-- The options text asks for `r`. -/
structure Asks (scan : List Char → Int × Option Dbl) (options : List Char) (r : Request) : Prop where
  len : options.length ≤ 1000000000
  outer : Text 4097 options "outer_folder".toList r.outer
  result : Text 4097 options "result_folder".toList r.result
  algorithm : Text 4097 options "algorithm_name".toList r.algorithm
  info : Text 20480 options "algorithm_info".toList r.info
  base : Text 4097 options "base_evaluation_triggers".toList r.base
  targets : LoggerRw.Spec.NumGiven options "number_target_triggers".toList r.targets
  evaluations : LoggerRw.Spec.NumGiven options "number_evaluation_triggers".toList r.evaluations
  logPrecision : Number scan options "log_target_precision".toList r.logPrecision
  linPrecision : Number scan options "lin_target_precision".toList r.linPrecision
  precisionX : LoggerRw.Spec.IntGiven options "precision_x".toList r.precisionX
  precisionF : LoggerRw.Spec.IntGiven options "precision_f".toList r.precisionF
  precisionG : LoggerRw.Spec.IntGiven options "precision_g".toList r.precisionG
  discreteAsInt : LoggerRw.Spec.IntGiven options "log_discrete_as_int".toList r.discreteAsInt

/-- A given number if it is within the range, otherwise the default. -/
def inRange (lo hi default : Int) : Option Int → Int
  | none => default
  | some v => if lo ≤ v ∧ v ≤ hi then v else default

/-- A given number if it is at least `lo`, otherwise the default. -/
def atLeast (lo default : Nat) : Option Nat → Nat
  | none => default
  | some v => if lo ≤ v then v else default

/-- A given precision unless it is zero or negative, otherwise the default. -/
def positive (default : Dbl) : Option Dbl → Dbl
  | none => default
  | some v => if v.le (.fin 0) then default else v

/-- The path asked for. -/
def Request.path (r : Request) : List Char :=
  r.outer.getD "exdata".toList ++ '/' :: r.result.getD "default".toList

/-- The result folder can be made: see C48. -/
structure Room (fs : FS) (path : List Char) : Prop where
  last : path.getLast? ≠ some '/'
  clear : Clear fs path
  len : path.length ≤ 436
  free : ∃ c ∈ candidates path, fs c = none

/-- The observer has the settings asked for, and a folder that is the first one free in `fs`. -/
structure Fits (fs : FS) (name : List Char) (r : Request) (o : Made) : Prop where
  name : o.name = name
  folder : (candidates r.path).find? (fun c => fs c = none) = some o.folder
  algorithm : o.algorithm = r.algorithm.getD "ALG".toList
  info : o.info = r.info.getD []
  base : o.baseTriggers = r.base.getD "1,2,5".toList
  targets : o.numbers.targetTriggers = r.targets.getD 100
  evaluations : o.numbers.evaluationTriggers = atLeast 4 20 r.evaluations
  logPrecision : o.logPrecision = positive (.fin (1 / 10 ^ 8)) r.logPrecision
  linPrecision : o.linPrecision = positive (.fin (1 / 10 ^ 5)) r.linPrecision
  precisionX : o.numbers.precisionX = inRange 1 32 8 r.precisionX
  precisionF : o.numbers.precisionF = inRange 1 32 15 r.precisionF
  precisionG : o.numbers.precisionG = inRange 1 32 3 r.precisionG
  discreteAsInt : o.numbers.discreteAsInt = inRange 0 1 0 r.discreteAsInt

/-- The names of the observers for single-objective problems with `.info` files. -/
def Single (name : List Char) : Prop :=
  name ∈ ["bbob".toList, "bbob-boxed".toList, "bbob-largescale".toList, "bbob-mixint".toList, "bbob-noisy".toList] ∨
    ∃ rest, name = "bbob-constrained".toList ++ rest

/-- The names of the observers for bi-objective problems. -/
def Double (name : List Char) : Prop :=
  name ∈ ["bbob-biobj".toList, "bbob-biobj-ext".toList, "bbob-biobj-mixint".toList]

end Spec
open ObserverMake.Spec

/-! ## Reading options -/

theorem textOption_given {options key d : List Char} {cap : Nat} {v : Option (List Char)} (hk : key ≠ [])
    (hl : options.length ≤ 1000000000) (h : Text cap options key v) :
    textOption options key d cap = .ok (v.getD d) := by
  unfold textOption
  cases v with
  | none => rw [(C12_absent options key cap hk hl h).1]; rfl
  | some v =>
    obtain ⟨hv, hc, pre, gap, sp, rest, ⟨h1, h2, h3, h4⟩ | ⟨h1, h2⟩⟩ := h
    · rw [C12_read_string cap h1 hv h2 h3 h4 hc]; rfl
    · rw [C12_read_quoted cap h1 hv h2 hc]; rfl

theorem precisionOption_given {scan : List Char → Int × Option Dbl} {options key : List Char} {d : Dbl} {v : Option Dbl}
    (hk : key ≠ []) (hl : options.length ≤ 1000000000) (h : Number scan options key v) :
    precisionOption scan options key d = .ok (positive d v) := by
  unfold precisionOption readDouble
  cases v with
  | none =>
    have hv : valueStart options key = .ok none := by
      unfold valueStart
      by_cases h0 : options = []
      · simp [h0]
      · simp [h0, strfind_absent hk hl h]
    rw [hv]; rfl
  | some v =>
    obtain ⟨pre, gap, sp, body, h1, h2, h3⟩ := h
    obtain ⟨i2, e1, e2, -⟩ := valueStart_entry h1 h2
    rw [e1, Res.ok_bind]
    simp only [Res.ok_bind]
    rw [e2, h3]
    simp only [Option.getD_some, positive]
    rw [if_pos (by decide)]
    split <;> rfl

theorem sizeOption_given {options key : List Char} {d lo : Nat} {v : Option Nat} (hk : key ≠ [])
    (hl : options.length ≤ 1000000000) (h : LoggerRw.Spec.NumGiven options key v) :
    Observer.sizeOption options key d lo = .ok (atLeast lo d v) := by
  obtain ⟨n, e, hn⟩ := LoggerRw.readSizeT_given hk hl h
  unfold Observer.sizeOption
  rw [e, Res.ok_bind]
  cases v with
  | none => simp [hn.2 rfl, atLeast]
  | some v =>
    have : n ≠ 0 := fun h => absurd (hn.1 h) (by simp)
    simp only [Option.getD_some, atLeast]
    rw [if_pos this]
    by_cases hlo : lo ≤ v
    · rw [if_neg (by omega), if_pos hlo]
    · rw [if_pos (by omega), if_neg hlo]

theorem intOption_given {options key : List Char} {d lo hi : Int} {v : Option Int} (hk : key ≠ [])
    (hl : options.length ≤ 1000000000) (h : LoggerRw.Spec.IntGiven options key v) :
    Observer.intOption options key d lo hi = .ok (inRange lo hi d v) := by
  obtain ⟨n, e, hn⟩ := LoggerRw.readInt_given hk hl h
  unfold Observer.intOption
  rw [e, Res.ok_bind]
  cases v with
  | none => simp [hn.2 rfl, inRange]
  | some v =>
    have : n ≠ 0 := fun h => absurd (hn.1 h) (by simp)
    simp only [Option.getD_some, inRange]
    rw [if_pos this]
    by_cases hlo : lo ≤ v ∧ v ≤ hi
    · rw [if_neg (by omega), if_pos hlo]
    · rw [if_pos (by omega), if_neg hlo]

theorem settings_given {scan : List Char → Int × Option Dbl} {options : List Char} {r : Request} (h : Asks scan options r) :
    Observer.settings options = .ok ⟨atLeast 0 100 r.targets, atLeast 4 20 r.evaluations, inRange 1 32 8 r.precisionX,
      inRange 1 32 15 r.precisionF, inRange 1 32 3 r.precisionG, inRange 0 1 0 r.discreteAsInt⟩ := by
  unfold Observer.settings
  rw [sizeOption_given (by decide) h.len h.targets, Res.ok_bind, sizeOption_given (by decide) h.len h.evaluations,
    Res.ok_bind, intOption_given (by decide) h.len h.precisionX, Res.ok_bind,
    intOption_given (by decide) h.len h.precisionF, Res.ok_bind, intOption_given (by decide) h.len h.precisionG, Res.ok_bind,
    intOption_given (by decide) h.len h.discreteAsInt, Res.ok_bind]

theorem text_ne {cap : Nat} {options key d : List Char} {v : Option (List Char)} (hd : d ≠ []) (h : Text cap options key v) :
    v.getD d ≠ [] := by
  cases v with
  | none => exact hd
  | some v => exact h.1

/-- The part common to all observers. -/
theorem make_common (scan : List Char → Int × Option Dbl) (fs : FS) (name options : List Char) (r : Request)
    (h : Asks scan options r) (hn : name ≠ "no_observer".toList ∧ name ≠ []) (hr : Room fs r.path) :
    ∃ folder fs1 numbers, (∀ s a, Fits fs name r ⟨name, folder, r.algorithm.getD "ALG".toList, r.info.getD [], numbers,
        positive (.fin (1 / 10 ^ 8)) r.logPrecision, positive (.fin (1 / 10 ^ 5)) r.linPrecision,
        r.base.getD "1,2,5".toList, s, a⟩) ∧
      Created (fun q => q = folder ∨ Above q r.path) fs fs1 ∧
      make scan fs name options = (specific fs1 name folder options).bind fun
        | (some (s, active), fs) => .ok (some ⟨name, folder, r.algorithm.getD "ALG".toList, r.info.getD [], numbers,
            positive (.fin (1 / 10 ^ 8)) r.logPrecision, positive (.fin (1 / 10 ^ 5)) r.linPrecision,
            r.base.getD "1,2,5".toList, s, active⟩, fs)
        | (none, fs) => .ok (none, fs) := by
  have ho := text_ne (d := "exdata".toList) (by decide) h.outer
  have hres := text_ne (d := "default".toList) (by decide) h.result
  have hpath : join (r.outer.getD "exdata".toList) [r.result.getD "default".toList] = r.path := by
    simp only [join, List.foldl_cons, List.foldl_nil]
    rw [if_neg ho]; rfl
  have hlen := hr.len
  have hjoin : joinPath (r.outer.getD "exdata".toList) 4096 [r.result.getD "default".toList] = .ok r.path := by
    rw [C82_single, hpath, if_pos]
    unfold Request.path at hlen
    rw [List.length_append, List.length_cons] at hlen
    omega
  have hne : r.path ≠ [] := by unfold Request.path; simp
  have hdrive : ¬ Drive r.path := by
    rintro ⟨h1, h2⟩
    unfold Request.path at h1 h2
    obtain ⟨a, as, ea⟩ := List.exists_cons_of_ne_nil ho
    obtain ⟨b, bs, eb⟩ := List.exists_cons_of_ne_nil hres
    rw [ea, eb] at h1
    simp at h1; omega
  rcases C48_directory fs r.path hne hr.last hdrive hr.clear hr.len with ⟨hall, -⟩ | ⟨c, fs1, hc, hu, hcr⟩
  · obtain ⟨c, hc, he⟩ := hr.free
    exact absurd he (hall c hc)
  · refine ⟨c, fs1, ⟨atLeast 0 100 r.targets, atLeast 4 20 r.evaluations, inRange 1 32 8 r.precisionX,
      inRange 1 32 15 r.precisionF, inRange 1 32 3 r.precisionG, inRange 0 1 0 r.discreteAsInt⟩, ?_, hcr, ?_⟩
    rotate_left
    · unfold make
      rw [if_neg hn.1, if_neg (by simpa using hn.2), textOption_given (by decide) h.len h.outer, Res.ok_bind,
        textOption_given (by decide) h.len h.result, Res.ok_bind, hjoin, Res.ok_bind, hu, Res.ok_bind]
      simp only
      rw [textOption_given (by decide) h.len h.algorithm, Res.ok_bind, textOption_given (by decide) h.len h.info,
        Res.ok_bind, settings_given h, Res.ok_bind, precisionOption_given (by decide) h.len h.logPrecision, Res.ok_bind,
        precisionOption_given (by decide) h.len h.linPrecision, Res.ok_bind,
        textOption_given (by decide) h.len h.base, Res.ok_bind]
      congr 1
    · intro s a
      refine ⟨rfl, hc, rfl, rfl, rfl, ?_, rfl, rfl, rfl, rfl, rfl, rfl, rfl⟩
      cases r.targets <;> simp [atLeast]

/-! ## The specific observers -/

theorem specific_single (fs : FS) {name : List Char} (folder options : List Char) (h : Single name) :
    specific fs name folder options = (bbob options).bind fun s => .ok (some (s, true), fs) := by
  rcases h with h | ⟨rest, rfl⟩
  · simp only [List.mem_cons, List.not_mem_nil, or_false] at h
    rcases h with rfl | rfl | rfl | rfl | rfl <;> simp [specific]
  · simp [specific]

theorem specific_double (fs : FS) {name : List Char} (folder options : List Char) (h : Double name) :
    specific fs name folder options = (biobj options).bind fun (b, a) => .ok (some (Specific.biobj b, a), fs) := by
  unfold Double at h
  simp only [List.mem_cons, List.not_mem_nil, or_false] at h
  rcases h with rfl | rfl | rfl <;> simp [specific]

theorem single_ne {name : List Char} (h : Single name) : name ≠ "no_observer".toList ∧ name ≠ [] := by
  rcases h with h | ⟨rest, rfl⟩
  · simp only [List.mem_cons, List.not_mem_nil, or_false] at h
    rcases h with rfl | rfl | rfl | rfl | rfl <;> simp
  · simp

theorem double_ne {name : List Char} (h : Double name) : name ≠ "no_observer".toList ∧ name ≠ [] := by
  unfold Double at h
  simp only [List.mem_cons, List.not_mem_nil, or_false] at h
  rcases h with rfl | rfl | rfl <;> simp

/-- C111: an observer for single-objective problems. It has the settings asked for, or the defaults; its folder is the first free
one, and nothing but this folder and its ancestors is created. -/
theorem C111_single_partial (scan : List Char → Int × Option Dbl) (fs : FS) (name options : List Char) (r : Request)
    (h : Asks scan options r) (hn : Single name) (hr : Room fs r.path) (p : Option (List Char))
    (hp : Text 4097 options "prefix".toList p) :
    ∃ o fs', make scan fs name options = .ok (some o, fs') ∧ Fits fs name r o ∧
      o.specific = .bbob (p.getD "bbobexp".toList) ∧ o.active = true ∧
      Created (fun q => q = o.folder ∨ Above q r.path) fs fs' := by
  obtain ⟨c, fs1, k, hf, hcr, he⟩ := make_common scan fs name options r h (single_ne hn) hr
  rw [specific_single fs1 c options hn] at he
  unfold bbob at he
  rw [textOption_given (by decide) h.len hp] at he
  exact ⟨_, fs1, he, hf _ _, rfl, rfl, hcr⟩

/-- C111: the same for the observer `bbob-old`, which has no options of its own. -/
theorem C111_old_partial (scan : List Char → Int × Option Dbl) (fs : FS) (options : List Char) (r : Request)
    (h : Asks scan options r) (hr : Room fs r.path) :
    ∃ o fs', make scan fs "bbob-old".toList options = .ok (some o, fs') ∧ Fits fs "bbob-old".toList r o ∧
      o.specific = .bbobOld ∧ o.active = true ∧ Created (fun q => q = o.folder ∨ Above q r.path) fs fs' := by
  obtain ⟨c, fs1, k, hf, hcr, he⟩ := make_common scan fs "bbob-old".toList options r h (by decide) hr
  have hs : specific fs1 "bbob-old".toList c options = .ok (some (.bbobOld, true), fs1) := by simp [specific]
  rw [hs] at he
  exact ⟨_, fs1, he, hf _ _, rfl, rfl, hcr⟩

/-- C111: the same for the observer `rw`; its own options are the subject of C75. -/
theorem C111_rw_partial (scan : List Char → Int × Option Dbl) (fs : FS) (options : List Char) (r : Request)
    (h : Asks scan options r) (hr : Room fs r.path)
    (vars cons : Option (List Char)) (lv lc : Option Nat) (better time : Option Int)
    (h1 : LoggerRw.Spec.StrGiven 4097 options "log_variables".toList vars)
    (h2 : LoggerRw.Spec.StrGiven 4097 options "log_constraints".toList cons)
    (h3 : LoggerRw.Spec.NumGiven options "low_dim_vars".toList lv)
    (h4 : LoggerRw.Spec.NumGiven options "low_dim_cons".toList lc)
    (h5 : LoggerRw.Spec.IntGiven options "log_only_better".toList better)
    (h6 : LoggerRw.Spec.IntGiven options "log_time".toList time) :
    ∃ o fs', make scan fs "rw".toList options = .ok (some o, fs') ∧ Fits fs "rw".toList r o ∧
      o.specific = .rw ⟨LoggerRw.Spec.mode vars, LoggerRw.Spec.mode cons, some (lv.getD 10), some (lc.getD 10),
        some (better.getD 0), some (time.getD 0)⟩ ∧
      o.active = true ∧ Created (fun q => q = o.folder ∨ Above q r.path) fs fs' := by
  obtain ⟨c, fs1, k, hf, hcr, he⟩ := make_common scan fs "rw".toList options r h (by decide) hr
  have hs : specific fs1 "rw".toList c options =
      (LoggerRw.observer 4096 options).bind fun r => .ok (some (.rw r, true), fs1) := by simp [specific]
  rw [hs, LoggerRw.C75_options_partial 4096 options h.len vars cons lv lc better time h1 h2 h3 h4 h5 h6] at he
  exact ⟨_, fs1, he, hf _ _, rfl, rfl, hcr⟩

/-! ### toy -/

theorem candidate_cases {path c : List Char} (h : c ∈ candidates path) :
    ∃ t, c = path ++ t ∧ '/' ∉ t ∧ (t = [] ∨ t.getLast? ≠ some '/' ∧ t ≠ [] ∧ 5 ≤ t.length) := by
  unfold candidates at h
  rcases List.mem_cons.mp h with rfl | h
  · exact ⟨[], by simp, by simp, Or.inl rfl⟩
  · obtain ⟨k, -, rfl⟩ := List.mem_map.mp h
    refine ⟨'-' :: pad4 k, rfl, no_slash_pad4 k, Or.inr ⟨?_, by simp, by simp [pad4_length]⟩⟩
    have := pad4_ne k
    have h4 := pad4_length k
    obtain ⟨a, as, e⟩ := List.exists_cons_of_ne_nil (l := pad4 k) (by intro h; rw [h] at h4; cases h4)
    rw [e] at this ⊢
    rwa [List.getLast?_cons_cons]

theorem again {fs fs1 : FS} {path c : List Char} (hne : path ≠ []) (hr : Room fs path) (hd : ¬ Drive path)
    (hc : c ∈ candidates path) (hcr : Created (fun q => q = c ∨ Above q path) fs fs1) :
    createDirectory fs1 c = .ok (1, fs1) := by
  obtain ⟨t, rfl, ht, h0⟩ := candidate_cases hc
  have hab : ∀ q, Above q (path ++ t) ↔ Above q path := fun q => above_suffix q path t ht
  have hex : ∀ q, (q = path ++ t ∨ Above q (path ++ t)) → fs1 q ≠ none := by
    intro q hq
    rw [hab] at hq
    by_cases e : fs q = none
    · rw [hcr.adds q hq e]; simp
    · rw [hcr.keeps q e]; exact e
  obtain ⟨fs2, he, hcr2⟩ := C81_create fs1 (path ++ t) (by simp [hne]) (by
      rcases h0 with rfl | ⟨h, hn, -⟩
      · simpa using hr.last
      · rwa [List.getLast?_append_of_ne_nil _ hn]) (by
      rcases h0 with rfl | ⟨-, -, h⟩
      · simpa using hd
      · rintro ⟨h1, -⟩
        rw [List.length_append] at h1; omega) (by
      intro q hq
      rw [hab] at hq
      refine ⟨?_, (hr.clear q hq).2⟩
      exact hcr.not_file (hr.clear q hq).1)
  have : fs2 = fs1 := by
    funext q
    by_cases e : fs1 q = none
    · exact hcr2.only q fun h => hex q h e
    · exact hcr2.keeps q e
  rw [he, this, if_neg (hex _ (Or.inl rfl))]

theorem path_ok {scan : List Char → Int × Option Dbl} {options : List Char} {r : Request} (h : Asks scan options r) :
    r.path ≠ [] ∧ ¬ Drive r.path := by
  have ho := text_ne (d := "exdata".toList) (by decide) h.outer
  have hres := text_ne (d := "default".toList) (by decide) h.result
  refine ⟨by unfold Request.path; simp, ?_⟩
  rintro ⟨h1, h2⟩
  unfold Request.path at h1 h2
  obtain ⟨a, as, ea⟩ := List.exists_cons_of_ne_nil ho
  obtain ⟨b, bs, eb⟩ := List.exists_cons_of_ne_nil hres
  rw [ea, eb] at h1
  simp at h1; omega

theorem parent_join (c v : List Char) (hv : '/' ∉ v) : parent (c ++ '/' :: v) = c := by
  unfold parent
  rw [List.reverse_append, List.reverse_cons, List.append_assoc,
    List.dropWhile_append_of_pos (by intro x hx; simp; rintro rfl; exact hv (by simpa using hx))]
  simp

/-- C111: the same for the observer `toy`; in addition its file is created in the folder. The file system has nothing below absent
directories. -/
theorem C111_toy_partial (scan : List Char → Int × Option Dbl) (fs : FS) (options : List Char) (r : Request)
    (h : Asks scan options r) (hr : Room fs r.path) (v : Option (List Char))
    (hv : Text 4097 options "file_name".toList v)
    (hslash : '/' ∉ v.getD "first_hitting_times.dat".toList)
    (hlen : (v.getD "first_hitting_times.dat".toList).length ≤ 3600)
    (hfs : ∀ p q, fs p = none → Above p q → fs q = none) :
    ∃ o fs1 fs' file, make scan fs "toy".toList options = .ok (some o, fs') ∧ Fits fs "toy".toList r o ∧
      file = o.folder ++ '/' :: v.getD "first_hitting_times.dat".toList ∧ o.specific = .toy file ∧ o.active = true ∧
      Created (fun q => q = o.folder ∨ Above q r.path) fs fs1 ∧
      fs' file = some .file ∧ (∀ q, q ≠ file → fs' q = fs1 q) := by
  obtain ⟨c, fs1, k, hf, hcr, he⟩ := make_common scan fs "toy".toList options r h (by decide) hr
  have hs : specific fs1 "toy".toList c options =
      (toy fs1 c options).bind fun (s, fs) => .ok (some (s, true), fs) := by simp [specific]
  have hfind := (hf .bbobOld true).folder
  have hc := List.mem_of_find?_eq_some hfind
  have hcn : fs c = none := by simpa using List.find?_some hfind
  obtain ⟨hne, hd⟩ := path_ok h
  obtain ⟨t, ht, hts, h0⟩ := candidate_cases hc
  simp only at ht hcn
  have htl : c.length ≤ 441 := by
    unfold candidates at hc
    rcases List.mem_cons.mp hc with e | hc
    · have := hr.len; simp only at e; rw [e]; omega
    · obtain ⟨j, -, e⟩ := List.mem_map.mp hc
      have := hr.len
      have := congrArg List.length e
      simp only [List.length_append, List.length_cons, pad4_length] at this
      omega
  have hcne : c ≠ [] := by rw [ht]; simp [hne]
  have hjoin : joinPath c 4096 [v.getD "first_hitting_times.dat".toList] =
      .ok (c ++ '/' :: v.getD "first_hitting_times.dat".toList) := by
    rw [C82_single, if_pos (by omega)]
    simp only [join, List.foldl_cons, List.foldl_nil]
    rw [if_neg hcne]
  have hfile : fs1 (c ++ '/' :: v.getD "first_hitting_times.dat".toList) = none := by
    rw [hcr.only _ (by
      rintro (e | ⟨-, rest, e⟩)
      · have := congrArg List.length e
        simp at this
      · rw [ht] at e
        have := congrArg List.length e
        simp only [List.length_append, List.length_cons] at this
        omega)]
    exact hfs c _ hcn ⟨hcne, _, rfl⟩
  have hdir : fs1 c = some .dir := hcr.adds c (Or.inl rfl) hcn
  rw [hs] at he
  unfold toy at he
  rw [textOption_given (by decide) h.len hv, Res.ok_bind, again hne hr hd hc hcr, Res.ok_bind] at he
  simp only at he
  rw [hjoin, Res.ok_bind] at he
  unfold openAppend at he
  rw [hfile] at he
  simp only at he
  rw [if_pos ⟨by simp, Or.inr (by rw [parent_join _ _ hslash]; exact hdir)⟩] at he
  exact ⟨_, fs1, _, _, he, hf _ _, rfl, rfl, rfl, hcr, Function.update_self .., fun q hq => Function.update_of_ne hq _ _⟩

/-! ### Bi-objective observers -/

/-- What the option `log_nondominated` means. -/
def Spec.nondom : Option (List Char) → LoggerBiobj.Mode
  | none => .all
  | some v => if v = "none".toList then .none else if v = "final".toList then .final
    else if v = "read".toList then .read else .all

/-- What the option `log_decision_variables` means. -/
def Spec.vars : Option (List Char) → VarsMode
  | none => .lowDim
  | some v => if v = "none".toList then .never else if v = "all".toList then .always else .lowDim

theorem readString_given {options key : List Char} {cap : Nat} {v : Option (List Char)} (hk : key ≠ [])
    (hl : options.length ≤ 1000000000) (h : Text cap options key v) :
    readString options key cap = .ok (if v = none then 0 else 1, v) := by
  cases v with
  | none => rw [(C12_absent options key cap hk hl h).1]; rfl
  | some v =>
    obtain ⟨hv, hc, pre, gap, sp, rest, ⟨h1, h2, h3, h4⟩ | ⟨h1, h2⟩⟩ := h
    · rw [C12_read_string cap h1 hv h2 h3 h4 hc]; rfl
    · rw [C12_read_quoted cap h1 hv h2 hc]; rfl

theorem biobj_given (options : List Char) (hl : options.length ≤ 1000000000) (v1 v2 : Option (List Char)) (i a : Option Int)
    (h1 : Text 4097 options "log_nondominated".toList v1) (h2 : Text 4097 options "log_decision_variables".toList v2)
    (h3 : LoggerRw.Spec.IntGiven options "compute_indicators".toList i)
    (h4 : LoggerRw.Spec.IntGiven options "produce_all_data".toList a) :
    biobj options = .ok (if a.getD 0 ≠ 0 then (⟨.all, .lowDim, some 1, some (a.getD 0)⟩, true)
      else (⟨nondom v1, vars v2, some (i.getD 1), some 0⟩, !(decide (nondom v1 = .none) && decide (i.getD 1 = 0)))) := by
  obtain ⟨n3, e3, k3⟩ := LoggerRw.readInt_given (by decide) hl h3
  obtain ⟨n4, e4, k4⟩ := LoggerRw.readInt_given (by decide) hl h4
  have key : ∀ (n : Int) (v : Option Int) (d : Int), (n = 0 ↔ v = none) →
      (if n = 0 then some d else v) = some (v.getD d) := by
    intro n v d h
    cases v with
    | none => simp [h.2 rfl]
    | some v => simp [h]
  unfold biobj
  rw [readString_given (by decide) hl h1, Res.ok_bind]
  simp only
  rw [readString_given (by decide) hl h2, Res.ok_bind]
  simp only
  rw [e3, Res.ok_bind]
  simp only
  rw [e4, Res.ok_bind]
  simp only
  rw [key _ _ _ k4]
  simp only
  have hnd : (if (if v1 = none then (0 : Int) else 1) > 0 then
      if v1 = some "none".toList then LoggerBiobj.Mode.none
      else if v1 = some "final".toList then LoggerBiobj.Mode.final
      else if v1 = some "all".toList then LoggerBiobj.Mode.all
      else if v1 = some "read".toList then LoggerBiobj.Mode.read
      else LoggerBiobj.Mode.all
    else LoggerBiobj.Mode.all) = nondom v1 := by
    cases v1 with
    | none => simp [nondom]
    | some v =>
      simp only [reduceCtorEq, if_false, Option.some.injEq, nondom]
      rw [if_pos (by decide)]
      by_cases e1 : v = "none".toList
      · rw [if_pos e1, if_pos e1]
      rw [if_neg e1, if_neg e1]
      by_cases e2 : v = "final".toList
      · rw [if_pos e2, if_pos e2]
      rw [if_neg e2, if_neg e2]
      by_cases e3 : v = "all".toList
      · rw [if_pos e3, if_neg (by rw [e3]; decide)]
      rw [if_neg e3]
  have hvs : (if (if v2 = none then (0 : Int) else 1) > 0 then
      if v2 = some "none".toList then VarsMode.never
      else if v2 = some "all".toList then VarsMode.always
      else if v2 = some "low_dim".toList then VarsMode.lowDim
      else VarsMode.lowDim
    else VarsMode.lowDim) = vars v2 := by
    cases v2 with
    | none => simp [vars]
    | some v =>
      simp only [reduceCtorEq, if_false, Option.some.injEq, vars]
      rw [if_pos (by decide)]
      by_cases e1 : v = "none".toList
      · rw [if_pos e1, if_pos e1]
      rw [if_neg e1, if_neg e1]
      by_cases e2 : v = "all".toList
      · rw [if_pos e2, if_pos e2]
      rw [if_neg e2, if_neg e2]
      simp
  rw [hnd, hvs, key _ _ _ k3]
  by_cases ha : a.getD 0 = 0
  · rw [if_neg (not_not.mpr ha), if_neg (not_not.mpr ha), ha]
  · rw [if_pos ha, if_pos ha]
    simp

/-- C112: an observer for bi-objective problems. Its four own options have the given values or their defaults, a text that is not one
of those documented counts as the default, `produce_all_data` overrides the others, and the observer is inactive exactly if nothing is
to be logged. The rest is as for the other observers. -/
theorem C112_biobj_partial (scan : List Char → Int × Option Dbl) (fs : FS) (name options : List Char) (r : Request)
    (h : Asks scan options r) (hn : Double name) (hr : Room fs r.path) (v1 v2 : Option (List Char)) (i a : Option Int)
    (h1 : Text 4097 options "log_nondominated".toList v1) (h2 : Text 4097 options "log_decision_variables".toList v2)
    (h3 : LoggerRw.Spec.IntGiven options "compute_indicators".toList i)
    (h4 : LoggerRw.Spec.IntGiven options "produce_all_data".toList a) :
    ∃ o fs' b, make scan fs name options = .ok (some o, fs') ∧ Fits fs name r o ∧ o.specific = .biobj b ∧
      Created (fun q => q = o.folder ∨ Above q r.path) fs fs' ∧
      (a.getD 0 ≠ 0 → b.nondom = .all ∧ b.vars = .lowDim ∧ b.indicators = some 1 ∧ b.allData = a ∧ o.active = true) ∧
      (a.getD 0 = 0 → b.nondom = nondom v1 ∧ b.vars = vars v2 ∧ b.indicators = some (i.getD 1) ∧ b.allData = some 0 ∧
        (o.active = false ↔ nondom v1 = .none ∧ i.getD 1 = 0)) := by
  obtain ⟨c, fs1, k, hf, hcr, he⟩ := make_common scan fs name options r h (double_ne hn) hr
  rw [specific_double fs1 c options hn, biobj_given options h.len v1 v2 i a h1 h2 h3 h4, Res.ok_bind] at he
  by_cases ha : a.getD 0 = 0
  · rw [if_neg (not_not.mpr ha)] at he
    refine ⟨_, fs1, _, he, hf _ _, rfl, hcr, fun h => absurd ha h, fun _ => ⟨rfl, rfl, rfl, rfl, ?_⟩⟩
    simp
  · rw [if_pos ha] at he
    refine ⟨_, fs1, _, he, hf _ _, rfl, hcr, fun _ => ⟨rfl, rfl, rfl, ?_, rfl⟩, fun h => absurd h ha⟩
    cases a with
    | none => exact absurd rfl ha
    | some a => rfl

/-! ## NULL -/

/-- C111: for the names `no_observer` and the empty name the result is NULL, and nothing is created, whatever the options. -/
theorem C111_null (scan : List Char → Int × Option Dbl) (fs : FS) (name options : List Char)
    (h : name = "no_observer".toList ∨ name = []) : make scan fs name options = .ok (none, fs) := by
  unfold make
  rcases h with rfl | rfl
  · rw [if_pos rfl]
  · rw [if_neg (by decide), if_pos List.length_nil]

/-- C111 is false of the code for any other name: the result is NULL as well, but a result folder is created. -/
theorem C111_unknown (scan : List Char → Int × Option Dbl) (fs : FS) (name options : List Char) (r : Request)
    (h : Asks scan options r) (hr : Room fs r.path) (h0 : name ≠ "no_observer".toList ∧ name ≠ [])
    (h1 : ¬ Single name) (h2 : ¬ Double name)
    (h3 : name ∉ ["toy".toList, "bbob-old".toList, "rw".toList]) :
    ∃ folder fs', make scan fs name options = .ok (none, fs') ∧ fs folder = none ∧ fs' folder = some .dir := by
  obtain ⟨c, fs1, k, hf, hcr, he⟩ := make_common scan fs name options r h h0 hr
  have hcn : fs c = none := by simpa using List.find?_some (hf .bbobOld true).folder
  have hs : specific fs1 name c options = .ok (none, fs1) := by
    unfold Single at h1
    unfold Double at h2
    simp only [List.mem_cons, List.not_mem_nil, or_false, not_or] at h1 h2 h3
    have h16 : ¬ name.take 16 = "bbob-constrained".toList := by
      intro e
      exact h1.2 ⟨name.drop 16, by rw [← e, List.take_append_drop]⟩
    unfold specific
    simp only
    rw [if_neg h3.1, if_neg h1.1.1, if_neg h3.2.1, if_neg h1.1.2.1, if_neg h2.1, if_neg h2.2.1, if_neg h16,
      if_neg h1.1.2.2.1, if_neg h1.1.2.2.2.1, if_neg h2.2.2, if_neg h3.2.2, if_neg h1.1.2.2.2.2]
  rw [hs] at he
  exact ⟨c, fs1, he, hcn, hcr.adds c (Or.inl rfl) hcn⟩

/-! ## Values that are missing -/

/-- C111 is false of the code for a key without value at the end of the options: the text used is indeterminate. -/
theorem C111_no_value (scan : List Char → Int × Option Dbl) (fs : FS) :
    make scan fs "bbob".toList "outer_folder:".toList = .ub := by
  have h : textOption "outer_folder:".toList "outer_folder".toList "exdata".toList 4097 = .ub := by decide +kernel
  unfold make
  rw [if_neg (by decide), if_neg (by decide), h]
  rfl

/-! ## Fresh folders -/

/-- The directory of a path, without the separator at the end. -/
def Spec.strip (p : List Char) : List Char := if p.getLast? = some '/' then p.dropLast else p

/-- What existed is unchanged. -/
def Spec.Grows (fs fs' : FS) : Prop := ∀ q, fs q ≠ none → fs' q = fs q

theorem Spec.Grows.trans {a b c : FS} (h1 : Grows a b) (h2 : Grows b c) : Grows a c := by
  intro q hq
  rw [h2 q (by rw [h1 q hq]; exact hq), h1 q hq]

theorem Spec.Grows.none {a b : FS} (h : Grows a b) {q : List Char} (hq : b q = none) : a q = none := by
  by_contra hn
  rw [h q hn] at hq
  exact hn hq

theorem bind_ok_inv {α β : Type} {r : Res α} {f : α → Res β} {b : β} (h : r.bind f = .ok b) :
    ∃ a, r = .ok a ∧ f a = .ok b := by
  cases r with
  | ok a => exact ⟨a, rfl, h⟩
  | error => cases h
  | assertFail => cases h
  | ub => cases h

theorem grows_update (fs : FS) (p : List Char) (k : Kind) (h : fs p = none) : Grows fs (Function.update fs p (some k)) := by
  intro q hq
  rw [Function.update_of_ne]
  rintro rfl
  exact hq h

theorem mkdir_inv {fs fs' : FS} {p : List Char} {n : Nat} (h : mkdir fs p = .ok (n, fs')) :
    Grows fs fs' ∧ (n = 0 → fs p = none ∧ fs' p = some .dir) := by
  unfold mkdir at h
  split_ifs at h with h1 h2 h3 h4
  · injection h with h; injection h with ha hb; subst ha hb
    exact ⟨fun q _ => rfl, fun h => by cases h⟩
  · injection h with h; injection h with ha hb; subst ha hb
    exact ⟨fun q _ => rfl, fun h => by cases h⟩
  · injection h with h; injection h with ha hb; subst ha hb
    have h3 : fs p = none := by simpa using h3
    exact ⟨grows_update _ _ _ h3, fun _ => ⟨h3, Function.update_self ..⟩⟩

theorem cutLoop_inv (rest : List Char) : ∀ (done : List Char) (fs fs' : FS), cutLoop done rest fs = .ok fs' → Grows fs fs' := by
  induction rest with
  | nil => intro done fs fs' h; injection h with h; subst h; exact fun q _ => rfl
  | cons c rest ih =>
    intro done fs fs' h
    unfold cutLoop at h
    split_ifs at h with h1 h2
    · exact ih _ _ _ h
    · obtain ⟨⟨n, fs1⟩, e, h⟩ := bind_ok_inv h
      exact (mkdir_inv e).1.trans (ih _ _ _ h)
    · exact ih _ _ _ h

theorem createDirectory_inv {fs fs' : FS} {p : List Char} {n : Nat} (h : createDirectory fs p = .ok (n, fs')) :
    Grows fs fs' ∧ (n = 0 → fs (strip p) = none ∧ fs' (strip p) = some .dir) := by
  unfold createDirectory at h
  by_cases h1 : p = []
  · rw [if_pos h1] at h; cases h
  rw [if_neg h1] at h
  dsimp only at h
  obtain ⟨fs1, e, h⟩ := bind_ok_inv h
  have g := cutLoop_inv _ _ _ _ e
  obtain ⟨g2, k⟩ := mkdir_inv h
  exact ⟨g.trans g2, fun hn => ⟨g.none (k hn).1, (k hn).2⟩⟩

theorem directoryLoop_inv (path : List Char) : ∀ (n counter : Nat) (fs fs' : FS) (c : List Char),
    directoryLoop path n counter fs = .ok (c, fs') → Grows fs fs' ∧ fs (strip c) = none ∧ fs' (strip c) = some .dir := by
  intro n
  induction n with
  | zero => intro _ _ _ _ h; cases h
  | succ n ih =>
    intro counter fs fs' c h
    unfold directoryLoop at h
    obtain ⟨new, -, h⟩ := bind_ok_inv h
    obtain ⟨⟨m, fs1⟩, e, h⟩ := bind_ok_inv h
    obtain ⟨g, k⟩ := createDirectory_inv e
    simp only at h
    split_ifs at h with hm
    · injection h with h; injection h with ha hb; subst ha hb
      exact ⟨g, k hm⟩
    · obtain ⟨g2, k2, k3⟩ := ih _ _ _ _ h
      exact ⟨g.trans g2, g.none k2, k3⟩

theorem uniqueDirectory_inv {fs fs' : FS} {path c : List Char} (h : uniqueDirectory fs path = .ok (c, fs')) :
    Grows fs fs' ∧ fs (strip c) = none ∧ fs' (strip c) = some .dir := by
  unfold uniqueDirectory at h
  obtain ⟨⟨m, fs1⟩, e, h⟩ := bind_ok_inv h
  obtain ⟨g, k⟩ := createDirectory_inv e
  simp only at h
  split_ifs at h with hm
  · injection h with h; injection h with ha hb; subst ha hb
    exact ⟨g, k hm⟩
  · obtain ⟨g2, k2, k3⟩ := directoryLoop_inv _ _ _ _ _ _ h
    exact ⟨g.trans g2, g.none k2, k3⟩

theorem ite_inv {c P : Prop} [Decidable c] {α : Type} {a b x : α} (h : (if c then a else b) = x) (h1 : a = x → P)
    (h2 : b = x → P) : P := by
  by_cases hc : c
  · rw [if_pos hc] at h; exact h1 h
  · rw [if_neg hc] at h; exact h2 h

theorem specific_inv {fs fs' : FS} {name folder options : List Char} {s : Option (Specific × Bool)}
    (h : specific fs name folder options = .ok (s, fs')) : Grows fs fs' := by
  have same : ∀ {α : Type} {r : Res α} {f : α → Option (Specific × Bool)},
      (r.bind fun a => Res.ok (f a, fs)) = .ok (s, fs') → Grows fs fs' := by
    intro α r f h
    obtain ⟨a, -, h⟩ := bind_ok_inv h
    injection h with h; injection h with _ hb
    subst hb; exact fun q _ => rfl
  have same' : ∀ {x : Option (Specific × Bool)}, (Res.ok (x, fs)) = .ok (s, fs') → Grows fs fs' := by
    intro x h
    injection h with h; injection h with _ hb
    subst hb; exact fun q _ => rfl
  unfold specific at h
  dsimp only at h
  refine ite_inv h (fun h => ?_) (fun h => ?_)
  · obtain ⟨⟨s1, fs1⟩, e, h⟩ := bind_ok_inv h
    injection h with h; injection h with _ hb; subst hb
    unfold toy at e
    obtain ⟨v, -, e⟩ := bind_ok_inv e
    obtain ⟨⟨n, fs2⟩, e1, e⟩ := bind_ok_inv e
    obtain ⟨p, -, e⟩ := bind_ok_inv e
    obtain ⟨fs3, e2, e⟩ := bind_ok_inv e
    injection e with e; injection e with _ e; subst e
    refine (createDirectory_inv e1).1.trans ?_
    unfold openAppend at e2
    split at e2
    · injection e2 with e2; subst e2; exact fun q _ => rfl
    · cases e2
    · split_ifs at e2
      injection e2 with e2; subst e2
      exact grows_update _ _ _ (by assumption)
  clear * - h same same'
  repeat (refine ite_inv h (fun h => by first | exact same h | exact same' h) (fun h => ?_))
  exact same' h

theorem make_inv {scan : List Char → Int × Option Dbl} {fs fs' : FS} {name options : List Char} {o : Option Made}
    (h : make scan fs name options = .ok (o, fs')) :
    Grows fs fs' ∧ ∀ m, o = some m → fs (strip m.folder) = none ∧ fs' (strip m.folder) = some .dir := by
  unfold make at h
  split_ifs at h with h1 h2
  · injection h with h; injection h with ha hb; subst ha hb
    exact ⟨fun q _ => rfl, fun m h => by cases h⟩
  · injection h with h; injection h with ha hb; subst ha hb
    exact ⟨fun q _ => rfl, fun m h => by cases h⟩
  · obtain ⟨outer, -, h⟩ := bind_ok_inv h
    obtain ⟨result, -, h⟩ := bind_ok_inv h
    obtain ⟨path, -, h⟩ := bind_ok_inv h
    obtain ⟨⟨folder, fs1⟩, e, h⟩ := bind_ok_inv h
    obtain ⟨g, k1, k2⟩ := uniqueDirectory_inv e
    obtain ⟨algorithm, -, h⟩ := bind_ok_inv h
    obtain ⟨info, -, h⟩ := bind_ok_inv h
    obtain ⟨numbers, -, h⟩ := bind_ok_inv h
    obtain ⟨logP, -, h⟩ := bind_ok_inv h
    obtain ⟨linP, -, h⟩ := bind_ok_inv h
    obtain ⟨base, -, h⟩ := bind_ok_inv h
    obtain ⟨⟨s, fs2⟩, e, h⟩ := bind_ok_inv h
    have g2 := specific_inv e
    rcases s with _ | ⟨s, a⟩
    · injection h with h; injection h with ha hb; subst ha hb
      exact ⟨g.trans g2, fun m h => by cases h⟩
    · injection h with h; injection h with ha hb; subst ha hb
      refine ⟨g.trans g2, fun m h => ?_⟩
      injection h with h; subst h
      exact ⟨k1, by rw [g2 _ (by rw [k2]; simp), k2]⟩

/-- C111: whatever observers are created in whatever order, and whatever else is written in between, no two of them share a folder; the
folder of each did not exist at the start, it exists at the end, and nothing that existed at the start has changed. -/
theorem C111_fresh (scan : List Char → Int × Option Dbl) (acts : List Act) (fs fs' : FS) (os : List Made)
    (h : run scan fs acts = .ok (os, fs')) :
    (os.map fun o => strip o.folder).Nodup ∧ Grows fs fs' ∧
      ∀ o ∈ os, fs (strip o.folder) = none ∧ fs' (strip o.folder) = some .dir := by
  induction acts generalizing fs os with
  | nil =>
    injection h with h; injection h with ha hb; subst ha hb
    exact ⟨List.nodup_nil, fun q _ => rfl, by simp⟩
  | cons a acts ih =>
    cases a with
    | make name options =>
      unfold run at h
      obtain ⟨⟨o, fs1⟩, e, h⟩ := bind_ok_inv h
      obtain ⟨⟨os1, fs2⟩, e1, h⟩ := bind_ok_inv h
      injection h with h; injection h with ha hb; subst ha hb
      obtain ⟨n1, g1, k1⟩ := ih _ _ e1
      obtain ⟨g0, k0⟩ := make_inv e
      have hall : ∀ o ∈ os1, fs (strip o.folder) = none ∧ fs2 (strip o.folder) = some .dir :=
        fun o ho => ⟨g0.none (k1 o ho).1, (k1 o ho).2⟩
      cases o with
      | none => exact ⟨by simpa using n1, g0.trans g1, by simpa using hall⟩
      | some m =>
        obtain ⟨a1, a2⟩ := k0 m rfl
        have a3 : fs2 (strip m.folder) = some .dir := by rw [g1 _ (by rw [a2]; simp), a2]
        refine ⟨?_, g0.trans g1, ?_⟩
        · simp only [Option.toList_some, List.cons_append, List.nil_append, List.map_cons, List.nodup_cons]
          refine ⟨?_, n1⟩
          intro hm
          obtain ⟨o, ho, he⟩ := List.mem_map.mp hm
          rw [← he, (k1 o ho).1] at a2
          cases a2
        · intro o ho
          simp only [Option.toList_some, List.cons_append, List.nil_append, List.mem_cons] at ho
          rcases ho with rfl | ho
          · exact ⟨a1, a3⟩
          · exact hall o ho
    | write path kind =>
      unfold run at h
      obtain ⟨n1, g1, k1⟩ := ih _ _ h
      have g0 : Grows fs (if fs path = none then Function.update fs path (some kind) else fs) := by
        split_ifs with hp
        · exact grows_update _ _ _ hp
        · exact fun q _ => rfl
      exact ⟨n1, g0.trans g1, fun o ho => ⟨g0.none (k1 o ho).1, (k1 o ho).2⟩⟩

/-! ## Examples -/

/-- A reader for the numbers of the examples. -/
def exScan (t : List Char) : Int × Option Dbl :=
  if t.take 4 = "1e-3".toList then (1, some (.fin (1 / 1000))) else (0, none)

/-- Options with several keys. -/
def exOptions : List Char :=
  "result_folder: r algorithm_info: \"my algorithm\" lin_target_precision: 1e-3 precision_x: 40 prefix: p".toList

/-- What they ask for. -/
def exRequest : Request :=
  ⟨none, some "r".toList, none, some "my algorithm".toList, none, none, none, none, some (.fin (1 / 1000)), some 40, none, none, none⟩

theorem absent_of {options key : List Char} (hk : key ≠ []) (hl : options.length ≤ 1000000000)
    (h : strfind options key = .ok (-1)) : ∀ k, ¬ Str.Spec.OccursAt options key k := by
  rcases C13_strfind options key hk hl with ⟨_, h1⟩ | ⟨k, h1, -⟩
  · exact h1
  · rw [h] at h1
    injection h1 with h1
    omega

theorem entry_of {options key pre gap sp body : List Char} (ht : options = pre ++ (key ++ (gap ++ (':' :: (sp ++ body)))))
    (h1 : key ≠ []) (h2 : ':' ∉ key) (h3 : ':' ∉ gap) (h4 : ∀ c ∈ sp, isSpace c = true) (hl : options.length ≤ 1000000000)
    (h : strfind options key = .ok (pre.length : Int)) : Options.Spec.Entry options pre key gap sp body := by
  refine ⟨ht, h1, h2, h3, h4, ?_, hl⟩
  rcases C13_strfind options key h1 hl with ⟨h5, _⟩ | ⟨k, h5, -, h6⟩
  · rw [h] at h5
    injection h5 with h5
    omega
  · rw [h] at h5
    injection h5 with h5
    have : k = pre.length := by omega
    rw [← this]; exact h6

/-- The hypotheses of C111 are met: options with six keys, in an existing folder. -/
example : Asks exScan exOptions exRequest ∧ Text 4097 exOptions "prefix".toList (some "p".toList) := by
  have hl : exOptions.length ≤ 1000000000 := by decide
  refine ⟨⟨hl, absent_of (by decide) hl (by decide +kernel), ?_, absent_of (by decide) hl (by decide +kernel), ?_,
    absent_of (by decide) hl (by decide +kernel), absent_of (by decide) hl (by decide +kernel),
    absent_of (by decide) hl (by decide +kernel), absent_of (by decide) hl (by decide +kernel), ?_, ?_,
    absent_of (by decide) hl (by decide +kernel), absent_of (by decide) hl (by decide +kernel),
    absent_of (by decide) hl (by decide +kernel)⟩, ?_⟩
  · refine ⟨by decide, by decide, [], [], [' '],
      " algorithm_info: \"my algorithm\" lin_target_precision: 1e-3 precision_x: 40 prefix: p".toList,
      Or.inl ⟨entry_of (by decide +kernel) (by decide) (by decide) (by decide) (by decide) hl (by decide +kernel),
        by decide, by decide, ?_⟩⟩
    intro c hc
    simp at hc; subst hc; decide
  · exact ⟨by decide, by decide, "result_folder: r ".toList, [], [' '],
      " lin_target_precision: 1e-3 precision_x: 40 prefix: p".toList,
      Or.inr ⟨entry_of (by decide +kernel) (by decide) (by decide) (by decide) (by decide) hl (by decide +kernel), by decide⟩⟩
  · refine ⟨"result_folder: r algorithm_info: \"my algorithm\" ".toList, [], [' '], "1e-3 precision_x: 40 prefix: p".toList,
      entry_of (by decide +kernel) (by decide) (by decide) (by decide) (by decide) hl (by decide +kernel), ?_, by decide +kernel⟩
    intro c hc
    simp at hc; subst hc; decide
  · refine ⟨"result_folder: r algorithm_info: \"my algorithm\" lin_target_precision: 1e-3 ".toList, [], [' '], false,
      "40".toList, " prefix: p".toList,
      entry_of (by decide +kernel) (by decide) (by decide) (by decide) (by decide) hl (by decide +kernel), by decide, by decide,
      by decide, by decide, ?_, by decide⟩
    intro c hc
    simp at hc; subst hc; decide
  · exact ⟨by decide, by decide,
      "result_folder: r algorithm_info: \"my algorithm\" lin_target_precision: 1e-3 precision_x: 40 ".toList, [], [' '], [],
      Or.inl ⟨entry_of (by decide +kernel) (by decide) (by decide) (by decide) (by decide) hl (by decide +kernel),
        by decide, by decide, by simp⟩⟩

/-- A file system in which the folder asked for exists already. -/
def exFS : FS := fun q => if q = "exdata".toList ∨ q = "exdata/r".toList then some .dir else none

example : Room exFS exRequest.path := by
  refine ⟨by decide, ?_, by decide, "exdata/r-0001".toList, by decide +kernel, by decide⟩
  rintro q ⟨-, rest, hq⟩
  have hq : "exdata/r".toList = q ++ '/' :: rest := hq
  have h6 : q = "exdata".toList := by
    have hl := congrArg List.length hq
    have h0 : ("exdata/r".toList).length = 8 := by decide
    rw [h0, List.length_append, List.length_cons] at hl
    have h1 : ("exdata/r".toList)[q.length]? = some '/' := by rw [hq]; simp
    have h2 : q.length = 6 := by
      have : ∀ n < 8, ("exdata/r".toList)[n]? = some '/' → n = 6 := by decide
      exact this _ (by omega) h1
    have h3 : ("exdata/r".toList).take 6 = q := by rw [hq, ← h2, List.take_left']; rfl
    rw [← h3]; decide
  subst h6
  refine ⟨by decide, by unfold Drive; decide⟩

example : ((make exScan exFS "bbob-constrained-x".toList exOptions).bind fun (o, _) => .ok o) =
    .ok (some ⟨"bbob-constrained-x".toList, "exdata/r-0001".toList, "ALG".toList, "my algorithm".toList,
      ⟨100, 20, 8, 15, 3, 0⟩, .fin (1 / 10 ^ 8), .fin (1 / 1000), "1,2,5".toList, .bbob "p".toList, true⟩) := by
  decide +kernel

/-- Three observers with the same options in a row. -/
example : ((run exScan exFS [.make "bbob".toList exOptions, .write "exdata/r-0002".toList .file, .make "rw".toList exOptions,
      .make "none".toList exOptions, .make "toy".toList []]).bind fun (os, _) => .ok (os.map (·.folder))) =
    .ok ["exdata/r-0001".toList, "exdata/r-0003".toList, "exdata/default".toList] := by
  decide +kernel

example : ((biobj "log_nondominated: none compute_indicators: 0 log_decision_variables: some".toList)) =
    .ok (⟨.none, .lowDim, some 0, some 0⟩, false) := by decide +kernel

end ObserverMake
