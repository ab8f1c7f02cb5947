import Mathlib.Tactic
import Verif.Model.Crash

/-!
# What is in the files of an observer after a crash (C117)
-/

namespace Crash

/-! ### Specification -/

/-- The text which the given calls print to a file. -/
def Spec.written (f : File) : List Act → List Char
  | [] => []
  | .print g t :: as => (if g = f then t else []) ++ Spec.written f as
  | _ :: as => Spec.written f as

/-- A call of the loggers bbob and bbob-old that writes a line to the given file. -/
def Spec.writes : BbobCall → File → Bool
  | .evaluate dat _ _, .dat => dat.isSome
  | .evaluate _ tdat _, .tdat => tdat.isSome
  | .evaluate _ _ rdat, .rdat => rdat.isSome
  | .recommend mdat, .mdat => mdat.isSome
  | _, _ => false

/-! ### Lemmas -/

theorem written_append (f : File) (as bs : List Act) :
    Spec.written f (as ++ bs) = Spec.written f as ++ Spec.written f bs := by
  induction as with
  | nil => rfl
  | cons a as ih => cases a <;> simp [Spec.written, ih]

theorem exec_append (σ : File → Stream) (es fs : List Event) : exec σ (es ++ fs) = exec (exec σ es) fs := by
  induction es generalizing σ with
  | nil => rfl
  | cons e es ih => exact ih _

theorem calls_append (es fs : List Event) : calls (es ++ fs) = calls es ++ calls fs := by
  unfold calls
  exact List.filterMap_append

/-- Nothing is lost or reordered between printing and the files. -/
theorem exec_total (σ : File → Stream) (es : List Event) (f : File) :
    (exec σ es f).disk ++ (exec σ es f).buffer = (σ f).disk ++ (σ f).buffer ++ Spec.written f (calls es) := by
  induction es generalizing σ with
  | nil => simp [exec, calls, Spec.written]
  | cons e es ih =>
    rw [exec, ih]
    cases e with
    | act a =>
      cases a with
      | print g t =>
        by_cases h : f = g
        · subst h; simp [step, calls, Spec.written]
        · simp [step, calls, Spec.written, h, Ne.symm h]
      | flush g =>
        by_cases h : f = g
        · subst h; simp [step, calls, Spec.written, Stream.flush]
        · simp [step, calls, Spec.written, h]
      | close g =>
        by_cases h : f = g
        · subst h; simp [step, calls, Spec.written, Stream.flush]
        · simp [step, calls, Spec.written, h]
    | spill g n =>
      by_cases h : f = g
      · subst h; simp [step, calls, List.append_assoc]
      · simp [step, calls, h]

/-- What is in a file stays there. -/
theorem exec_mono (σ : File → Stream) (es : List Event) (f : File) : (σ f).disk <+: (exec σ es f).disk := by
  induction es generalizing σ with
  | nil => exact List.prefix_rfl
  | cons e es ih =>
    refine List.IsPrefix.trans ?_ (ih (step σ e))
    cases e with
    | act a => cases a <;> simp only [step] <;> split_ifs <;> simp [Stream.flush]
    | spill g n => simp only [step]; split_ifs <;> simp

/-- Whether something printed to the file may still be buffered after the calls. -/
def dirty (f : File) : Bool → List Act → Bool
  | d, [] => d
  | d, .print g _ :: as => dirty f (if g = f then true else d) as
  | d, .flush g :: as => dirty f (if g = f then false else d) as
  | d, .close g :: as => dirty f (if g = f then false else d) as

theorem dirty_append (f : File) (d : Bool) (as bs : List Act) : dirty f d (as ++ bs) = dirty f (dirty f d as) bs := by
  induction as generalizing d with
  | nil => rfl
  | cons a as ih => cases a <;> exact ih _

theorem exec_clean (σ : File → Stream) (es : List Event) (f : File) (d : Bool)
    (hd : d = false → (σ f).buffer = []) (h : dirty f d (calls es) = false) : (exec σ es f).buffer = [] := by
  induction es generalizing σ d with
  | nil => exact hd h
  | cons e es ih =>
    rw [exec]
    cases e with
    | act a =>
      cases a with
      | print g t =>
        refine ih _ (if g = f then true else d) ?_ h
        by_cases hg : g = f
        · simp [hg]
        · simpa [hg, step, Ne.symm hg] using hd
      | flush g =>
        refine ih _ (if g = f then false else d) ?_ h
        by_cases hg : g = f
        · simp [hg, step, Stream.flush]
        · simpa [hg, step, Ne.symm hg] using hd
      | close g =>
        refine ih _ (if g = f then false else d) ?_ h
        by_cases hg : g = f
        · simp [hg, step, Stream.flush]
        · simpa [hg, step, Ne.symm hg] using hd
    | spill g n =>
      refine ih _ d ?_ h
      intro hd'
      by_cases hg : f = g
      · subst hg; simp [step, hd hd']
      · simpa [step, hg] using hd hd'

/-- If nothing of the calls `as` is left in the buffer, all they printed is in the file, whatever happens later. -/
theorem durable (d : File → List Char) (f : File) (as : List Act) (es : List Event) (hp : as <+: calls es)
    (hc : dirty f false as = false) : d f ++ Spec.written f as <+: (exec (opened d) es f).disk := by
  obtain ⟨bs, hb⟩ := hp
  obtain ⟨e1, e2, rfl, h1, -⟩ := List.filterMap_eq_append_iff.1 hb.symm
  have h1' : calls e1 = as := h1
  rw [exec_append]
  refine List.IsPrefix.trans ?_ (exec_mono _ _ _)
  have t := exec_total (opened d) e1 f
  have c := exec_clean (opened d) e1 f false (fun _ => rfl) (by rw [h1']; exact hc)
  rw [c, h1', List.append_nil] at t
  rw [t]
  simp [opened]

theorem dirty_prints (f g : File) (d : Bool) (l : List (List Char)) :
    dirty f d (prints g l) = if g = f ∧ l ≠ [] then true else d := by
  induction l generalizing d with
  | nil => simp [prints, dirty]
  | cons t l ih =>
    have : dirty f d (prints g (t :: l)) = dirty f (if g = f then true else d) (prints g l) := rfl
    rw [this, ih]
    by_cases h : g = f <;> simp [h]

theorem dirty_output (f g : File) (d : Bool) (l : List (List Char)) :
    dirty f d (output g l) = if g = f then false else d := by
  rw [output, dirty_append, dirty_prints]
  by_cases h : g = f <;> simp [h, dirty]

theorem dirty_output? (f g : File) (d : Bool) (l : Option (List (List Char))) :
    dirty f d (output? g l) = if g = f ∧ l.isSome then false else d := by
  cases l with
  | none => simp [output?, dirty]
  | some l => rw [output?, dirty_output]; simp

/-! ### C117 -/

/-- **C117** (order). Whatever a process prints and whenever and however it ends: what a file contains afterwards is what
it contained before followed by a beginning of the text printed to it. After `exit` it is all of the text. -/
theorem C117_order (d : File → List Char) (es : List Event) (stop : Stop) (f : File) :
    ∃ t, t <+: Spec.written f (calls es) ∧ after (exec (opened d) es) stop f = d f ++ t ∧
      (stop = .exit → t = Spec.written f (calls es)) := by
  have t := exec_total (opened d) es f
  have m := exec_mono (opened d) es f
  obtain ⟨u, hu⟩ := m
  have hu' : d f ++ u = (exec (opened d) es f).disk := hu
  rw [← hu'] at t
  have t' : u ++ (exec (opened d) es f).buffer = Spec.written f (calls es) := by
    simpa [opened, List.append_assoc] using t
  cases stop with
  | killed => exact ⟨u, ⟨_, t'⟩, hu'.symm, fun h => by cases h⟩
  | exit =>
    refine ⟨_, List.prefix_rfl, ?_, fun _ => rfl⟩
    simp only [after, Stream.flush]
    rw [← hu', List.append_assoc, t']

theorem bbob_dirty (h : Header) (f : File) (hf : f = .dat ∨ f = .tdat ∨ f = .rdat ∨ f = .mdat) (cs : List BbobCall) :
    ∀ i d, ((∃ c ∈ cs, Spec.writes c f = true) ∨ (i = true ∧ d = false)) → dirty f d (bbob h i cs) = false := by
  induction cs with
  | nil =>
    intro i d hx
    rcases hx with ⟨c, hc, -⟩ | ⟨-, rfl⟩
    · simp at hc
    · rfl
  | cons c cs ih =>
    intro i d hx
    rw [bbob, dirty_append]
    refine ih true _ ?_
    by_cases hw : Spec.writes c f = true
    · right
      refine ⟨rfl, ?_⟩
      cases c with
      | evaluate a b c =>
        rcases hf with rfl | rfl | rfl | rfl <;> simp only [Spec.writes] at hw <;>
          simp_all [bbobCall, dirty_append, dirty_output?]
      | recommend m =>
        rcases hf with rfl | rfl | rfl | rfl <;> simp only [Spec.writes] at hw <;>
          simp_all [bbobCall, dirty_append, dirty_output?]
    · rcases hx with ⟨c', hc', hw'⟩ | ⟨rfl, rfl⟩
      · left
        rcases List.mem_cons.1 hc' with rfl | hc'
        · exact absurd hw' hw
        · exact ⟨c', hc', hw'⟩
      · right
        refine ⟨rfl, ?_⟩
        cases c <;> simp [bbobCall, dirty_append, dirty_output?]

/-- **C117** (partial; observers bbob and bbob-old). If a process is killed or ends otherwise after any calls on the observed
problem were completed, then each data file to which at least one line was written contains all that these calls
printed, whatever the process did in addition (such as a part of a further call). (The info file is not covered:
`C117_info_lost`.) -/
theorem C117_bbob_partial (d : File → List Char) (h : Header) (cs : List BbobCall) (es : List Event)
    (hes : bbob h false cs <+: calls es) (stop : Stop) (f : File) (hf : f = .dat ∨ f = .tdat ∨ f = .rdat ∨ f = .mdat)
    (hl : ∃ c ∈ cs, Spec.writes c f = true) :
    d f ++ Spec.written f (bbob h false cs) <+: after (exec (opened d) es) stop f := by
  have := durable d f _ es hes (bbob_dirty h f hf cs false false (Or.inl hl))
  cases stop with
  | killed => exact this
  | exit => exact this.trans (List.prefix_append _ _)

/-- **C117** (finished runs of bbob and bbob-old). After an observed problem was freed all its files are complete. -/
theorem C117_bbob_freed (d : File → List Char) (h : Header) (cs : List BbobCall) (info : List Char)
    (dat tdat mdat : Option (List (List Char))) (es : List Event)
    (hes : bbob h false cs ++ bbobFree (!cs.isEmpty) info dat tdat mdat <+: calls es) (stop : Stop) (f : File)
    (hf : f ≠ .adat ∧ f ≠ .out) :
    d f ++ Spec.written f (bbob h false cs ++ bbobFree (!cs.isEmpty) info dat tdat mdat) <+:
      after (exec (opened d) es) stop f := by
  have : d f ++ Spec.written f (bbob h false cs ++ bbobFree (!cs.isEmpty) info dat tdat mdat) <+:
      (exec (opened d) es f).disk := by
    refine durable d f _ es hes ?_
    cases cs with
    | nil => rfl
    | cons c cs =>
      rw [dirty_append]
      generalize dirty f false (bbob h false (c :: cs)) = b
      unfold bbobFree
      obtain ⟨h1, h2⟩ := hf
      cases f <;> first | exact absurd rfl h1 | exact absurd rfl h2 | simp [dirty_append, dirty_output?, dirty]
  cases stop with
  | killed => exact this
  | exit => exact this.trans (List.prefix_append _ _)

theorem exec_acts (σ : File → Stream) (as : List Act) (f : File)
    (h : ∀ a ∈ as, a ≠ .flush f ∧ a ≠ .close f) : (exec σ (as.map .act) f).disk = (σ f).disk := by
  induction as generalizing σ with
  | nil => rfl
  | cons a as ih =>
    rw [List.map_cons, exec, ih _ fun b hb => h b (by simp [hb])]
    have ha := h a (by simp)
    cases a with
    | print g t => simp only [step]; split_ifs <;> rfl
    | flush g =>
      have : f ≠ g := fun e => ha.1 (by rw [e])
      simp [step, this]
    | close g =>
      have : f ≠ g := fun e => ha.2 (by rw [e])
      simp [step, this]

theorem calls_acts (as : List Act) : calls (as.map .act) = as := by
  induction as with
  | nil => rfl
  | cons a as ih =>
    have : calls ((a :: as).map .act) = a :: calls (as.map .act) := rfl
    rw [this, ih]

theorem prints_not (f g : File) (l : List (List Char)) : ∀ a ∈ prints g l, a ≠ .flush f ∧ a ≠ .close f := by
  intro a ha
  obtain ⟨t, -, rfl⟩ := List.mem_map.1 ha
  exact ⟨by simp, by simp⟩

theorem output?_not (f g : File) (hg : g ≠ f) (l : Option (List (List Char))) :
    ∀ a ∈ output? g l, a ≠ .flush f ∧ a ≠ .close f := by
  intro a ha
  cases l with
  | none => simp [output?] at ha
  | some l =>
    rw [output?, output, List.mem_append] at ha
    rcases ha with ha | ha
    · exact prints_not f g l a ha
    · rw [List.mem_singleton] at ha
      subst ha
      exact ⟨by simpa using hg, by simp⟩

theorem bbob_info (h : Header) (i : Bool) (cs : List BbobCall) :
    ∀ a ∈ bbob h i cs, a ≠ .flush .info ∧ a ≠ .close .info := by
  have hh : ∀ a ∈ h.acts, a ≠ .flush .info ∧ a ≠ .close .info := by
    intro a ha
    simp only [Header.acts, List.mem_append, List.mem_cons, List.not_mem_nil, or_false] at ha
    rcases ha with (ha | rfl | rfl | rfl) | ha
    · exact prints_not _ _ _ a ha
    · simp
    · simp
    · simp
    · exact prints_not _ _ _ a ha
  induction cs generalizing i with
  | nil => intro a ha; simp [bbob] at ha
  | cons c cs ih =>
    intro a ha
    rw [bbob, List.mem_append] at ha
    rcases ha with ha | ha
    · have h0 : ∀ a ∈ (if i then [] else h.acts), a ≠ .flush .info ∧ a ≠ .close .info := by
        intro a ha
        split_ifs at ha
        · simp at ha
        · exact hh a ha
      cases c with
      | evaluate x y z =>
        simp only [bbobCall, List.mem_append] at ha
        rcases ha with ((ha | ha) | ha) | ha
        · exact h0 a ha
        · exact output?_not _ _ (by decide) _ a ha
        · exact output?_not _ _ (by decide) _ a ha
        · exact output?_not _ _ (by decide) _ a ha
      | recommend m =>
        simp only [bbobCall, List.mem_append] at ha
        rcases ha with ha | ha
        · exact h0 a ha
        · exact output?_not _ _ (by decide) _ a ha
    · exact ih _ a ha

/-- **C117** (info file lost). As long as the problem is not freed, nothing guarantees that its entry is in the info
file: for any calls there is an execution after which the info file is as it was before, so that the data files written
are not listed anywhere. -/
theorem C117_info_lost (d : File → List Char) (h : Header) (cs : List BbobCall) :
    ∃ es, calls es = bbob h false cs ∧ after (exec (opened d) es) .killed .info = d .info := by
  refine ⟨_, calls_acts _, ?_⟩
  simp only [after]
  rw [exec_acts _ _ _ (bbob_info h false cs)]
  rfl

theorem dirty_flatMap {α : Type} (f : File) (g : α → List Act) (good : α → Prop)
    (h1 : ∀ c, good c → ∀ d, dirty f d (g c) = false) (h2 : ∀ c d, dirty f d (g c) = d ∨ dirty f d (g c) = false)
    (cs : List α) : ∀ d, ((∃ c ∈ cs, good c) ∨ d = false) → dirty f d (cs.flatMap g) = false := by
  induction cs with
  | nil =>
    intro d hx
    rcases hx with ⟨c, hc, -⟩ | rfl
    · simp at hc
    · rfl
  | cons c cs ih =>
    intro d hx
    rw [List.flatMap_cons, dirty_append]
    refine ih _ ?_
    by_cases hg : good c
    · exact Or.inr (h1 c hg d)
    · rcases hx with ⟨c', hc', hg'⟩ | rfl
      · rcases List.mem_cons.1 hc' with rfl | hc'
        · exact absurd hg' hg
        · exact Or.inl ⟨c', hc', hg'⟩
      · right
        rcases h2 c false with e | e <;> exact e

/-- **C117** (observers rw and toy). After at least one completed evaluation the file contains all that was printed for
the problem, whatever the process did in addition and however it ended. -/
theorem C117_out (d : File → List Char) (header : List (List Char)) (cs : List (List (List Char))) (hcs : cs ≠ [])
    (es : List Event) (hes : out header cs <+: calls es) (stop : Stop) :
    d .out ++ Spec.written .out (out header cs) <+: after (exec (opened d) es) stop .out := by
  have key : ∀ (c : List (List Char)) (b : Bool), dirty .out b (outCall c) = false := fun c b => by
    rw [outCall, dirty_append]; simp [dirty]
  have : d .out ++ Spec.written .out (out header cs) <+: (exec (opened d) es .out).disk := by
    refine durable d .out _ es hes ?_
    rw [out, dirty_append]
    obtain ⟨c, cs', rfl⟩ := List.exists_cons_of_ne_nil hcs
    exact dirty_flatMap .out outCall (fun _ => True) (fun c _ d => key c d) (fun c d => Or.inr (key c d)) _ _
      (Or.inl ⟨c, by simp, trivial⟩)
  cases stop with
  | killed => exact this
  | exit => exact this.trans (List.prefix_append _ _)

/-- **C117** (archive file). The archive file of the bi-objective observer contains all that was printed to it as soon as one
set of solutions was logged. -/
theorem C117_adat (d : File → List Char) (h : BiobjHeader) (cs : List BiobjCall) (es : List Event)
    (hes : biobj h cs <+: calls es) (stop : Stop)
    (hl : ∃ a x y z, BiobjCall.evaluate (some a) x y z ∈ cs) :
    d .adat ++ Spec.written .adat (biobj h cs) <+: after (exec (opened d) es) stop .adat := by
  have : d .adat ++ Spec.written .adat (biobj h cs) <+: (exec (opened d) es .adat).disk := by
    refine durable d .adat _ es hes ?_
    rw [biobj, dirty_append]
    obtain ⟨a, x, y, z, hm⟩ := hl
    refine dirty_flatMap .adat biobjCall (fun c => ∃ a x y z, c = .evaluate (some a) x y z) ?_ ?_ _ _
      (Or.inl ⟨_, hm, a, x, y, z, rfl⟩)
    · rintro _ ⟨a, x, y, z, rfl⟩ d
      simp [biobjCall, dirty_append, dirty_output?, dirty_prints]
    · intro c d
      cases c with
      | evaluate a x y z => cases a <;> simp [biobjCall, dirty_append, dirty_output?, dirty_prints]
      | recommend m => simp [biobjCall, dirty_prints]
  cases stop with
  | killed => exact this
  | exit => exact this.trans (List.prefix_append _ _)

/-- **C117** (bi-objective files lost). The other files of the bi-objective observer are never flushed before the problem
is freed: for any calls there is an execution after which none of them contains anything new. -/
theorem C117_biobj_lost (d : File → List Char) (h : BiobjHeader) (cs : List BiobjCall) :
    ∃ es, calls es = biobj h cs ∧ ∀ f, f ≠ .adat → after (exec (opened d) es) .killed f = d f := by
  refine ⟨_, calls_acts _, fun f hf => ?_⟩
  simp only [after]
  rw [exec_acts]
  · rfl
  · intro a ha
    simp only [biobj, BiobjHeader.acts, List.mem_append, List.mem_cons, List.not_mem_nil, or_false,
      List.mem_flatMap] at ha
    rcases ha with (((ha | ha) | rfl | rfl | rfl) | ha) | ⟨c, -, ha⟩
    · exact prints_not _ _ _ a ha
    · exact prints_not _ _ _ a ha
    · simp
    · simp
    · simp
    · exact prints_not _ _ _ a ha
    · cases c with
      | evaluate x y z w =>
        simp only [biobjCall, List.mem_append] at ha
        rcases ha with ((ha | ha) | ha) | ha
        · exact output?_not _ _ (Ne.symm hf) _ a ha
        · exact prints_not _ _ _ a ha
        · exact prints_not _ _ _ a ha
        · exact prints_not _ _ _ a ha
      | recommend m => exact prints_not _ _ _ a ha

/-- **C117** (finished bi-objective runs). After the observed problem was freed all files are complete. -/
theorem C117_biobj_freed (d : File → List Char) (h : BiobjHeader) (cs : List BiobjCall)
    (final dat tdat : List (List Char)) (info adat : List Char) (es : List Event)
    (hes : biobj h cs ++ biobjFree final dat tdat info adat <+: calls es) (stop : Stop) (f : File) (hf : f ≠ .out) :
    d f ++ Spec.written f (biobj h cs ++ biobjFree final dat tdat info adat) <+:
      after (exec (opened d) es) stop f := by
  have : d f ++ Spec.written f (biobj h cs ++ biobjFree final dat tdat info adat) <+: (exec (opened d) es f).disk := by
    refine durable d f _ es hes ?_
    rw [dirty_append]
    generalize dirty f false (biobj h cs) = b
    unfold biobjFree
    cases f <;> first | exact absurd rfl hf | simp [dirty_append, dirty]
  cases stop with
  | killed => exact this
  | exit => exact this.trans (List.prefix_append _ _)

/-! ### Cases that meet the hypotheses -/

/-- A run with two evaluations; the first writes a line to the dat and tdat files, the second to the dat file. -/
def exampleHeader : Header := ⟨["f1, ".toList, "1".toList], "%\n".toList, "%\n".toList, "%\n".toList, ["%\n".toList]⟩

def exampleCalls : List BbobCall :=
  [.evaluate (some ["1 ".toList, "5\n".toList]) (some ["1 5\n".toList]) none,
    .evaluate (some ["2 ".toList, "3\n".toList]) none none]

/-- The process is killed in the next call: part of a line is printed and one character of it is passed on. -/
def exampleEvents : List Event :=
  (bbob exampleHeader false exampleCalls).map .act ++ [.act (.print .dat "3 2".toList), .spill .dat 1]

example : after (exec (opened fun _ => "old\n".toList) exampleEvents) .killed .dat = "old\n%\n1 5\n2 3\n3".toList ∧
    after (exec (opened fun _ => "old\n".toList) exampleEvents) .killed .info = "old\n".toList ∧
    after (exec (opened fun _ => "old\n".toList) exampleEvents) .killed .rdat = "old\n".toList ∧
    after (exec (opened fun _ => "old\n".toList) exampleEvents) .exit .info = "old\nf1, 1".toList := by
  decide +kernel

example : "old\n%\n1 5\n2 3\n".toList <+: after (exec (opened fun _ => "old\n".toList) exampleEvents) .killed .dat :=
  C117_bbob_partial (fun _ => "old\n".toList) exampleHeader exampleCalls exampleEvents
    (by unfold exampleEvents; rw [calls_append, calls_acts]; exact List.prefix_append _ _) .killed .dat (Or.inl rfl)
    ⟨_, by simp [exampleCalls]; exact Or.inl rfl, rfl⟩

/-- The same run, finished: every file is complete although the process is killed. -/
def exampleFreed : List Act :=
  bbob exampleHeader false exampleCalls ++ bbobFree true ":2|3e-1".toList none (some ["2 3\n".toList]) none

example : after (exec (opened fun _ => []) (exampleFreed.map .act)) .killed .info = "f1, 1:2|3e-1".toList ∧
    after (exec (opened fun _ => []) (exampleFreed.map .act)) .killed .tdat = "%\n1 5\n2 3\n".toList ∧
    exampleFreed <+: calls (exampleFreed.map .act) := by
  refine ⟨by decide +kernel, by decide +kernel, ?_⟩
  rw [calls_acts]

/-- Two evaluations with the rw or toy observer, the second of which prints nothing. -/
example : after (exec (opened fun _ => []) ((out ["% f\n".toList] [["1 ".toList, "5\n".toList], []]).map .act)) .killed .out =
    "% f\n1 5\n".toList := by
  decide +kernel

/-- A bi-objective run: the archive is there, the performance is not. -/
def exampleBiobj : List Act :=
  biobj ⟨["% a\n".toList], ["f1".toList], "% d\n".toList, "% t\n".toList, "% r\n".toList, ["% m\n".toList]⟩
    [.evaluate (some ["1 2 3\n".toList]) ["1 0.5\n".toList] ["1 0.5\n".toList] [], .recommend ["1 2 3\n".toList]]

example : after (exec (opened fun _ => []) (exampleBiobj.map .act)) .killed .adat = "% a\n1 2 3\n".toList ∧
    after (exec (opened fun _ => []) (exampleBiobj.map .act)) .killed .dat = [] ∧
    after (exec (opened fun _ => []) (exampleBiobj.map .act)) .exit .dat = "% d\n1 0.5\n".toList := by
  decide +kernel

end Crash
