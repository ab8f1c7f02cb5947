import Verif.Lemmas.BiobjFiles

/-!
# C100: the result folder of the bi-objective observer

The names of the files are specified in `Verif.Lemmas.BiobjFiles` (`Spec.File.path`). The problems observed one after the other form
blocks of consecutive problems with the same function and the same dimension. The `.info` file of a problem type has one line for
each block, with one entry for each problem of the block. The data files of a function and dimension contain what was logged for
all problems with this function and dimension; the archive file of a problem what was logged for this problem.
-/

namespace BiobjFiles
open FileSystem.Spec (join)
open FileSystem (joinPath fileExists)
open Observer (strdupf)
open InfoFile (Disk append dec kinds)
open LoggerBiobj (Mode)

/-! ### Specification -/

namespace Spec

/-- A block: function, dimension, type of the problems, and the observed problems. -/
structure Block where
  function : Nat
  dimension : Nat
  ptype : List Char
  runs : List Run

/-- A number with a leading blank if it has one digit. -/
def blank2 (n : Nat) : List Char := if n < 10 then ' ' :: dec n else dec n

/-- The entry of a problem: `, <instance>:<evaluations>|<indicator value>`. -/
def entry (r : Run) : List Char :=
  ", ".toList ++ dec r.inst ++ ":".toList ++ dec r.evals ++ "|".toList ++ r.best

/-- The line of a block: function, dimension, the name of the data file, the entries of the problems. -/
def line (F : Format) (b : Block) : List Char :=
  "\nfunction = ".toList ++ blank2 b.function ++ ", dim = ".toList ++ blank2 b.dimension ++ ", ".toList ++
    stem F b.function b.dimension ++ "_hyp.dat".toList ++ b.runs.flatMap entry

/-- The first two lines of an info file (without the end of the second one). -/
def title (c : Conf) (F : Format) (t : List Char) : List Char :=
  "suite = '".toList ++ F.suite ++ "', algorithm = '".toList ++ c.algorithm ++ "', indicator = 'hyp', folder = '".toList ++ t ++
    "', coco_version = '".toList ++ c.version ++ "'\n% ".toList ++ c.algorithmInfo ++
    (if c.mode = .read then " (reconstructed)".toList else [])

/-- The text of the info file of a type of problems; no file without problems of this type. -/
def info (c : Conf) (F : Format) (bs : List Block) (t : List Char) : Option (List Char) :=
  let own := bs.filter fun b => b.ptype = t
  if own = [] then none else some (title c F t ++ own.flatMap (line F))

/-- What is logged for a problem, with the header: by kind of data file. -/
def logged (e : Ext) (r : Run) : List Char :=
  match e with
  | .dat => r.headerTargets ++ r.dat
  | .tdat => r.header ++ r.tdat
  | .rdat => r.header ++ r.rdat
  | .mdat => r.headerRec ++ r.mdat

/-- The texts logged for some problems, one after the other; no file without problems. -/
def together (rs : List Run) (text : Run → List Char) : Option (List Char) :=
  if rs = [] then none else some (rs.flatMap text)

/-- The content of each file. -/
def content (c : Conf) (F : Format) (rs : List Run) (bs : List Block) : File → Option (List Char)
  | .info t => if c.indicators then info c F bs t else none
  | .data t f d e =>
    if c.indicators = true ∨ e = .mdat then
      together (rs.filter fun r => r.ptype = t ∧ r.function = f ∧ r.dimension = d) (logged e)
    else none
  | .archive f d i =>
    if c.mode = .all ∨ c.mode = .final then
      together (rs.filter fun r => r.function = f ∧ r.dimension = d ∧ r.inst = i) fun r => r.headerArchive ++ r.adat
    else none

/-- The blocks describe the observed problems and the files. -/
structure Describes (c : Conf) (F : Format) (rs : List Run) (disk : Disk) (bs : List Block) : Prop where
  /-- The blocks contain the problems, in order. -/
  runs : bs.flatMap (·.runs) = rs
  nonempty : ∀ b ∈ bs, b.runs ≠ []
  same : ∀ b ∈ bs, ∀ r ∈ b.runs, r.function = b.function ∧ r.dimension = b.dimension ∧ r.ptype = b.ptype
  /-- A new block is begun exactly when the function or the dimension changes. -/
  change : bs.IsChain fun b b' => ¬ (b.function = b'.function ∧ b.dimension = b'.dimension)
  files : ∀ k : File, k.Ok → disk (k.path c F) = content c F rs bs k
  /-- There are no other files. -/
  other : ∀ p, disk p ≠ none → ∃ k : File, k.Ok ∧ p = k.path c F

/-- The observer has a result folder, and the names fit the buffers. -/
def Fits (c : Conf) : Prop := c.folder ≠ [] ∧ c.folder.length < 3000

/-- A problem of the suite: the identifier has the suite's format, the type has no `/`, and the names fit the buffers. -/
structure Valid (F : Format) (r : Run) : Prop where
  suite : r.suite = F.suite
  id : r.id = ident F r.function r.inst r.dimension
  type : '/' ∉ r.ptype
  short : r.ptype.length ≤ 400 ∧ r.id.length ≤ 400

/-- The type of a problem is determined by its function. -/
def Typed (rs : List Run) : Prop := ∀ r ∈ rs, ∀ r' ∈ rs, r.function = r'.function → r.ptype = r'.ptype

end Spec

open Spec

/-! ### Proof -/

theorem digits_length_one (n : Nat) : (dec n).length = 1 ↔ n < 10 := by
  unfold dec
  rw [Nat.toDigits_eq_if (by decide)]
  by_cases h : n < 10
  · simp [h]
  · simp only [h, if_false, List.length_append, List.length_cons, List.length_nil, iff_false]
    have : 0 < (Nat.toDigits 10 (n / 10)).length := by
      rw [Nat.toDigits_eq_if (by decide)]
      split <;> simp
    omega

theorem dec2_eq (n : Nat) : dec2 n = blank2 n := by
  have h0 : 0 < (dec n).length := by
    unfold dec
    rw [Nat.toDigits_eq_if (by decide)]
    split <;> simp
  have h1 := digits_length_one n
  unfold dec2 blank2
  by_cases h : n < 10
  · rw [if_pos h, h1.mpr h]; rfl
  · have : (dec n).length ≠ 1 := fun h' => h (h1.mp h')
    rw [if_neg h, show 2 - (dec n).length = 0 by omega]; rfl

/-- What a problem's logger writes, in order. -/
def writes (c : Conf) (F : Format) (r : Run) (new first : Bool) : List (File × List Char) :=
  let a := File.archive r.function r.dimension r.inst
  let i := File.info r.ptype
  let x := fun e => File.data r.ptype r.function r.dimension e
  let arch := c.mode = .all ∨ c.mode = .final
  (if arch then [(a, r.headerArchive)] else []) ++
  (if c.indicators then
    [(i, (if first then title c F r.ptype else []) ++ (if new then line F ⟨r.function, r.dimension, r.ptype, []⟩ else [])),
      (x .dat, r.headerTargets), (x .tdat, r.header), (x .rdat, r.header)] else []) ++
  [(x .mdat, r.headerRec)] ++
  (if arch then [(a, r.adat)] else []) ++
  (if c.indicators then [(x .dat, r.dat), (x .tdat, r.tdat), (x .rdat, r.rdat), (i, entry r)] else []) ++
  [(x .mdat, r.mdat)]

/-- A new block begins. -/
def isNew (s : St) (r : Run) : Bool := s.prevFunction ≠ r.function ∨ s.prevDimension ≠ r.dimension

theorem stem_length (F : Format) (f i d : Nat) : (stem F f d).length ≤ (ident F f i d).length := by
  simp only [stem, ident, List.length_append]
  omega

theorem filePath_ok {c : Conf} (hc : Fits c) (t n : List Char) (ht : t.length ≤ 400) (hn : n.length ≤ 420) :
    filePath c t n = .ok (join c.folder [t, n]) := by
  obtain ⟨h0, h1⟩ := hc
  have e1 : joinPath c.folder 4096 [t] = .ok (join c.folder [t]) := by
    apply FileSystem.C82_joined_partial
    rw [join_one _ _ h0]
    simp; omega
  have e2 : join (join c.folder [t]) [n] = join c.folder [t, n] := by
    rw [join_one _ _ h0, join_two _ _ _ h0, join_one _ _ (by simp)]
    simp
  have e3 : joinPath (join c.folder [t]) 4096 [n] = .ok (join c.folder [t, n]) := by
    rw [← e2]
    apply FileSystem.C82_joined_partial
    rw [e2, join_two _ _ _ h0]
    simp; omega
  unfold filePath
  rw [e1]
  simp only [Res.ok_bind]
  rw [FileSystem.strdupf_ok n (by omega)]
  simp only [Res.ok_bind]
  exact e3

theorem remove_id {F : Format} (hF : '_' ∉ F.name) {r : Run} (hv : Valid F r) :
    Str.removeFromString r.id "_i".toList "_d".toList = .ok (stem F r.function r.dimension) := by
  rw [hv.id]
  exact remove_ok _ _ _ _ hF (pad_digit _ _) (pad_digit _ _)

theorem stem_short {F : Format} {r : Run} (hv : Valid F r) : (stem F r.function r.dimension).length ≤ 400 := by
  have h1 := stem_length F r.function r.inst r.dimension
  have h2 := hv.short.2
  rw [hv.id] at h2
  omega

theorem ext_length (e : Ext) : e.text.length ≤ 9 := by cases e <;> decide +kernel

theorem indicatorPath_ok {c : Conf} {F : Format} (hc : Fits c) (hF : '_' ∉ F.name) {r : Run} (hv : Valid F r) (e : Ext)
    (x : List Char) (hx : e.text = "_hyp.".toList ++ x) :
    indicatorPath c r x = .ok ((File.data r.ptype r.function r.dimension e).path c F) := by
  unfold indicatorPath
  rw [remove_id hF hv]
  simp only [Res.ok_bind]
  rw [List.append_assoc, ← hx, filePath_ok hc _ _ hv.short.1]
  · rfl
  · have := stem_short hv
    have := ext_length e
    rw [List.length_append]; omega

theorem recPath_ok {c : Conf} {F : Format} (hc : Fits c) (hF : '_' ∉ F.name) {r : Run} (hv : Valid F r) :
    recPath c r = .ok ((File.data r.ptype r.function r.dimension .mdat).path c F) := by
  unfold recPath
  rw [remove_id hF hv]
  simp only [Res.ok_bind]
  have h1 := stem_short hv
  have h2 : ".mdat".toList.length ≤ 9 := by decide +kernel
  rw [filePath_ok hc _ _ hv.short.1 (by rw [List.length_append]; omega)]
  unfold File.path Ext.text
  rfl

theorem archivePath_ok {c : Conf} {F : Format} (hc : Fits c) {r : Run} (hv : Valid F r) :
    archivePath c r = .ok ((File.archive r.function r.dimension r.inst).path c F) := by
  have l1 : "_nondom_all.adat".toList.length ≤ 20 := by decide +kernel
  have l2 : "_nondom_final.adat".toList.length ≤ 20 := by decide +kernel
  have l3 : "archive".toList.length ≤ 400 := by decide +kernel
  have h := hv.short.2
  unfold archivePath File.path archiveEnding
  dsimp only
  rw [← hv.id]
  split
  · rw [filePath_ok hc _ _ l3 (by rw [List.length_append]; omega)]
  · rw [filePath_ok hc _ _ l3 (by rw [List.length_append]; omega)]

theorem infoPath_ok {c : Conf} (F : Format) (hc : Fits c) {r : Run} (hv : Valid F r) :
    infoPath c r = .ok ((File.info r.ptype).path c F) := by
  have l1 : "_hyp.info".toList.length ≤ 20 := by decide +kernel
  have h := hv.short.1
  obtain ⟨h0, h1⟩ := hc
  unfold infoPath
  rw [FileSystem.strdupf_ok _ (by rw [List.length_append]; omega)]
  simp only [Res.ok_bind]
  apply FileSystem.C82_joined_partial
  rw [join_one _ _ h0]
  simp only [List.length_append, List.length_cons]
  omega

theorem append_nil_exists (disk : Disk) (p : List Char) (x : List Char) : append (append disk p []) p x = append disk p x := by
  rw [InfoFile.append_append]; rfl

theorem append_other (disk : Disk) (p q x : List Char) (h : q ≠ p) : append disk p x q = disk q := by
  unfold append
  rw [if_neg h]

theorem exists_iff (disk : Disk) (p : List Char) : fileExists (InfoFile.kinds disk) p = (disk p).isSome := by
  unfold fileExists InfoFile.kinds
  cases disk p <;> simp

theorem life_ok {c : Conf} {F : Format} (hc : Fits c) (hF : '_' ∉ F.name) {r : Run} (hv : Valid F r) (s : St) :
    life c s r = .ok ⟨if c.indicators then r.function else s.prevFunction, if c.indicators then r.dimension else s.prevDimension,
      writeAll c F s.disk (writes c F r (isNew s r) (s.disk ((File.info r.ptype).path c F) = none))⟩ := by
  have e1 := indicatorPath_ok hc hF hv .dat "dat".toList (by decide +kernel)
  have e2 := indicatorPath_ok hc hF hv .tdat "tdat".toList (by decide +kernel)
  have e3 := indicatorPath_ok hc hF hv .rdat "rdat".toList (by decide +kernel)
  have e4 := recPath_ok hc hF hv
  have e5 := archivePath_ok hc hv
  have e6 := infoPath_ok F hc hv
  have e7 := remove_id hF hv
  have hne : (File.info r.ptype).path c F ≠ (File.archive r.function r.dimension r.inst).path c F := by
    intro h
    have := path_inj c F hc.1 (a := .info r.ptype) (b := .archive r.function r.dimension r.inst) hv.type trivial h
    cases this
  have hind : ∀ s' : St, s'.prevFunction = s.prevFunction → s'.prevDimension = s.prevDimension →
      s'.disk ((File.info r.ptype).path c F) = s.disk ((File.info r.ptype).path c F) →
      indicator c s' r = .ok (writeAll c F s'.disk
        [(File.info r.ptype, (if (s.disk ((File.info r.ptype).path c F) = none : Bool) then title c F r.ptype else []) ++
            (if isNew s r then line F ⟨r.function, r.dimension, r.ptype, []⟩ else [])),
          (File.data r.ptype r.function r.dimension .dat, r.headerTargets),
          (File.data r.ptype r.function r.dimension .tdat, r.header),
          (File.data r.ptype r.function r.dimension .rdat, r.header)]) := by
    intro s' h1 h2 h3
    have ht : heading c r = title c F r.ptype := by
      unfold heading title
      rw [hv.suite]
    have hl : "\nfunction = ".toList ++ dec2 r.function ++ ", ".toList ++ "dim = ".toList ++ dec2 r.dimension ++ ", ".toList ++
        stem F r.function r.dimension ++ "_hyp.dat".toList = line F ⟨r.function, r.dimension, r.ptype, []⟩ := by
      unfold line
      have : ", dim = ".toList = ", ".toList ++ "dim = ".toList := by decide +kernel
      rw [this]
      simp only [dec2_eq, List.flatMap_nil, List.append_nil, List.append_assoc]
    unfold indicator
    simp only [e1, e2, e3, e6, e7, Res.ok_bind, h1, h2, exists_iff, h3, ht, hl]
    unfold writeAll isNew
    simp only [List.foldl_cons, List.foldl_nil]
    by_cases g1 : s.disk ((File.info r.ptype).path c F) = none
    · by_cases g2 : s.prevFunction ≠ r.function ∨ s.prevDimension ≠ r.dimension
      · simp only [g1, g2, Option.isSome_none, Bool.not_false, if_true, decide_true, InfoFile.append_append, List.nil_append]
      · simp only [g1, g2, Option.isSome_none, Bool.not_false, if_true, if_false, decide_true, decide_false,
          InfoFile.append_append, List.nil_append, List.append_nil, Bool.false_eq_true]
    · have g1' : (s.disk ((File.info r.ptype).path c F)).isSome = true := by
        rwa [Option.isSome_iff_ne_none]
      by_cases g2 : s.prevFunction ≠ r.function ∨ s.prevDimension ≠ r.dimension
      · simp only [g1, g1', g2, Bool.not_true, if_true, if_false, decide_true, decide_false,
          InfoFile.append_append, List.nil_append, Bool.false_eq_true]
      · simp only [g1, g1', g2, Bool.not_true, if_false, decide_false,
          List.append_nil, Bool.false_eq_true]
  unfold life openFiles writeLines writes
  by_cases hm : c.mode = .all ∨ c.mode = .final
  · cases hi : c.indicators
    · simp only [hm, if_true, e4, e5, Res.ok_bind, Bool.false_eq_true, if_false]
      rfl
    · simp only [hm, if_true, e1, e2, e3, e4, e5, e6, Res.ok_bind]
      rw [hind { s with disk := append s.disk ((File.archive r.function r.dimension r.inst).path c F) r.headerArchive } rfl rfl
        (append_other _ _ _ _ hne)]
      simp only [Res.ok_bind]
      rfl
  · cases hi : c.indicators
    · simp only [hm, e4, Res.ok_bind, Bool.false_eq_true, if_false]
      rfl
    · simp only [hm, if_true, e1, e2, e3, e4, e6, Res.ok_bind, if_false]
      rw [hind _ rfl rfl rfl]
      simp only [Res.ok_bind]
      rfl

theorem writes_ok {c : Conf} {F : Format} {r : Run} (hv : Valid F r) (new first : Bool) :
    ∀ w ∈ writes c F r new first, w.1.Ok := by
  intro w hw
  have ht := hv.type
  unfold writes at hw
  simp only [List.mem_append, List.mem_cons, List.not_mem_nil, or_false] at hw
  rcases hw with ((((hw | hw) | hw) | hw) | hw) | hw
  · split_ifs at hw
    · simp only [List.mem_cons, List.not_mem_nil, or_false] at hw; subst hw; trivial
    · simp at hw
  · by_cases hi : c.indicators = true
    · rw [if_pos hi] at hw
      simp only [List.mem_cons, List.not_mem_nil, or_false] at hw
      rcases hw with rfl | rfl | rfl | rfl <;> exact ht
    · rw [if_neg hi] at hw
      simp at hw
  · subst hw; exact ht
  · split_ifs at hw
    · simp only [List.mem_cons, List.not_mem_nil, or_false] at hw; subst hw; trivial
    · simp at hw
  · by_cases hi : c.indicators = true
    · rw [if_pos hi] at hw
      simp only [List.mem_cons, List.not_mem_nil, or_false] at hw
      rcases hw with rfl | rfl | rfl | rfl <;> exact ht
    · rw [if_neg hi] at hw
      simp at hw
  · subst hw; exact ht

/-- The content of a file after a problem: unchanged, or with a text added. -/
theorem writes_file {c : Conf} {F : Format} (hc : Fits c) {r : Run} (hv : Valid F r) (new first : Bool) (disk : Disk) (k : File)
    (hk : k.Ok) :
    writeAll c F disk (writes c F r new first) (k.path c F) =
      match k with
      | .info t => if c.indicators = true ∧ t = r.ptype then
          some ((disk (k.path c F)).getD [] ++ ((if first then title c F r.ptype else []) ++
            (if new then line F ⟨r.function, r.dimension, r.ptype, []⟩ else []) ++ entry r))
        else disk (k.path c F)
      | .data t f d e => if (c.indicators = true ∨ e = .mdat) ∧ r.ptype = t ∧ r.function = f ∧ r.dimension = d then
          some ((disk (k.path c F)).getD [] ++ logged e r)
        else disk (k.path c F)
      | .archive f d i => if (c.mode = .all ∨ c.mode = .final) ∧ r.function = f ∧ r.dimension = d ∧ r.inst = i then
          some ((disk (k.path c F)).getD [] ++ (r.headerArchive ++ r.adat))
        else disk (k.path c F) := by
  rw [writeAll_file c F hc.1 _ (writes_ok hv new first) k hk]
  by_cases hm : c.mode = .all ∨ c.mode = .final
  · cases hi : c.indicators
    · cases k with
      | info t => simp [writes, hm, hi]
      | data t f d e =>
        by_cases h : r.ptype = t ∧ r.function = f ∧ r.dimension = d
        · obtain ⟨rfl, rfl, rfl⟩ := h
          cases e <;> simp [writes, hm, hi, logged]
        · have h' : ¬ (t = r.ptype ∧ f = r.function ∧ d = r.dimension ∧ e = .mdat) := fun h' => h ⟨h'.1.symm, h'.2.1.symm, h'.2.2.1.symm⟩
          simp [writes, hm, hi, h, h']
      | archive f d i =>
        by_cases h : r.function = f ∧ r.dimension = d ∧ r.inst = i
        · obtain ⟨rfl, rfl, rfl⟩ := h
          simp [writes, hm, hi]
        · have h' : ¬ (f = r.function ∧ d = r.dimension ∧ i = r.inst) := fun h' => h ⟨h'.1.symm, h'.2.1.symm, h'.2.2.symm⟩
          simp [writes, hm, hi, h, h']
    · cases k with
      | info t =>
        by_cases h : t = r.ptype
        · subst h; simp [writes, hm, hi]
        · simp [writes, hm, hi, h]
      | data t f d e =>
        by_cases h : r.ptype = t ∧ r.function = f ∧ r.dimension = d
        · obtain ⟨rfl, rfl, rfl⟩ := h
          cases e <;> simp [writes, hm, hi, logged]
        · have h' : ∀ e', ¬ (t = r.ptype ∧ f = r.function ∧ d = r.dimension ∧ e = e') := fun e' h' => h ⟨h'.1.symm, h'.2.1.symm, h'.2.2.1.symm⟩
          simp [writes, hm, hi, h, h']
      | archive f d i =>
        by_cases h : r.function = f ∧ r.dimension = d ∧ r.inst = i
        · obtain ⟨rfl, rfl, rfl⟩ := h
          simp [writes, hm, hi]
        · have h' : ¬ (f = r.function ∧ d = r.dimension ∧ i = r.inst) := fun h' => h ⟨h'.1.symm, h'.2.1.symm, h'.2.2.symm⟩
          simp [writes, hm, hi, h, h']
  · cases hi : c.indicators
    · cases k with
      | info t => simp [writes, hm, hi]
      | data t f d e =>
        by_cases h : r.ptype = t ∧ r.function = f ∧ r.dimension = d
        · obtain ⟨rfl, rfl, rfl⟩ := h
          cases e <;> simp [writes, hm, hi, logged]
        · have h' : ¬ (t = r.ptype ∧ f = r.function ∧ d = r.dimension ∧ e = .mdat) := fun h' => h ⟨h'.1.symm, h'.2.1.symm, h'.2.2.1.symm⟩
          simp [writes, hm, hi, h, h']
      | archive f d i => simp [writes, hm, hi]
    · cases k with
      | info t =>
        by_cases h : t = r.ptype
        · subst h; simp [writes, hm, hi]
        · simp [writes, hm, hi, h]
      | data t f d e =>
        by_cases h : r.ptype = t ∧ r.function = f ∧ r.dimension = d
        · obtain ⟨rfl, rfl, rfl⟩ := h
          cases e <;> simp [writes, hm, hi, logged]
        · have h' : ∀ e', ¬ (t = r.ptype ∧ f = r.function ∧ d = r.dimension ∧ e = e') := fun e' h' => h ⟨h'.1.symm, h'.2.1.symm, h'.2.2.1.symm⟩
          simp [writes, hm, hi, h, h']
      | archive f d i => simp [writes, hm, hi]

theorem together_snoc (p : Run → Bool) (text : Run → List Char) (rs : List Run) (r : Run) :
    together ((rs ++ [r]).filter p) text =
      if p r = true then some ((together (rs.filter p) text).getD [] ++ text r) else together (rs.filter p) text := by
  unfold together
  by_cases h : p r = true
  · rw [if_pos h, List.filter_append, List.filter_cons_of_pos h]
    by_cases h2 : rs.filter p = []
    · simp [h2]
    · simp [h2]
  · rw [if_neg h, List.filter_append, List.filter_cons_of_neg h]
    simp

theorem info_snoc (c : Conf) (F : Format) (bs : List Block) (b : Block) (t : List Char) :
    Spec.info c F (bs ++ [b]) t =
      if t = b.ptype then some ((Spec.info c F bs t).getD [] ++
        ((if Spec.info c F bs t = none then title c F b.ptype else []) ++ line F b)) else Spec.info c F bs t := by
  unfold Spec.info
  by_cases h : t = b.ptype
  · subst h
    simp only [List.filter_append, List.filter_cons, decide_true, if_true, List.filter_nil, List.append_eq_nil_iff,
      List.cons_ne_nil, and_false, if_false, List.flatMap_append, List.flatMap_cons, List.flatMap_nil, List.append_nil]
    by_cases h2 : bs.filter (fun a => a.ptype = b.ptype) = []
    · simp [h2]
    · simp [h2]
  · have : ¬ b.ptype = t := fun h' => h h'.symm
    simp [h, this]

theorem line_snoc (F : Format) (b : Block) (r : Run) : line F { b with runs := b.runs ++ [r] } = line F b ++ entry r := by
  unfold line
  simp only [List.flatMap_append, List.flatMap_cons, List.flatMap_nil, List.append_nil, List.append_assoc]

/-- What the observer remembers. -/
def Remembers (c : Conf) (s : St) : Option Block → Prop
  | none => s.prevFunction = -1 ∧ s.prevDimension = -1
  | some b => c.indicators = true → s.prevFunction = b.function ∧ s.prevDimension = b.dimension

structure Inv (c : Conf) (F : Format) (rs : List Run) (s : St) (bs : List Block) : Prop where
  desc : Describes c F rs s.disk bs
  last : Remembers c s bs.getLast?

theorem files_step {c : Conf} {F : Format} {rs : List Run} {disk : Disk} {bs bs' : List Block} (hd : Describes c F rs disk bs)
    (hc : Fits c) {r : Run} (hv : Valid F r) (new : Bool)
    (hinfo : ∀ t, c.indicators = true → Spec.info c F bs' t = if t = r.ptype then some ((Spec.info c F bs t).getD [] ++
      ((if Spec.info c F bs t = none then title c F r.ptype else []) ++
        (if new then line F ⟨r.function, r.dimension, r.ptype, []⟩ else []) ++ entry r)) else Spec.info c F bs t) :
    (∀ k : File, k.Ok → writeAll c F disk (writes c F r new (disk ((File.info r.ptype).path c F) = none)) (k.path c F) =
      content c F (rs ++ [r]) bs' k) ∧
    ∀ p, writeAll c F disk (writes c F r new (disk ((File.info r.ptype).path c F) = none)) p ≠ none →
      ∃ k : File, k.Ok ∧ p = k.path c F := by
  constructor
  · intro k hk
    rw [writes_file hc hv new _ disk k hk]
    cases k with
    | info t =>
      dsimp only
      rw [hd.files _ hk, hd.files (.info r.ptype) hv.type]
      unfold content
      by_cases hi : c.indicators = true
      · simp only [hi, true_and, if_true]
        rw [hinfo t hi]
        by_cases ht : t = r.ptype
        · subst ht; simp
        · simp [ht]
      · simp [hi]
    | data t f d e =>
      dsimp only
      rw [hd.files _ hk]
      unfold content
      by_cases hi : c.indicators = true ∨ e = .mdat
      · simp only [hi, true_and, if_true]
        rw [together_snoc]
        simp only [decide_eq_true_eq]
      · simp only [hi, false_and, if_false]
    | archive f d i =>
      dsimp only
      rw [hd.files _ hk]
      unfold content
      by_cases hi : c.mode = .all ∨ c.mode = .final
      · simp only [hi, true_and, if_true]
        rw [together_snoc]
        simp only [decide_eq_true_eq]
      · simp only [hi, false_and, if_false]
  · intro p hp
    by_cases h : ∃ w ∈ writes c F r new (disk ((File.info r.ptype).path c F) = none), p = w.1.path c F
    · obtain ⟨w, hw, he⟩ := h
      exact ⟨w.1, writes_ok hv _ _ w hw, he⟩
    · push Not at h
      rw [writeAll_other c F _ p h] at hp
      exact hd.other p hp

theorem step {c : Conf} {F : Format} (hc : Fits c) (hF : '_' ∉ F.name) {rs : List Run} {s : St} {bs : List Block}
    (hI : Inv c F rs s bs) {r : Run} (hv : Valid F r) (ht : Typed (rs ++ [r])) :
    ∃ s' bs', life c s r = .ok s' ∧ Inv c F (rs ++ [r]) s' bs' := by
  obtain ⟨hd, hlast⟩ := hI
  rcases List.eq_nil_or_concat bs with rfl | ⟨xs, b, rfl⟩
  · -- the first problem
    simp only [List.getLast?_nil, Remembers] at hlast
    have hnew : isNew s r = true := by
      unfold isNew
      rw [hlast.1]
      simp only [decide_eq_true_eq]
      left
      omega
    refine ⟨_, [⟨r.function, r.dimension, r.ptype, [r]⟩], life_ok hc hF hv s, ?_⟩
    have hrs : rs = [] := by simpa using hd.runs.symm
    obtain ⟨f1, f2⟩ := files_step (bs' := [⟨r.function, r.dimension, r.ptype, [r]⟩]) hd hc hv (isNew s r) (by
      intro t _
      have := info_snoc c F [] ⟨r.function, r.dimension, r.ptype, [r]⟩ t
      rw [List.nil_append] at this
      rw [this, hnew]
      have hl := line_snoc F ⟨r.function, r.dimension, r.ptype, []⟩ r
      dsimp only [List.nil_append] at hl
      rw [hl]
      simp only [if_true, List.append_assoc])
    refine ⟨⟨by simp [hrs], by simp, by simp, by simp, f1, f2⟩, ?_⟩
    simp only [List.getLast?_singleton, Remembers]
    intro hi
    simp [hi]
  · rw [List.concat_eq_append] at hd hlast
    simp only [List.getLast?_append, List.getLast?_singleton, Option.some_or, Remembers] at hlast
    by_cases hsame : r.function = b.function ∧ r.dimension = b.dimension
    · -- the block goes on
      have hb : b ∈ xs ++ [b] := by simp
      obtain ⟨r0, hr0⟩ := List.exists_mem_of_ne_nil _ (hd.nonempty b hb)
      have hr0' : r0 ∈ rs := by
        rw [← hd.runs, List.mem_flatMap]
        exact ⟨b, hb, hr0⟩
      obtain ⟨g1, g2, g3⟩ := hd.same b hb r0 hr0
      have htype : r.ptype = b.ptype := by
        rw [← g3]
        exact ht r (by simp) r0 (by simp [hr0']) (by rw [g1, hsame.1])
      refine ⟨_, xs ++ [{ b with runs := b.runs ++ [r] }], life_ok hc hF hv s, ?_⟩
      obtain ⟨f1, f2⟩ := files_step (bs' := xs ++ [{ b with runs := b.runs ++ [r] }]) hd hc hv (isNew s r) (by
        intro t hi
        have hnew : isNew s r = false := by
          unfold isNew
          rw [(hlast hi).1, (hlast hi).2, hsame.1, hsame.2]
          simp
        rw [info_snoc, info_snoc, line_snoc, hnew, htype]
        by_cases h : t = b.ptype
        · simp [h]
        · simp [h])
      refine ⟨⟨?_, ?_, ?_, ?_, f1, f2⟩, ?_⟩
      · have := hd.runs
        simp only [List.flatMap_append, List.flatMap_cons, List.flatMap_nil, List.append_nil] at this ⊢
        rw [← List.append_assoc, this]
      · intro a ha
        simp only [List.mem_append, List.mem_singleton] at ha
        rcases ha with ha | rfl
        · exact hd.nonempty a (by simp [ha])
        · simp
      · intro a ha
        simp only [List.mem_append, List.mem_singleton] at ha
        rcases ha with ha | rfl
        · exact hd.same a (by simp [ha])
        · intro r' hr'
          simp only [List.mem_append, List.mem_singleton] at hr'
          rcases hr' with hr' | rfl
          · exact hd.same b hb r' hr'
          · exact ⟨hsame.1, hsame.2, htype⟩
      · have := hd.change
        rw [List.isChain_append] at this ⊢
        refine ⟨this.1, by simp, ?_⟩
        intro x hx y hy
        simp only [List.head?_cons, Option.mem_def, Option.some.injEq] at hy
        subst hy
        exact this.2.2 x hx b (by simp)
      · simp only [List.getLast?_append, List.getLast?_singleton, Option.some_or, Remembers]
        intro hi
        simp [hi, hsame]
    · -- a new block
      refine ⟨_, xs ++ [b] ++ [⟨r.function, r.dimension, r.ptype, [r]⟩], life_ok hc hF hv s, ?_⟩
      obtain ⟨f1, f2⟩ := files_step (bs' := xs ++ [b] ++ [⟨r.function, r.dimension, r.ptype, [r]⟩]) hd hc hv (isNew s r) (by
        intro t hi
        have hnew : isNew s r = true := by
          unfold isNew
          rw [(hlast hi).1, (hlast hi).2]
          simp only [decide_eq_true_eq]
          by_contra hcon
          push Not at hcon
          exact hsame ⟨by omega, by omega⟩
        rw [info_snoc c F (xs ++ [b]), hnew]
        have hl := line_snoc F ⟨r.function, r.dimension, r.ptype, []⟩ r
        dsimp only [List.nil_append] at hl
        rw [hl]
        simp only [if_true, List.append_assoc])
      refine ⟨⟨?_, ?_, ?_, ?_, f1, f2⟩, ?_⟩
      · rw [List.flatMap_append, hd.runs]
        simp
      · intro a ha
        rw [List.mem_append, List.mem_singleton] at ha
        rcases ha with ha | rfl
        · exact hd.nonempty a ha
        · simp
      · intro a ha
        rw [List.mem_append, List.mem_singleton] at ha
        rcases ha with ha | rfl
        · exact hd.same a ha
        · simp
      · rw [List.isChain_append]
        refine ⟨hd.change, by simp, ?_⟩
        intro x hx y hy
        simp only [List.getLast?_append, List.getLast?_singleton, Option.some_or, Option.mem_def, Option.some.injEq] at hx
        simp only [List.head?_cons, Option.mem_def, Option.some.injEq] at hy
        subst hx hy
        intro h
        exact hsame ⟨h.1.symm, h.2.symm⟩
      · simp only [List.getLast?_append, List.getLast?_singleton, Option.some_or, Remembers]
        intro hi
        simp [hi]

theorem experiment_snoc (c : Conf) (r : Run) : ∀ (rs : List Run) (s : St),
    experiment c s (rs ++ [r]) = (experiment c s rs).bind fun s => life c s r := by
  intro rs
  induction rs with
  | nil =>
    intro s
    simp only [List.nil_append, experiment, Res.ok_bind]
    cases life c s r <;> rfl
  | cons a rs ih =>
    intro s
    simp only [List.cons_append, experiment]
    cases h : life c s a with
    | ok s' => simp only [Res.ok_bind]; exact ih s'
    | error => rfl
    | assertFail => rfl
    | ub => rfl

theorem experiment_inv {c : Conf} {F : Format} (hc : Fits c) (hF : '_' ∉ F.name) (rs : List Run) (hv : ∀ r ∈ rs, Valid F r)
    (ht : Typed rs) : ∃ s bs, experiment c start rs = .ok s ∧ Inv c F rs s bs := by
  induction rs using List.reverseRecOn with
  | nil =>
    refine ⟨start, [], rfl, ⟨⟨rfl, by simp, by simp, by simp, ?_, by simp [start]⟩, ⟨rfl, rfl⟩⟩⟩
    intro k _
    cases k <;> simp [start, content, together, Spec.info]
  | append_singleton rs r ih =>
    obtain ⟨s, bs, h1, h2⟩ := ih (fun r hr => hv r (by simp [hr]))
      (fun a ha b hb h => ht a (by simp [ha]) b (by simp [hb]) h)
    obtain ⟨s', bs', h3, h4⟩ := step hc hF h2 (hv r (by simp)) ht
    exact ⟨s', bs', by rw [experiment_snoc, h1]; exact h3, h4⟩

/-! ### Theorems -/

/-- The result folder after problems of one suite have been observed one after the other: the process was not stopped, and the
problems form blocks so that the content of every file is the one given by `Spec.content`, and there are no other
files. -/
theorem C100_folder (c : Conf) (F : Format) (rs : List Run) (hc : Fits c) (hF : '_' ∉ F.name) (hv : ∀ r ∈ rs, Valid F r)
    (ht : Typed rs) : ∃ s bs, experiment c start rs = .ok s ∧ Describes c F rs s.disk bs := by
  obtain ⟨s, bs, h1, h2⟩ := experiment_inv hc hF rs hv ht
  exact ⟨s, bs, h1, h2.desc⟩

/-- The problems have different archive files if they have different function, dimension or instance, and different data files
if they have different function or dimension. -/
theorem C100_separate (c : Conf) (F : Format) (hc : Fits c) (a b : File) (ha : a.Ok) (hb : b.Ok) (h : a ≠ b) :
    a.path c F ≠ b.path c F := fun he => h (path_inj c F hc.1 ha hb he)

/-- A file only grows. -/
theorem C100_append_only (c : Conf) (F : Format) (rs rs' : List Run) (hc : Fits c) (hF : '_' ∉ F.name)
    (hv : ∀ r ∈ rs ++ rs', Valid F r) (ht : Typed (rs ++ rs')) :
    ∃ s s', experiment c start rs = .ok s ∧ experiment c start (rs ++ rs') = .ok s' ∧
      ∀ p t, s.disk p = some t → ∃ x, s'.disk p = some (t ++ x) := by
  induction rs' using List.reverseRecOn with
  | nil =>
    rw [List.append_nil] at hv ht ⊢
    obtain ⟨s, bs, h1, _⟩ := experiment_inv hc hF rs hv ht
    exact ⟨s, s, h1, h1, fun p t h => ⟨[], by simpa using h⟩⟩
  | append_singleton rs' r ih =>
    rw [← List.append_assoc] at hv ht ⊢
    obtain ⟨s, s', h1, h2, h3⟩ := ih (fun r hr => hv r (List.mem_append_left _ hr))
      (fun a ha b hb h => ht a (List.mem_append_left _ ha) b (List.mem_append_left _ hb) h)
    have hvr := hv r (by simp)
    have hl := life_ok hc hF hvr s'
    refine ⟨s, _, h1, by rw [experiment_snoc, h2]; exact hl, ?_⟩
    intro p t hp
    obtain ⟨x, hx⟩ := h3 p t hp
    dsimp only
    have key : ∀ (ws : List (File × List Char)) (disk : Disk) (t : List Char), disk p = some t →
        ∃ y, writeAll c F disk ws p = some (t ++ y) := by
      intro ws
      induction ws with
      | nil => intro disk t h; exact ⟨[], by simpa [writeAll] using h⟩
      | cons w ws ih =>
        intro disk t h
        have e : writeAll c F disk (w :: ws) = writeAll c F (append disk (w.1.path c F) w.2) ws := rfl
        rw [e]
        by_cases hpw : p = w.1.path c F
        · obtain ⟨y, hy⟩ := ih (append disk (w.1.path c F) w.2) (t ++ w.2) (by
            unfold append; rw [if_pos hpw, ← hpw, h]; rfl)
          exact ⟨w.2 ++ y, by rw [hy]; simp⟩
        · exact ih _ t (by rw [append_other _ _ _ _ hpw]; exact h)
    obtain ⟨y, hy⟩ := key _ _ _ hx
    exact ⟨x ++ y, by rw [hy]; simp⟩

/-! ### Examples -/

def exampleConf : Conf := ⟨"exdata/A".toList, "ALG".toList, "info".toList, "2.7".toList, .all, true⟩

/-- The identifiers of the suite `bbob-biobj`: `bbob-biobj_f%02lu_i%02lu_d%02lu`. -/
def exampleFormat : Format := ⟨"bbob-biobj".toList, "bbob-biobj".toList, 2, 2, 2⟩

/-- The identifiers of the suite `bbob-biobj-mixint`: `bbob-biobj-mixint_f%03lu_i%02lu_d%03lu`. -/
def exampleFormat2 : Format := ⟨"bbob-biobj-mixint".toList, "bbob-biobj-mixint".toList, 3, 2, 3⟩

def exampleRun (F : Format) (f d i : Nat) (evals : Nat) : Run :=
  ⟨ident F f i d, (if f = 1 then "1-separable_1-separable" else "1-separable_2-moderate").toList, F.suite, f, d, i,
    "%t\n".toList, "%h\n".toList, "%a\n".toList, "%r\n".toList, "1\n".toList, "2\n".toList, "3\n".toList, "4\n".toList,
    "5\n".toList, evals, "1.0e-08".toList⟩

/-- Two problems with function 1 in dimension 5, one with function 2, and again function 1 in dimension 5. -/
def exampleRuns : List Run :=
  [exampleRun exampleFormat 1 5 1 7, exampleRun exampleFormat 1 5 2 8, exampleRun exampleFormat 2 5 1 9,
    exampleRun exampleFormat 1 5 11 10]

example : Fits exampleConf ∧ '_' ∉ exampleFormat.name ∧ '_' ∉ exampleFormat2.name := by
  unfold Fits
  decide +kernel

example : ∀ r ∈ exampleRuns, Valid exampleFormat r := by
  have h : ∀ r ∈ exampleRuns, r.suite = exampleFormat.suite ∧ r.id = ident exampleFormat r.function r.inst r.dimension ∧
      '/' ∉ r.ptype ∧ (r.ptype.length ≤ 400 ∧ r.id.length ≤ 400) := by decide +kernel
  exact fun r hr => ⟨(h r hr).1, (h r hr).2.1, (h r hr).2.2.1, (h r hr).2.2.2⟩

example : Typed exampleRuns := by
  unfold Typed
  decide +kernel

/-- C100: problems with the same function and dimension share their data file also if other problems were observed between them:
the info file then has two lines with the same name. -/
theorem C100_recurring : (experiment exampleConf start exampleRuns).bind (fun s => .ok
    (s.disk "exdata/A/1-separable_1-separable_hyp.info".toList,
      s.disk "exdata/A/1-separable_1-separable/bbob-biobj_f01_d05_hyp.dat".toList,
      s.disk "exdata/A/archive/bbob-biobj_f01_i11_d05_nondom_all.adat".toList)) =
    .ok (some "suite = 'bbob-biobj', algorithm = 'ALG', indicator = 'hyp', folder = '1-separable_1-separable', coco_version = '2.7'\n% info\nfunction =  1, dim =  5, bbob-biobj_f01_d05_hyp.dat, 1:7|1.0e-08, 2:8|1.0e-08\nfunction =  1, dim =  5, bbob-biobj_f01_d05_hyp.dat, 11:10|1.0e-08".toList,
      some "%t\n1\n%t\n1\n%t\n1\n".toList, some "%a\n5\n".toList) := by
  decide +kernel

/-- C100: with two suites, a problem of the second one with the function, dimension and type of the last problem of the first one gets
an entry for the data file of the first suite. Its own data file is named in no info file. -/
theorem C100_two_suites :
    (experiment exampleConf start [exampleRun exampleFormat 1 5 1 7, exampleRun exampleFormat2 1 5 1 8]).bind (fun s => .ok
      (s.disk "exdata/A/1-separable_1-separable_hyp.info".toList,
        s.disk "exdata/A/1-separable_1-separable/bbob-biobj-mixint_f001_d005_hyp.dat".toList)) =
    .ok (some "suite = 'bbob-biobj', algorithm = 'ALG', indicator = 'hyp', folder = '1-separable_1-separable', coco_version = '2.7'\n% info\nfunction =  1, dim =  5, bbob-biobj_f01_d05_hyp.dat, 1:7|1.0e-08, 1:8|1.0e-08".toList,
      some "%t\n1\n".toList) := by
  decide +kernel

end BiobjFiles
