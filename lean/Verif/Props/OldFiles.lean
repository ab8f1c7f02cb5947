import Mathlib.Data.List.Infix
import Verif.Lemmas.OldFiles

/-!
# C104: the files of the observer `bbob-old`
-/

namespace OldFiles
open Spec
open InfoFile (Disk dec)

/-- C104: one observer in a new process. If nothing is written outside the list of six dimensions, then each problem with an
evaluation has its entry in one info file and its lines in three data files, once and in the order of the problems, under the names that
were decided for it. There are no other files. -/
theorem C104_folder_partial (c : Conf) (hc : c.folder.length < 3000) (rs : List Run) (hg : ∀ r ∈ rs, Good r) :
    experiment start (rs.map (c, ·)) = .ub ∨ ∃ s as, experiment start (rs.map (c, ·)) = .ok s ∧
      as.map (·.run) = rs.filter (·.used) ∧ AllDecided as ∧ Files c as s.disk := by
  rcases run_all hc rs hg start [] (Inv.start c) with h | ⟨s, as, h, hi, hm⟩
  · exact .inl h
  · rw [List.nil_append] at hi
    exact .inr ⟨s, as, h, hm, hi.decided, hi.disk ▸ files_of c as⟩

/-- C104: if at most five dimensions are observed, in any order, the files are as described. -/
theorem C104_five_dimensions (c : Conf) (hc : c.folder.length < 3000) (rs : List Run) (hg : ∀ r ∈ rs, Good r) (ds : List Nat)
    (hds : ds.length ≤ 5) (hd : ∀ r ∈ rs, r.used = true → r.dimension ∈ ds) : ∃ s as, experiment start (rs.map (c, ·)) = .ok s ∧
      as.map (·.run) = rs.filter (·.used) ∧ AllDecided as ∧ Files c as s.disk :=
  (C104_folder_partial c hc rs hg).resolve_left
    (run_few hc ds hds rs hg hd start [] 6 (Inv.start c) (Kept.init 6) (fun a ha => by cases ha))

/-- C104: if at most six dimensions are observed, one after the other, then all names have the instance of the first problem, a heading
is written before an entry unless the function and the dimension are those of the problem before, and it begins a new line if the
function was observed before. -/
theorem C104_single_pass (c : Conf) (hc : c.folder.length < 3000) (rs : List Run) (hg : ∀ r ∈ rs, Good r) (ds : List Nat)
    (hds : ds.length ≤ 6) (hd : ∀ r ∈ rs, r.used = true → r.dimension ∈ ds)
    (hone : OnePass ((rs.filter (·.used)).map (·.dimension))) : ∃ s as, experiment start (rs.map (c, ·)) = .ok s ∧
      as.map (·.run) = rs.filter (·.used) ∧ Files c as s.disk ∧
      ∀ before a, before ++ [a] <+: as → some a.first = (rs.filter (·.used)).head?.map (·.inst) ∧
        a.head = if before.getLast?.any (fun p => p.run.function = a.run.function ∧ p.run.dimension = a.run.dimension) then none
          else some (before.any fun b => b.run.function = a.run.function) := by
  obtain ⟨h1, -⟩ := run_pass hc rs hg start [] (Inv.start c) (Kept.init 6) (fun a ha => by cases ha) hone
  obtain ⟨s, as, h, hm, hdec, hf⟩ :=
    (C104_folder_partial c hc rs hg).resolve_left (h1 ds hds (fun a ha => by cases ha) hd)
  refine ⟨s, as, h, hm, hf, fun before a hp => ?_⟩
  have hone' : OnePass (as.map (·.run.dimension)) := by
    rw [← hm, List.map_map] at hone
    exact hone
  rcases h0 : as.head? with _ | a0
  · rw [List.head?_eq_none_iff.mp h0] at hp
    have := List.prefix_nil.mp hp
    simp at this
  · obtain ⟨h2, h3⟩ := decided_pass hdec hone' a0 h0 before a hp
    refine ⟨?_, h3⟩
    rw [← hm, List.head?_map, h0, h2]
    rfl

/-- C104: with a seventh dimension, the program writes outside the array. -/
theorem C104_seventh_dimension (c : Conf) (hc : c.folder.length < 3000) (rs : List Run) (hg : ∀ r ∈ rs, Good r)
    (hone : OnePass ((rs.filter (·.used)).map (·.dimension))) (ds : List Nat) (hn : ds.Nodup) (hds : 7 ≤ ds.length)
    (hd : ∀ d ∈ ds, ∃ r ∈ rs, r.used = true ∧ r.dimension = d) : experiment start (rs.map (c, ·)) = .ub := by
  obtain ⟨-, h1⟩ := run_pass hc rs hg start [] (Inv.start c) (Kept.init 6) (fun a ha => by cases ha) hone
  rcases C104_folder_partial c hc rs hg with h | ⟨s, as, h, -, -, -⟩
  · exact h
  · obtain ⟨h2, -, h3⟩ := h1 s h
    have hsub : ds ⊆ s.dims := by
      intro d hd'
      obtain ⟨r, hr, hu, rfl⟩ := hd d hd'
      exact h3 r hr hu
    have := (List.subperm_of_subset hn hsub).length_le
    omega

/-! ### Cases -/

/-- An observer. -/
def conf : Conf := ⟨"exdata/A".toList, "A".toList, "2.7".toList⟩

/-- Another one. -/
def conf' : Conf := ⟨"exdata/B".toList, "B".toList, "2.7".toList⟩

/-- A problem with one evaluation. -/
def demo (f d i : Nat) : Run := ⟨"bbob".toList, f, d, i, true, "%h\n".toList, "1\n".toList, "2\n".toList, 1, "3.0e+00".toList⟩

theorem demo_good (f d i : Nat) (hf : f < 2 ^ 64) (hd : d < 2 ^ 64) (hi : i < 2 ^ 64) (h1 : 1 ≤ d) (h2 : 1 ≤ i) :
    Good (demo f d i) := ⟨⟨hf, hd, hi⟩, h1, h2⟩

/-- Whether the dimensions come one after the other, for a given list. -/
theorem onePass_of {l : List Nat} (h : l.inits.all fun x => x.dropLast.getLast? = x.getLast? ∨ x.getLast?.any (· ∉ x.dropLast) ∨
    x = []) : OnePass l := by
  intro before d hp
  have := List.all_eq_true.mp h _ ((List.mem_inits _ _).mpr hp)
  simpa using this

/-- Two functions, two dimensions and two instances, and a problem without evaluations. -/
def few : List Run := [demo 1 2 1, demo 1 2 2, { demo 2 2 1 with used := false }, demo 2 2 2, demo 1 3 1, demo 2 3 1]

example : ∃ s as, experiment start (few.map (conf, ·)) = .ok s ∧ as.map (·.run) = few.filter (·.used) ∧ Files conf as s.disk ∧
    ∀ before a, before ++ [a] <+: as → some a.first = (few.filter (·.used)).head?.map (·.inst) ∧
      a.head = if before.getLast?.any (fun p => p.run.function = a.run.function ∧ p.run.dimension = a.run.dimension) then none
        else some (before.any fun b => b.run.function = a.run.function) :=
  C104_single_pass conf (by decide +kernel) few
    (by
      intro r hr
      simp only [few, List.mem_cons, List.not_mem_nil, or_false] at hr
      rcases hr with rfl | rfl | rfl | rfl | rfl | rfl <;> exact ⟨⟨by decide, by decide, by decide⟩, by decide, by decide⟩)
    [2, 3] (by decide)
    (by
      intro r hr
      simp only [few, List.mem_cons, List.not_mem_nil, or_false] at hr
      rcases hr with rfl | rfl | rfl | rfl | rfl | rfl <;> decide)
    (onePass_of (by decide))

example : ∃ s as, experiment start ([demo 1 2 1, demo 1 3 1, demo 1 2 2].map (conf, ·)) = .ok s ∧
    as.map (·.run) = [demo 1 2 1, demo 1 3 1, demo 1 2 2].filter (·.used) ∧ AllDecided as ∧ Files conf as s.disk :=
  C104_five_dimensions conf (by decide +kernel) _
    (by
      intro r hr
      simp only [List.mem_cons, List.not_mem_nil, or_false] at hr
      rcases hr with rfl | rfl | rfl <;> exact ⟨⟨by decide, by decide, by decide⟩, by decide, by decide⟩)
    [2, 3] (by decide)
    (by
      intro r hr
      simp only [List.mem_cons, List.not_mem_nil, or_false] at hr
      rcases hr with rfl | rfl | rfl <;> decide)

/-- The content of a file after an experiment. -/
def content (x : Res St) (name : String) : Option String :=
  match x with
  | .ok s => (s.disk name.toList).map String.ofList
  | _ => none

example : content (experiment start (few.map (conf, ·))) "exdata/A/bbobexp_f1_i1.info" = some
    ("suite = 'bbob', funcId = 1, DIM = 2, Precision = 1.000e-08, algId = 'A', coco_version = '2.7', " ++
     "logger = 'bbob_old', data_format = 'bbob-new2'\n%\ndata_f1/bbobexp_f1_DIM2_i1.dat, 1:1|3.0e+00, 2:1|3.0e+00\n" ++
     "suite = 'bbob', funcId = 1, DIM = 3, Precision = 1.000e-08, algId = 'A', coco_version = '2.7', " ++
     "logger = 'bbob_old', data_format = 'bbob-new2'\n%\ndata_f1/bbobexp_f1_DIM3_i1.dat, 1:1|3.0e+00") := by decide +kernel

example : content (experiment start (few.map (conf, ·))) "exdata/A/data_f2/bbobexp_f2_DIM3_i1.tdat" = some "%h\n2\n" := by
  decide +kernel

/-- Seven dimensions. -/
example : experiment start (([2, 3, 5, 10, 20, 40, 80].map fun d => demo 1 d 1).map (conf, ·)) = .ub :=
  C104_seventh_dimension conf (by decide +kernel) _
    (by
      intro r hr
      simp only [List.map_cons, List.map_nil, List.mem_cons, List.not_mem_nil, or_false] at hr
      rcases hr with rfl | rfl | rfl | rfl | rfl | rfl | rfl <;> exact ⟨⟨by decide, by decide, by decide⟩, by decide, by decide⟩)
    (onePass_of (by decide)) [2, 3, 5, 10, 20, 40, 80] (by decide) (by decide)
    (by
      intro d hd
      simp only [List.mem_cons, List.not_mem_nil, or_false] at hd
      refine ⟨demo 1 d 1, List.mem_map.mpr ⟨d, ?_, rfl⟩, rfl, rfl⟩
      simpa using hd)

/-- Whether an experiment ends in undefined behaviour. -/
def isUb : Res St → Bool
  | .ub => true
  | _ => false

/-- C104: the six dimensions of the suite bbob, in an order in which one comes back twice, are too many as well: a dimension that
comes back is not always recognised. -/
theorem C104_six_dimensions :
    isUb (experiment start (([2, 3, 5, 10, 20, 10, 2, 10, 3, 5, 20, 40].map fun d => demo 1 d 1).map (conf, ·))) = true := by
  decide +kernel

/-- C104: if a dimension comes back with the same instance, the heading is glued to the entry before: the line has entries of dimension 3,
and then the heading of dimension 2. -/
theorem C104_glued : content (experiment start ([demo 1 2 1, demo 1 3 1, demo 1 2 1].map (conf, ·))) "exdata/A/bbobexp_f1_i1.info" =
    some
    ("suite = 'bbob', funcId = 1, DIM = 2, Precision = 1.000e-08, algId = 'A', coco_version = '2.7', " ++
     "logger = 'bbob_old', data_format = 'bbob-new2'\n%\ndata_f1/bbobexp_f1_DIM2_i1.dat, 1:1|3.0e+00\n" ++
     "suite = 'bbob', funcId = 1, DIM = 3, Precision = 1.000e-08, algId = 'A', coco_version = '2.7', " ++
     "logger = 'bbob_old', data_format = 'bbob-new2'\n%\ndata_f1/bbobexp_f1_DIM3_i1.dat, 1:1|3.0e+00" ++
     "suite = 'bbob', funcId = 1, DIM = 2, Precision = 1.000e-08, algId = 'A', coco_version = '2.7', " ++
     "logger = 'bbob_old', data_format = 'bbob-new2'\n%\ndata_f1/bbobexp_f1_DIM2_i1.dat, 1:1|3.0e+00") := by decide +kernel

/-- C104: with two observers in turn, an entry gets into the block of another dimension: the third entry in the folder of the first
observer is that of a problem with dimension 2. -/
theorem C104_two_folders : content (experiment start [(conf, demo 1 2 1), (conf, demo 1 3 1), (conf', demo 1 2 1), (conf, demo 1 2 2)])
    "exdata/A/bbobexp_f1_i1.info" = some
    ("suite = 'bbob', funcId = 1, DIM = 2, Precision = 1.000e-08, algId = 'A', coco_version = '2.7', " ++
     "logger = 'bbob_old', data_format = 'bbob-new2'\n%\ndata_f1/bbobexp_f1_DIM2_i1.dat, 1:1|3.0e+00\n" ++
     "suite = 'bbob', funcId = 1, DIM = 3, Precision = 1.000e-08, algId = 'A', coco_version = '2.7', " ++
     "logger = 'bbob_old', data_format = 'bbob-new2'\n%\ndata_f1/bbobexp_f1_DIM3_i1.dat, 1:1|3.0e+00, 2:1|3.0e+00") := by
  decide +kernel

end OldFiles
