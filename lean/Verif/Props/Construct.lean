import Verif.Model.Construct
import Verif.Props.Options
import Verif.Props.Suite

/-!
Properties C08, C58, C66 and C67: the suite constructor (`/repo/src/coco_suite.c`) and the suite tables.
-/

namespace Construct
open CStr Str Options

/-! ### C08 -/

/-- The first occurrence of `key` in `s` is at position `p`. -/
def Spec.FirstAt (s key : List Char) (p : Nat) : Prop :=
  Str.Spec.OccursAt s key p ∧ ∀ q, q < p → ¬ Str.Spec.OccursAt s key q

theorem strfind_firstAt {s key : List Char} {p : Nat} (hk : key ≠ []) (hl : s.length ≤ 1000000000)
    (h : Spec.FirstAt s key p) : strfind s key = .ok (p : Int) := strfind_first hk hl h.1 h.2

/-- **C08** (part that holds). If both keys occur and *neither starts at position 0*, only the earlier
one is used. -/
theorem C08_later_ignored_partial (name : String) (si : List Char) (y i : Nat)
    (hl : si.length ≤ 1000000000) (hy : Spec.FirstAt si "year".toList y)
    (hi : Spec.FirstAt si "instances".toList i) (hy0 : 0 < y) (hi0 : 0 < i) :
    (y < i → getInstanceIndices name si = fromYear name si) ∧
    (i < y → getInstanceIndices name si = fromInstances si none) := by
  have e1 := strfind_firstAt (by decide) hl hy
  have e2 := strfind_firstAt (by decide) hl hi
  unfold getInstanceIndices
  simp only [e1, e2, Res.ok_bind]
  have a1 : ¬ ((y : Int) < 0 ∧ (i : Int) < 0) := by omega
  have a2 : (y : Int) > 0 ∧ (i : Int) > 0 := by omega
  have a3 : (y : Int) ≥ 0 := by omega
  have a4 : (i : Int) ≥ 0 := by omega
  constructor
  · intro hlt
    have a5 : (y : Int) < (i : Int) := by omega
    simp only [a1, a2, a3, a4, a5, and_self, decide_true, Bool.and_self, Bool.not_true, Bool.not_false,
      if_false, if_true, Bool.true_and, Bool.false_eq_true, and_false]
    cases fromYear name si <;> rfl
  · intro hlt
    have a5 : ¬ ((y : Int) < (i : Int)) := by omega
    simp only [a1, a2, a3, a4, a5, and_self, decide_true, decide_false, Bool.not_true, Bool.not_false,
      if_false, if_true, Bool.false_eq_true, and_false, Bool.and_true, Bool.and_false,
      Res.ok_bind]

/-- **C08** (what happens otherwise). If one of the keys starts at position 0 both are evaluated and the
result of 'instances' is used whenever it can be read. -/
theorem C08_position_zero (name : String) (si : List Char) (y i : Nat)
    (hl : si.length ≤ 1000000000) (hy : Spec.FirstAt si "year".toList y)
    (hi : Spec.FirstAt si "instances".toList i) (h0 : y = 0 ∨ i = 0) :
    getInstanceIndices name si = (fromYear name si).bind fun r => fromInstances si r := by
  have e1 := strfind_firstAt (by decide) hl hy
  have e2 := strfind_firstAt (by decide) hl hi
  unfold getInstanceIndices
  simp only [e1, e2, Res.ok_bind]
  have a1 : ¬ ((y : Int) < 0 ∧ (i : Int) < 0) := by omega
  have a2 : ¬ ((y : Int) > 0 ∧ (i : Int) > 0) := by omega
  have a3 : (y : Int) ≥ 0 := by omega
  have a4 : (i : Int) ≥ 0 := by omega
  simp only [a1, a2, a3, a4, decide_false, Bool.not_false, if_false, if_true, Bool.false_and, and_self]

/-- **C08** (refutation). In "year: 2009 instances: 7" the later key 'instances' is not ignored: the
instances are [7] and not those of 2009. The same holds with a leading blank removed or added, only the
position 0 matters: with a leading blank the year is used. -/
theorem C08_later_not_ignored :
    getInstanceIndices "bbob" "year: 2009 instances: 7".toList = .ok (some [7]) ∧
    getInstanceIndices "bbob" " year: 2009 instances: 7".toList
      = .ok (some [1, 2, 3, 4, 5, 1, 2, 3, 4, 5, 1, 2, 3, 4, 5]) := by
  constructor <;> decide +kernel

/-- Both premises of `C08_later_ignored_partial` are met by " year: 2009 instances: 7". -/
example : strfind " year: 2009 instances: 7".toList "year".toList = .ok 1 ∧
    strfind " year: 2009 instances: 7".toList "instances".toList = .ok 12 := by decide +kernel

/-! ### C58 -/

/-- **C58.** Whenever a suite accepts a year, the instances of that year parse to a non-empty list of
instance numbers between 1 and 110. -/
theorem C58_years_parse (name : String) (year : Int) (str : List Char)
    (h : instancesByYear name year = .ok str) :
    ∃ l, parseRanges str 1 0 maxInstances = .ok (some l) ∧ l ≠ [] ∧ l.length < maxInstances ∧
      ∀ x ∈ l, 1 ≤ x ∧ x ≤ 110 := by
  have key : ∀ t ∈ ["1-5,101-110".toList, "1-5,91-100".toList, "1-5,71-80".toList, "1-5,61-70".toList,
      "1-5,51-60".toList, "1-5,41-50".toList, "1-5,31-40".toList, "1-5,21-30".toList, "1-15".toList,
      "1-5,1-5,1-5".toList, "1-10".toList],
      ∃ l, parseRanges t 1 0 maxInstances = .ok (some l) ∧ l ≠ [] ∧ l.length < maxInstances ∧
        ∀ x ∈ l, 1 ≤ x ∧ x ≤ 110 := by
    intro t ht
    have hall : ∀ t ∈ ["1-5,101-110".toList, "1-5,91-100".toList, "1-5,71-80".toList, "1-5,61-70".toList,
      "1-5,51-60".toList, "1-5,41-50".toList, "1-5,31-40".toList, "1-5,21-30".toList, "1-15".toList,
      "1-5,1-5,1-5".toList, "1-10".toList],
      (match parseRanges t 1 0 maxInstances with
        | .ok (some l) => decide (l ≠ [] ∧ l.length < maxInstances ∧ ∀ x ∈ l, 1 ≤ x ∧ x ≤ 110)
        | _ => false) = true := by decide +kernel
    have := hall t ht
    split at this
    · rename_i l hl
      exact ⟨l, hl, by simpa using this⟩
    · simp at this
  have hmem : str ∈ ["1-5,101-110".toList, "1-5,91-100".toList, "1-5,71-80".toList, "1-5,61-70".toList,
      "1-5,51-60".toList, "1-5,41-50".toList, "1-5,31-40".toList, "1-5,21-30".toList, "1-15".toList,
      "1-5,1-5,1-5".toList, "1-10".toList] := by
    unfold instancesByYear bbobByYear boxedByYear biobjByYear consByYear largescaleByYear noisyByYear at h
    repeat' split at h
    all_goals first
      | (simp only [reduceCtorEq] at h; done)
      | (simp only [Res.ok.injEq] at h; subst h; simp)
  exact key str hmem

/-- **C58.** The bbob suite rejects exactly the years before 2009 other than 0. -/
theorem C58_bbob_rejects (year : Int) : bbobByYear year = .error ↔ year < 2009 ∧ year ≠ 0 := by
  unfold bbobByYear
  repeat' split
  all_goals simp
  all_goals omega

/-- **C58.** Rejected years of the other suites. -/
theorem C58_others_reject (year : Int) :
    (boxedByYear year = .error ↔ year ≠ 2023 ∧ year ≠ 0) ∧ (consByYear year = .error ↔ year < 2009 ∧ year ≠ 0) ∧
    (largescaleByYear year = .error ↔ year < 2009 ∧ year ≠ 0) ∧ (noisyByYear year = .error ↔ 2009 < year) ∧
    biobjByYear year ≠ .error := by
  unfold boxedByYear consByYear largescaleByYear noisyByYear biobjByYear
  refine ⟨?_, ?_, ?_, ?_, ?_⟩ <;> (repeat' split) <;> simp <;> omega

/-- Workshop years with the numbers of the last ten instances (the first five are always 1 to 5). -/
def Spec.bbobYears : List (Int × List Nat) :=
  [(2009, [1, 2, 3, 4, 5, 1, 2, 3, 4, 5]), (2010, List.range' 6 10), (2012, List.range' 21 10),
    (2013, List.range' 31 10), (2015, List.range' 41 10), (2016, List.range' 51 10), (2017, List.range' 61 10),
    (2018, List.range' 71 10), (2021, List.range' 91 10), (2023, List.range' 101 10)]

/-- **C58** (bbob). For every year the instances are those of the latest workshop year that is not later: the
instances 1 to 5 and ten others. -/
theorem C58_bbob_latest (year : Int) (tail : List Nat) (y : Int) (hy : (y, tail) ∈ Spec.bbobYears) (hle : y ≤ year)
    (hlast : ∀ e ∈ Spec.bbobYears, e.1 ≤ year → e.1 ≤ y) :
    ∃ str, instancesByYear "bbob" year = .ok str ∧
      parseRanges str 1 0 maxInstances = .ok (some ([1, 2, 3, 4, 5] ++ tail)) := by
  have e : instancesByYear "bbob" year = bbobByYear year := rfl
  rw [e]
  simp only [Spec.bbobYears, List.mem_cons, List.not_mem_nil, or_false, forall_eq_or_imp, forall_eq] at hy hlast
  obtain ⟨h9, h10, h12, h13, h15, h16, h17, h18, h21, h23⟩ := hlast
  rcases hy with h | h | h | h | h | h | h | h | h | h <;> obtain ⟨rfl, rfl⟩ := h
  · exact ⟨"1-5,1-5,1-5".toList, by unfold bbobByYear; repeat rw [if_neg (by omega)]
                                    rw [if_pos (by omega)], by decide +kernel⟩
  · exact ⟨"1-15".toList, by unfold bbobByYear; iterate 8 rw [if_neg (by omega)]
                             rw [if_pos (by omega)], by decide +kernel⟩
  · exact ⟨"1-5,21-30".toList, by unfold bbobByYear; iterate 7 rw [if_neg (by omega)]
                                  rw [if_pos (by omega)], by decide +kernel⟩
  · exact ⟨"1-5,31-40".toList, by unfold bbobByYear; iterate 6 rw [if_neg (by omega)]
                                  rw [if_pos (by omega)], by decide +kernel⟩
  · exact ⟨"1-5,41-50".toList, by unfold bbobByYear; iterate 5 rw [if_neg (by omega)]
                                  rw [if_pos (by omega)], by decide +kernel⟩
  · exact ⟨"1-5,51-60".toList, by unfold bbobByYear; iterate 4 rw [if_neg (by omega)]
                                  rw [if_pos (by omega)], by decide +kernel⟩
  · exact ⟨"1-5,61-70".toList, by unfold bbobByYear; iterate 3 rw [if_neg (by omega)]
                                  rw [if_pos (by omega)], by decide +kernel⟩
  · exact ⟨"1-5,71-80".toList, by unfold bbobByYear; iterate 2 rw [if_neg (by omega)]
                                  rw [if_pos (by omega)], by decide +kernel⟩
  · exact ⟨"1-5,91-100".toList, by unfold bbobByYear; rw [if_neg (by omega)]
                                   rw [if_pos (by omega)], by decide +kernel⟩
  · exact ⟨"1-5,101-110".toList, by unfold bbobByYear; rw [if_pos (by omega)], by decide +kernel⟩

/-- **C58** (other suites). Accepted years give the instances 1 to 15, with three exceptions: year 2023 of
bbob-boxed, and years 0 and 2016 of the two bi-objective suites. -/
theorem C58_others (name : String) (year : Int) (str : List Char) (hn : name ≠ "bbob")
    (h : instancesByYear name year = .ok str) :
    parseRanges str 1 0 maxInstances = .ok (some (
      if name = "bbob-boxed" ∧ year = 2023 then [1, 2, 3, 4, 5] ++ List.range' 101 10
      else if (name = "bbob-biobj" ∨ name = "bbob-biobj-ext") ∧ (year = 2016 ∨ year = 0) then List.range' 1 10
      else List.range' 1 15)) := by
  have k15 : parseRanges "1-15".toList 1 0 maxInstances = .ok (some (List.range' 1 15)) := by decide +kernel
  have k10 : parseRanges "1-10".toList 1 0 maxInstances = .ok (some (List.range' 1 10)) := by decide +kernel
  have k23 : parseRanges "1-5,101-110".toList 1 0 maxInstances =
    .ok (some ([1, 2, 3, 4, 5] ++ List.range' 101 10)) := by decide +kernel
  unfold instancesByYear at h
  rw [if_neg hn] at h
  by_cases hb : name = "bbob-boxed"
  · rw [if_pos hb] at h
    unfold boxedByYear at h
    have h2 : ¬ (name = "bbob-biobj" ∨ name = "bbob-biobj-ext") := by rw [hb]; decide
    split at h
    · rename_i e
      simp only [Res.ok.injEq] at h
      rw [← h, k23, if_pos ⟨hb, e⟩]
    · rename_i e
      split at h
      · simp only [Res.ok.injEq] at h
        rw [← h, k15, if_neg (fun h => e h.2), if_neg (fun h => h2 h.1)]
      · simp at h
  · rw [if_neg hb] at h
    rw [if_neg (fun h => hb h.1)]
    by_cases hbi : name = "bbob-biobj" ∨ name = "bbob-biobj-ext"
    · rw [if_pos hbi] at h
      unfold biobjByYear at h
      split at h
      · rename_i e
        simp only [Res.ok.injEq] at h
        rw [← h, k10, if_pos ⟨hbi, e⟩]
      · rename_i e
        simp only [Res.ok.injEq] at h
        rw [← h, k15, if_neg (fun h => e h.2)]
    · rw [if_neg hbi] at h
      rw [if_neg (fun h => hbi h.1)]
      have : str = "1-15".toList := by
        unfold consByYear largescaleByYear noisyByYear at h
        repeat' split at h
        all_goals first
          | (simp only [reduceCtorEq] at h; done)
          | (simp only [Res.ok.injEq] at h; exact h.symm)
      rw [this, k15]

example : instancesByYear "bbob" 2021 = .ok "1-5,91-100".toList := by decide

end Construct
