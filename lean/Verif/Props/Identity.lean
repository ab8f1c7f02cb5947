import Verif.Lemmas.Identity
import Verif.Props.Biobj
import Verif.Props.BiobjFiles

/-!
# C103: ids, names and types of the problems of the suites

The texts are specified below (`Spec.id`, `Spec.name`, `Spec.type`). All of them, and the names that problems have while they are
put together from transformations, are printed into a buffer of 444 characters.
-/

namespace Identity
open InfoFile (dec)
open BiobjFiles.Spec (pad)
open Observer (strdupf)
open Memory (Transform Op Stmt Size)

/-! ### Specification -/

namespace Spec

/-- `<suite>_f<function>_i<instance>_d<dimension>`, where the numbers have at least the given number of digits. -/
def ident (suite : String) (wf wi wd : Nat) (f i d : Nat) : List Char :=
  suite.toList ++ "_f".toList ++ pad wf f ++ "_i".toList ++ pad wi i ++ "_d".toList ++ pad wd d

/-- `<suite> problem f<function> instance <instance> in <dimension>D`. -/
def title (suite : String) (f i d : Nat) : List Char :=
  suite.toList ++ " problem f".toList ++ dec f ++ " instance ".toList ++ dec i ++ " in ".toList ++ dec d ++ "D".toList

/-- The five groups of the bbob functions. -/
def group (f : Nat) : String :=
  if f ≤ 5 then "1-separable" else if f ≤ 9 then "2-moderate" else if f ≤ 14 then "3-ill-conditioned"
  else if f ≤ 19 then "4-multi-modal" else "5-weakly-structured"

/-- The functions of the toy suite. -/
def toyTexts : Nat → String × String
  | 1 => ("sphere", "sphere function")
  | 2 => ("ellipsoid", "ellipsoid function")
  | 3 => ("rastrigin", "Rastrigin function")
  | 4 => ("bueche-rastrigin", "Bueche-Rastrigin function")
  | 5 => ("linear_slope", "linear slope function")
  | _ => ("rosenbrock", "Rosenbrock function")

/-- The bbob function under the noise of the functions 101 to 130: sphere, Rosenbrock, step ellipsoid, rotated ellipsoid, different
powers, Schaffers, Griewank-Rosenbrock, Gallagher. -/
def noisyBase (f : Nat) : Nat := ([1, 8, 1, 8, 7, 10, 14, 17, 19, 21] : List Nat).getD ((f - 101) / 3) 0

/-- The noise of the functions 101 to 130. -/
def noise (f : Nat) : String :=
  if (f - 101) % 3 = 0 then "gaussian_noise_model" else if (f - 101) % 3 = 1 then "uniform_noise_model" else "cauchy_noise_model"

/-- The bbob function that is the objective of a constrained problem: sphere, ellipsoid, linear slope, rotated ellipsoid, discus, bent
cigar, different powers, Rastrigin, rotated Rastrigin; six functions each. -/
def consBase (f : Nat) : Nat := ([1, 2, 5, 10, 11, 12, 14, 3, 15] : List Nat).getD ((f - 1) / 6) 0

/-- The two functions of a bi-objective problem (C59). -/
noncomputable def pair (f : Nat) : Nat × Nat :=
  match Biobj.functions f with
  | .ok p => p
  | _ => (0, 0)

/-- The id of a bbob problem in the mixed-integer suites. -/
def inner (f i d : Nat) : List Char := ident "bbob" 3 2 (if d < 50 then 2 else 4) f i d

/-- The problem id. -/
def id : Request → List Char
  | .toy f _ d => (toyTexts f).1.toList ++ "_d".toList ++ pad 2 d
  | .bbob f i d => ident "bbob" 3 2 2 f i d
  | .largescale f i d => ident "bbob" 3 2 4 f i d
  | .sbox f i d => ident "bbob-boxed" 3 2 2 f i d
  | .noisy f i d => ident "bbob_noisy" 0 2 2 f i d
  | .mixint f i d => ident "bbob-mixint" 3 2 2 f i d
  | .biobj f i d _ _ => ident "bbob-biobj" 2 2 2 f i d
  | .biobjMixint f i d _ _ => ident "bbob-biobj-mixint" 3 2 3 f i d
  | .constrained s f i d _ => ident s.name 3 2 2 f i d

/-- The problem name. -/
noncomputable def name : Request → List Char
  | .toy f _ _ => (toyTexts f).2.toList
  | .bbob f i d => title "BBOB suite" f i d
  | .largescale f i d => title "BBOB large-scale suite" f i d
  | .sbox f i d => "transform_vars_enforce_box(".toList ++ title "bbob-boxed suite" f i d ++ ")".toList
  | .noisy f i d => (noise f).toList ++ "(".toList ++ title "BBOB-NOISY suite" f i d ++ ")".toList
  | .mixint f i d => "mixint(".toList ++ inner f i d ++ ")".toList
  | .biobj f _ d i1 i2 => ident "bbob" 3 2 2 (pair f).1 i1 d ++ "__".toList ++ ident "bbob" 3 2 2 (pair f).2 i2 d
  | .biobjMixint f _ d i1 i2 => inner (pair f).1 i1 d ++ "__".toList ++ inner (pair f).2 i2 d
  | .constrained s f i d _ => s.name.toList ++ title " suite" f i d

/-- The problem type. -/
noncomputable def type : Request → Option (List Char)
  | .toy _ _ _ => none
  | .bbob f _ _ | .largescale f _ _ | .sbox f _ _ | .mixint f _ _ => some (group f).toList
  | .noisy f _ _ => some (group (noisyBase f)).toList
  | .biobj f _ _ _ _ | .biobjMixint f _ _ _ _ =>
    some ((group (pair f).1).toList ++ "_".toList ++ (group (pair f).2).toList)
  | .constrained _ f _ _ k => some ((group (consBase f)).toList ++ (if k = 0 then "_linear" else "_linear_linear").toList)

/-- Numbers of type `unsigned long`. -/
def Small (ns : List Nat) : Prop := ∀ n ∈ ns, n < 2 ^ 64

/-- The problems of the suites, with any instances and dimensions (those of the mixed-integer suites are multiples of 5). -/
def Valid : Request → Prop
  | .toy f i d => 1 ≤ f ∧ f ≤ 6 ∧ Small [i, d]
  | .bbob f i d | .largescale f i d | .sbox f i d => 1 ≤ f ∧ f ≤ 24 ∧ Small [i, d]
  | .noisy f i d => 101 ≤ f ∧ f ≤ 130 ∧ Small [i, d]
  | .mixint f i d => 1 ≤ f ∧ f ≤ 24 ∧ d % 5 = 0 ∧ Small [i, d]
  | .biobj f i d i1 i2 => 1 ≤ f ∧ f ≤ 92 ∧ Small [i, d, i1, i2]
  | .biobjMixint f i d i1 i2 => 1 ≤ f ∧ f ≤ 92 ∧ d % 5 = 0 ∧ Small [i, d, i1, i2]
  | .constrained _ f i d _ => 1 ≤ f ∧ f ≤ 54 ∧ Small [i, d]

/-- The objective is the rotated Rastrigin function of the constrained suites. -/
def RotatedRastrigin : Request → Prop
  | .constrained _ f _ _ _ => 49 ≤ f
  | _ => False

/-- The names of the suites (bbob-biobj stands for bbob-biobj-ext too). -/
def suite : Request → String
  | .toy _ _ _ => "toy"
  | .bbob _ _ _ => "bbob"
  | .largescale _ _ _ => "bbob-largescale"
  | .sbox _ _ _ => "bbob-boxed"
  | .noisy _ _ _ => "bbob-noisy"
  | .mixint _ _ _ => "bbob-mixint"
  | .biobj _ _ _ _ _ => "bbob-biobj"
  | .biobjMixint _ _ _ _ _ => "bbob-biobj-mixint"
  | .constrained s _ _ _ _ => s.name

/-- Function, instance and dimension. -/
def numbers : Request → Nat × Nat × Nat
  | .toy f i d | .bbob f i d | .largescale f i d | .sbox f i d | .noisy f i d | .mixint f i d | .biobj f i d _ _
  | .biobjMixint f i d _ _ | .constrained _ f i d _ => (f, i, d)

/-- The name with observers added in turn: the last one is the outermost. -/
def nested : List (List Char) → List Char → List Char
  | [], n => n
  | o :: os, n => nested os (o ++ "(".toList ++ n ++ ")".toList)

/-- The number of characters observers add to a name. -/
def added (os : List (List Char)) : Nat := (os.map fun o => o.length + 2).sum

end Spec

open Spec

/-! ### The constructors -/

/-- The texts of a constructor of a suite. -/
def done (type : String) : STexts := ⟨some none, some ⟨[], true, []⟩, some type.toList⟩

theorem bbob_table : ∀ k < 24, (Memory.bbobScript (k + 1)).bind (sCall false (Memory.peaksOf (k + 1))) =
    some (done (group (k + 1))) := by decide +kernel

theorem largescale_table : ∀ k < 24, (Memory.largescaleScript (k + 1)).bind (sCall true (Memory.peaksOf (k + 1))) =
    some (done (group (k + 1))) := by decide +kernel

theorem noisy_table : ∀ k < 30, (Memory.noisyScript (k + 101)).bind (fun r => (sCall false 101 r.1).map fun x => (x, pre r.2)) =
    some (done (group (noisyBase (k + 101))), noise (k + 101)) := by decide +kernel

theorem toy_table : ∀ k < 6, (Memory.toyScript (k + 1)).bind (sCall false 0) =
    some ⟨some (some ((toyTexts (k + 1)).1, 2)), some ⟨(toyTexts (k + 1)).2.toList, false, []⟩, none⟩ := by decide +kernel

/-- The type of the objective of a constrained problem as it is in the code. -/
def codeGroup (f : Nat) : String := if 49 ≤ f then "1-separable" else group (consBase f)

theorem cons_table : ∀ k < 54, (Memory.consScript ((k + 1 + 5) / 6)).bind (fun r => (sCall false 0 r.1).map fun x =>
    (x, decide ((r.2.map fun t => (pre t).toList.length + 2).sum ≤ 53))) = some (done (codeGroup (k + 1)), true) := by
  decide +kernel

theorem done_den (c : Ctx) (type : String) : (done type).den c =
    ⟨some (idText c.t c.f c.i c.d), some (nameText c.t c.f c.i c.d), some type.toList⟩ := by
  simp [done, STexts.den, opId, SName.den]

theorem bbob_call {t : Template} {f i d : Nat} (h1 : 1 ≤ f) (h2 : f ≤ 24) (hg : Good t f i d) :
    call ⟨t, f, i, d, Memory.peaksOf f, false⟩ (Memory.bbobScript f) =
      .ok ⟨some (idText t f i d), some (nameText t f i d), some (group f).toList⟩ := by
  have h := bbob_table (f - 1) (by omega)
  rw [Nat.sub_add_cancel h1] at h
  obtain ⟨ss, h3, h4⟩ := bind_some h
  rw [h3, call_den (c := ⟨t, f, i, d, Memory.peaksOf f, false⟩) hg ss h4, done_den]

theorem largescale_call {t : Template} {f i d : Nat} (h1 : 1 ≤ f) (h2 : f ≤ 24) (hg : Good t f i d) :
    call ⟨t, f, i, d, Memory.peaksOf f, true⟩ (Memory.largescaleScript f) =
      .ok ⟨some (idText t f i d), some (nameText t f i d), some (group f).toList⟩ := by
  have h := largescale_table (f - 1) (by omega)
  rw [Nat.sub_add_cancel h1] at h
  obtain ⟨ss, h3, h4⟩ := bind_some h
  rw [h3, call_den (c := ⟨t, f, i, d, Memory.peaksOf f, true⟩) hg ss h4, done_den]

/-! ### The suites -/

theorem small_two {i d : Nat} (h : Small [i, d]) : i < 2 ^ 64 ∧ d < 2 ^ 64 :=
  ⟨h i (by simp), h d (by simp)⟩

theorem small_four {i d j k : Nat} (h : Small [i, d, j, k]) : i < 2 ^ 64 ∧ d < 2 ^ 64 ∧ j < 2 ^ 64 ∧ k < 2 ^ 64 :=
  ⟨h i (by simp), h d (by simp), h j (by simp), h k (by simp)⟩

theorem good (t : Template) (ht : Problem.idIsFine t.id.toList = true ∧ t.id.toList.length ≤ 40 ∧ t.title.toList.length ≤ 40 ∧
    t.wf ≤ 20 ∧ t.wi ≤ 20 ∧ t.wd ≤ 20) {f i d : Nat} (hf : f < 2 ^ 64) (hi : i < 2 ^ 64) (hd : d < 2 ^ 64) : Good t f i d :=
  ⟨hf, hi, hd, ht.1, ht.2.1, ht.2.2.1, ht.2.2.2⟩

theorem bbob_ok {f i d : Nat} (h1 : 1 ≤ f) (h2 : f ≤ 24) (hi : i < 2 ^ 64) (hd : d < 2 ^ 64) :
    bbob f i d = .ok ⟨some (idText bbobTemplate f i d), some (nameText bbobTemplate f i d), some (group f).toList⟩ :=
  bbob_call h1 h2 (good bbobTemplate (by decide +kernel) (by omega) hi hd)

theorem largescale_ok {f i d : Nat} (h1 : 1 ≤ f) (h2 : f ≤ 24) (hi : i < 2 ^ 64) (hd : d < 2 ^ 64) :
    largescale f i d =
      .ok ⟨some (idText largescaleTemplate f i d), some (nameText largescaleTemplate f i d), some (group f).toList⟩ :=
  largescale_call h1 h2 (good largescaleTemplate (by decide +kernel) (by omega) hi hd)

theorem toy_ok {f d : Nat} (h1 : 1 ≤ f) (h2 : f ≤ 6) (hd : d < 2 ^ 64) :
    Identity.toy f d = .ok ⟨some ((toyTexts f).1.toList ++ "_d".toList ++ pad 2 d), some (toyTexts f).2.toList, none⟩ := by
  have h := toy_table (f - 1) (by omega)
  rw [Nat.sub_add_cancel h1] at h
  obtain ⟨ss, h3, h4⟩ := bind_some h
  have hg : Good ⟨"", 0, 0, 0, ""⟩ f 1 d := good _ (by decide +kernel) (by omega) (by decide) hd
  rw [Identity.toy, h3, call_den (c := ⟨⟨"", 0, 0, 0, ""⟩, f, 1, d, 0, false⟩) hg ss h4]
  simp [STexts.den, opId, SName.den, zeros_eq]

theorem sbox_ok {f i d : Nat} (h1 : 1 ≤ f) (h2 : f ≤ 24) (hi : i < 2 ^ 64) (hd : d < 2 ^ 64) :
    sbox f i d = .ok ⟨some (idText sboxTemplate f i d),
      some ("transform_vars_enforce_box".toList ++ "(".toList ++ nameText sboxTemplate f i d ++ ")".toList),
      some (group f).toList⟩ := by
  have hg := good sboxTemplate (by decide +kernel) (f := f) (by omega) hi hd
  have hl := nameText_length hg
  have hp := pre_length .varsEnforceBox
  rw [sbox, bbob_call h1 h2 hg, Res.ok_bind, wrap_ok .varsEnforceBox rfl (by omega)]
  rfl

theorem noisy_ok {f i d : Nat} (h1 : 101 ≤ f) (h2 : f ≤ 130) (hi : i < 2 ^ 64) (hd : d < 2 ^ 64) :
    noisy f i d = .ok ⟨some (idText noisyTemplate f i d),
      some ((noise f).toList ++ "(".toList ++ nameText noisyTemplate f i d ++ ")".toList),
      some (group (noisyBase f)).toList⟩ := by
  have hg := good noisyTemplate (by decide +kernel) (f := f) (by omega) hi hd
  have hl := nameText_length hg
  have h := noisy_table (f - 101) (by omega)
  rw [Nat.sub_add_cancel h1] at h
  obtain ⟨⟨ss, t⟩, h3, h4⟩ := bind_some h
  rw [Option.map_eq_some_iff] at h4
  obtain ⟨x, h5, h6⟩ := h4
  simp only [Prod.mk.injEq] at h6
  have hp := pre_length t
  simp only [noisy, h3]
  rw [call_den (c := ⟨noisyTemplate, f, i, d, 101, false⟩) hg ss h5, h6.1, done_den, Res.ok_bind,
    wrap_ok t rfl (by show _ + 2 + (nameText noisyTemplate f i d).length ≤ _; omega), h6.2]

/-- The id of the continuous problem of the mixed-integer suites. -/
theorem cont_ok {f i d : Nat} (h1 : 1 ≤ f) (h2 : f ≤ 24) (hi : i < 2 ^ 64) (hd : d < 2 ^ 64) :
    ∃ n, n.length ≤ 125 ∧ cont f i d = .ok ⟨some (inner f i d), some n, some (group f).toList⟩ := by
  unfold cont inner
  by_cases h : d < 50
  · rw [if_pos h, if_pos h, bbob_ok h1 h2 hi hd]
    exact ⟨_, nameText_length (good bbobTemplate (by decide +kernel) (by omega) hi hd), rfl⟩
  · rw [if_neg h, if_neg h, largescale_ok h1 h2 hi hd]
    exact ⟨_, nameText_length (good largescaleTemplate (by decide +kernel) (by omega) hi hd), rfl⟩

theorem ident_bbob (f i d : Nat) : ident "bbob" 3 2 2 f i d = idText bbobTemplate f i d := rfl

theorem ident_largescale (f i d : Nat) : ident "bbob" 3 2 4 f i d = idText largescaleTemplate f i d := rfl

theorem inner_facts {f i d : Nat} (h2 : f ≤ 24) (hi : i < 2 ^ 64) (hd : d < 2 ^ 64) :
    Problem.idIsFine (inner f i d) = true ∧ (inner f i d).length ≤ 106 := by
  unfold inner
  by_cases h : d < 50
  · rw [if_pos h, ident_bbob]
    exact ⟨fine_idText (t := bbobTemplate) (by decide +kernel) f i d,
      idText_length (good bbobTemplate (by decide +kernel) (by omega) hi hd)⟩
  · rw [if_neg h, ident_largescale]
    exact ⟨fine_idText (t := largescaleTemplate) (by decide +kernel) f i d,
      idText_length (good largescaleTemplate (by decide +kernel) (by omega) hi hd)⟩

theorem wrapped_length (t : Transform) (n : List Char) :
    ((pre t).toList ++ "(".toList ++ n ++ ")".toList).length = (pre t).toList.length + 2 + n.length := by
  rw [lparen, rparen]
  simp only [List.length_append, List.length_cons, List.length_nil]
  omega

theorem mixint_ok {f i d : Nat} (h1 : 1 ≤ f) (h2 : f ≤ 24) (h5 : d % 5 = 0) (hi : i < 2 ^ 64) (hd : d < 2 ^ 64) :
    mixint f i d = .ok ⟨some (idText mixintTemplate f i d), some ("mixint(".toList ++ inner f i d ++ ")".toList),
      some (group f).toList⟩ := by
  have hg := good mixintTemplate (by decide +kernel) (f := f) (by omega) hi hd
  obtain ⟨n, hn, hc⟩ := cont_ok h1 h2 hi hd
  have hl := (inner_facts h2 hi hd).2
  have hp := pre_length .varsDiscretize
  have hp' := pre_length .objScale
  have hw := wrapped_length .varsDiscretize n
  have e : "mixint(".toList.length = 7 := by decide +kernel
  rw [mixint, if_neg (by omega), hc, Res.ok_bind, wrap_ok .varsDiscretize rfl (by omega), Res.ok_bind,
    wrap_ok .objScale rfl (by omega), Res.ok_bind,
    setId_ok (fine_idText hg.fine f i d) (by have := idText_length hg; omega), Res.ok_bind,
    setName_ok (by simp only [shown, rparen, List.length_append, List.length_cons, List.length_nil]; omega)]
  rfl

/-! ### Bi-objective suites -/

theorem pair_ok {f : Nat} (h1 : 1 ≤ f) (h2 : f ≤ 92) : Biobj.functions f = .ok (pair f) ∧
    1 ≤ (pair f).1 ∧ (pair f).1 ≤ 24 ∧ 1 ≤ (pair f).2 ∧ (pair f).2 ≤ 24 := by
  have hdec : ∀ k < 92, (match Biobj.functionsC (k + 1) with
      | .ok p => decide (1 ≤ p.1 ∧ p.1 ≤ 24 ∧ 1 ≤ p.2 ∧ p.2 ≤ 24)
      | _ => false) = true := by decide +kernel
  have h := hdec (f - 1) (by omega)
  rw [Nat.sub_add_cancel h1, ← Biobj.functions_eq] at h
  unfold pair
  revert h
  cases Biobj.functions f with
  | ok p => intro h; exact ⟨rfl, of_decide_eq_true h⟩
  | error => intro h; simp at h
  | assertFail => intro h; simp at h
  | ub => intro h; simp at h

theorem group_length (f : Nat) : (group f).toList.length ≤ 19 := by
  unfold group
  split
  · decide +kernel
  · split
    · decide +kernel
    · split
      · decide +kernel
      · split <;> decide +kernel

theorem under1 : "_".toList.length = 1 := by decide +kernel

/-- The texts of a bi-objective problem from those of the two problems. -/
theorem pair_stacked {x y : Texts} {a b n m t u id : List Char} (hx : x = ⟨some a, some n, some t⟩)
    (hy : y = ⟨some b, some m, some u⟩) (ha : Problem.idIsFine a = true ∧ a.length ≤ 106)
    (hb : Problem.idIsFine b = true ∧ b.length ≤ 106) (ht : t.length ≤ 19) (hu : u.length ≤ 19)
    (hid : Problem.idIsFine id = true ∧ id.length ≤ 106) :
    ((stacked x y).bind fun z => (nameFromId z).bind fun z => (setId id z).bind fun z =>
      setType (shown (some t) ++ "_".toList ++ shown (some u)) z) =
      .ok ⟨some id, some (a ++ "__".toList ++ b), some (t ++ "_".toList ++ u)⟩ := by
  subst hx hy
  have h2 := under2
  have h1 := under1
  simp only [stacked]
  rw [Res.ok_bind, nameFromId_ok rfl (fine_stacked ha.1 hb.1) (by simp only [List.length_append]; omega), Res.ok_bind,
    setId_ok hid.1 (by omega), Res.ok_bind, setType_ok (by simp only [shown, List.length_append]; omega)]
  rfl

/-- The continuous bi-objective problem. -/
theorem biobjOf_ok (get : Nat → Nat → Nat → Res Texts) (ident : Nat → Nat → Nat → List Char) {f i d i1 i2 : Nat}
    (hget : ∀ f i, 1 ≤ f → f ≤ 24 → i < 2 ^ 64 → (∃ n, n.length ≤ 125 ∧ get f i d =
      .ok ⟨some (ident f i d), some n, some (group f).toList⟩) ∧ Problem.idIsFine (ident f i d) = true ∧
      (ident f i d).length ≤ 106)
    (h1 : 1 ≤ f) (h2 : f ≤ 92) (hi : i < 2 ^ 64) (hd : d < 2 ^ 64) (hi1 : i1 < 2 ^ 64) (hi2 : i2 < 2 ^ 64) :
    ∃ n m, n.length ≤ 125 ∧ m.length ≤ 125 ∧ biobjOf get f i d i1 i2 = .ok
      (⟨some (idText biobjTemplate f i d), some (ident (pair f).1 i1 d ++ "__".toList ++ ident (pair f).2 i2 d),
        some ((group (pair f).1).toList ++ "_".toList ++ (group (pair f).2).toList)⟩,
       ⟨some (ident (pair f).1 i1 d), some n, some (group (pair f).1).toList⟩,
       ⟨some (ident (pair f).2 i2 d), some m, some (group (pair f).2).toList⟩) := by
  obtain ⟨hp, a1, a2, b1, b2⟩ := pair_ok h1 h2
  obtain ⟨⟨n, hn, hx⟩, hx1, hx2⟩ := hget (pair f).1 i1 a1 a2 hi1
  obtain ⟨⟨m, hm, hy⟩, hy1, hy2⟩ := hget (pair f).2 i2 b1 b2 hi2
  refine ⟨n, m, hn, hm, ?_⟩
  have hg := good biobjTemplate (by decide +kernel) (f := f) (by omega) hi hd
  have hs := pair_stacked (x := _) (y := _) (id := idText biobjTemplate f i d) rfl rfl ⟨hx1, hx2⟩ ⟨hy1, hy2⟩
    (group_length (pair f).1) (group_length (pair f).2) ⟨fine_idText hg.fine f i d, idText_length hg⟩ (n := n) (m := m)
  rw [biobjOf, hp, Res.ok_bind, hx, Res.ok_bind, hy, Res.ok_bind]
  generalize hS : stacked _ _ = S at hs ⊢
  cases S with
  | ok z =>
    rw [Res.ok_bind] at hs ⊢
    cases hN : nameFromId z with
    | ok z' =>
      rw [hN, Res.ok_bind] at hs
      rw [Res.ok_bind]
      cases hI : setId (idText biobjTemplate f i d) z' with
      | ok z'' =>
        rw [hI, Res.ok_bind] at hs
        rw [Res.ok_bind]
        simp only [] at hs ⊢
        rw [hs, Res.ok_bind]
      | error => rw [hI] at hs; simp [Res.bind] at hs
      | assertFail => rw [hI] at hs; simp [Res.bind] at hs
      | ub => rw [hI] at hs; simp [Res.bind] at hs
    | error => rw [hN] at hs; simp [Res.bind] at hs
    | assertFail => rw [hN] at hs; simp [Res.bind] at hs
    | ub => rw [hN] at hs; simp [Res.bind] at hs
  | error => simp [Res.bind] at hs
  | assertFail => simp [Res.bind] at hs
  | ub => simp [Res.bind] at hs

theorem biobj_ok {f i d i1 i2 : Nat} (h1 : 1 ≤ f) (h2 : f ≤ 92) (hi : i < 2 ^ 64) (hd : d < 2 ^ 64) (hi1 : i1 < 2 ^ 64)
    (hi2 : i2 < 2 ^ 64) : biobj f i d i1 i2 = .ok ⟨some (idText biobjTemplate f i d),
      some (idText bbobTemplate (pair f).1 i1 d ++ "__".toList ++ idText bbobTemplate (pair f).2 i2 d),
      some ((group (pair f).1).toList ++ "_".toList ++ (group (pair f).2).toList)⟩ := by
  obtain ⟨n, m, _, _, h⟩ := biobjOf_ok bbob (idText bbobTemplate) (i := i) (d := d) (i1 := i1) (i2 := i2) (by
    intro f i h1 h2 hi
    have hg := good bbobTemplate (by decide +kernel) (f := f) (by omega) hi hd
    exact ⟨⟨_, nameText_length hg, bbob_ok h1 h2 hi hd⟩, fine_idText hg.fine f i d, idText_length hg⟩) h1 h2 hi hd hi1 hi2
  rw [biobj, h, Res.ok_bind]

theorem biobjMixint_ok {f i d i1 i2 : Nat} (h1 : 1 ≤ f) (h2 : f ≤ 92) (h5 : d % 5 = 0) (hi : i < 2 ^ 64) (hd : d < 2 ^ 64)
    (hi1 : i1 < 2 ^ 64) (hi2 : i2 < 2 ^ 64) : biobjMixint f i d i1 i2 = .ok ⟨some (idText biobjMixintTemplate f i d),
      some (inner (pair f).1 i1 d ++ "__".toList ++ inner (pair f).2 i2 d),
      some ((group (pair f).1).toList ++ "_".toList ++ (group (pair f).2).toList)⟩ := by
  obtain ⟨hp, a1, a2, b1, b2⟩ := pair_ok h1 h2
  obtain ⟨n, m, hn, hm, h⟩ := biobjOf_ok cont inner (i := i) (d := d) (i1 := i1) (i2 := i2) (by
    intro f i h1 h2 hi
    exact ⟨cont_ok h1 h2 hi hd, inner_facts h2 hi hd⟩) h1 h2 hi hd hi1 hi2
  have hg := good biobjMixintTemplate (by decide +kernel) (f := f) (by omega) hi hd
  have hl := pre_length .varsDiscretize
  have hl' := pre_length .objScale
  have hw := wrapped_length .varsDiscretize n
  have hw' := wrapped_length .varsDiscretize m
  rw [biobjMixint, if_neg (by omega), h, Res.ok_bind]
  dsimp only
  rw [wrap_ok .varsDiscretize rfl (by omega), Res.ok_bind, wrap_ok .varsDiscretize rfl (by omega), Res.ok_bind,
    wrap_ok .objScale rfl (by omega), Res.ok_bind, wrap_ok .objScale rfl (by omega), Res.ok_bind]
  exact pair_stacked rfl rfl (inner_facts a2 hi1 hd) (inner_facts b2 hi2 hd) (group_length _) (group_length _)
    ⟨fine_idText hg.fine f i d, idText_length hg⟩

/-! ### Constrained suites -/

theorem template_facts (s : ConsSuite) : Problem.idIsFine s.template.id.toList = true ∧ s.template.id.toList.length ≤ 40 ∧
    s.template.title.toList.length ≤ 40 ∧ s.template.wf ≤ 20 ∧ s.template.wi ≤ 20 ∧ s.template.wd ≤ 20 := by
  cases s <;> decide +kernel

theorem single_ok {t : Template} {f i d : Nat} (hg : Good t f i d) : single t f i d =
    .ok ⟨some (idText t f i d), some (nameText t f i d), some "linear".toList⟩ := by
  have e1 : "linearconstraint".toList.length = 16 := by decide +kernel
  have e2 : "_d".toList.length = 2 := by decide +kernel
  have hz := zeros_length (w := 2) (by omega) hg.d
  have hl := idText_length hg
  have hn := nameText_length hg
  rw [single, setId_ok (by simp only [fine_append, fine_zeros]; decide +kernel)
    (by simp only [List.length_append]; omega), Res.ok_bind]
  have hw : ∀ id, wrap .consLinear ⟨id, none, none⟩ =
      .ok ⟨id, some ((pre .consLinear).toList ++ "(".toList ++ "(null)".toList ++ ")".toList), none⟩ := by
    intro id
    simp only [wrap, wrapped, setName, shown]
    rw [strdupf_ok _ (by decide +kernel), Res.ok_bind]
  rw [hw, Res.ok_bind, setId_ok (fine_idText hg.fine f i d) (by omega), Res.ok_bind, setName_ok (by omega), Res.ok_bind,
    setType_ok (by decide +kernel)]

/-- What holds for the constraints stacked so far. -/
structure Stacked (type : List Char) (x : Texts) : Prop where
  id : ∃ a, x.id = some a ∧ Problem.idIsFine a = true ∧ a.length ≤ 106
  name : ∃ n, x.name = some n ∧ n.length ≤ 214
  type : x.type = some type

theorem linear_twice : shown (some "linear".toList) ++ "_".toList ++ shown (some "linear".toList) = "linear_linear".toList := by
  decide +kernel

theorem stack_step {t : Template} {f i d : Nat} (hg : Good t f i d) {u : List Char} {x : Texts} (hx : Stacked u x) :
    ∃ y, Stacked "linear_linear".toList y ∧ ∀ k, stackLoop t f i d (k + 1) x = stackLoop t f i d k y := by
  obtain ⟨a, ha, ha1, ha2⟩ := hx.id
  obtain ⟨n, hn, hn1⟩ := hx.name
  have hl := idText_length hg
  have hs := good stackedTemplate (by decide +kernel) hg.f hg.i hg.d
  have hl' := idText_length hs
  have h2 := under2
  refine ⟨⟨some (idText stackedTemplate f i d), some (a ++ "__".toList ++ idText t f i d), some "linear_linear".toList⟩,
    ⟨⟨_, rfl, fine_idText hs.fine f i d, hl'⟩, ⟨_, rfl, by simp only [List.length_append]; omega⟩, rfl⟩, fun k => ?_⟩
  have h1 : stacked x ⟨some (idText t f i d), some (nameText t f i d), some "linear".toList⟩ =
      .ok ⟨some (a ++ "__".toList ++ idText t f i d), some (n ++ " + ".toList ++ nameText t f i d), none⟩ := by
    unfold stacked
    rw [ha, hn]
  rw [stackLoop, single_ok hg, Res.ok_bind, h1, Res.ok_bind,
    nameFromId_ok rfl (fine_stacked ha1 (fine_idText hg.fine f i d)) (by simp only [List.length_append]; omega), Res.ok_bind,
    setId_ok (fine_idText hs.fine f i d) (by omega), Res.ok_bind, linear_twice, setType_ok (by decide +kernel), Res.ok_bind]

theorem stackLoop_ok {t : Template} {f i d : Nat} (hg : Good t f i d) (k : Nat) {u : List Char} {x : Texts} (hx : Stacked u x) :
    ∃ y, stackLoop t f i d k x = .ok y ∧ Stacked (if k = 0 then u else "linear_linear".toList) y := by
  induction k generalizing u x with
  | zero => exact ⟨x, rfl, hx⟩
  | succ k ih =>
    obtain ⟨y, hy, he⟩ := stack_step hg hx
    obtain ⟨z, hz, hz'⟩ := ih hy
    refine ⟨z, (he k).trans hz, ?_⟩
    rw [ite_self] at hz'
    rwa [if_neg (Nat.succ_ne_zero k)]

theorem constraints_ok {t : Template} {f i d : Nat} (hg : Good t f i d) (k : Nat) : ∃ y, constraints t f i d k = .ok y ∧
    Stacked (if k = 0 then "linear".toList else "linear_linear".toList) y := by
  have hn := nameText_length hg
  rw [constraints, single_ok hg, Res.ok_bind]
  exact stackLoop_ok hg k ⟨⟨_, rfl, fine_idText hg.fine f i d, idText_length hg⟩, ⟨_, rfl, by omega⟩, rfl⟩

theorem codeGroup_length (f : Nat) : (codeGroup f).toList.length ≤ 19 := by
  unfold codeGroup
  split
  · decide +kernel
  · exact group_length _

theorem constrained_ok (s : ConsSuite) {f i d : Nat} (k : Nat) (h1 : 1 ≤ f) (h2 : f ≤ 54) (hi : i < 2 ^ 64) (hd : d < 2 ^ 64) :
    constrained s f i d k = .ok ⟨some (idText s.template f i d), some (nameText s.template f i d),
      some ((codeGroup f).toList ++ "_".toList ++ (if k = 0 then "linear".toList else "linear_linear".toList))⟩ := by
  have hg := good s.template (template_facts s) (f := f) (by omega) hi hd
  have h := cons_table (f - 1) (by omega)
  rw [Nat.sub_add_cancel h1] at h
  obtain ⟨⟨ss, ts⟩, h3, h4⟩ := bind_some h
  rw [Option.map_eq_some_iff] at h4
  obtain ⟨x, h5, h6⟩ := h4
  simp only [Prod.mk.injEq, decide_eq_true_eq] at h6
  obtain ⟨c, hc, hc'⟩ := constraints_ok hg k
  obtain ⟨a, ha, -, -⟩ := hc'.id
  obtain ⟨n, hn, hn1⟩ := hc'.name
  have hu := hc'.type
  have hl := nameText_length hg
  have hul : (if k = 0 then "linear".toList else "linear_linear".toList).length ≤ 13 := by
    split <;> decide +kernel
  have e3 : " + ".toList.length = 3 := by decide +kernel
  have e1 : (pre .varsShift).toList.length = 20 := by decide +kernel
  have e4 : (pre .objScale).toList.length = 19 := by decide +kernel
  have hgl := codeGroup_length f
  have hu1 := under1
  simp only [constrained, h3]
  rw [call_den (c := ⟨s.template, f, i, d, 0, false⟩) hg ss h5, h6.1, done_den, Res.ok_bind, hc, Res.ok_bind]
  simp only [stacked, ha, hn, hu]
  rw [Res.ok_bind]
  obtain ⟨m, hm, hw⟩ := wrapAll_ok ts (x := ⟨some (idText s.template f i d ++ "__".toList ++ a),
    some (nameText s.template f i d ++ " + ".toList ++ n), none⟩) rfl (by simp only [List.length_append]; omega)
  simp only [List.length_append] at hm
  have hw1 := wrapped_length .varsShift m
  rw [hw, Res.ok_bind, wrap_ok .varsShift rfl (by omega), Res.ok_bind,
    setType_ok (by simp only [shown, List.length_append]; omega), Res.ok_bind, wrap_ok .objScale rfl (by omega), Res.ok_bind,
    setId_ok (fine_idText hg.fine f i d) (by have := idText_length hg; omega), Res.ok_bind, setName_ok (by omega)]
  rfl

/-! ### C103 -/

theorem cons_id (s : ConsSuite) (f i d : Nat) : idText s.template f i d = ident s.name 3 2 2 f i d := by
  cases s <;> rfl

theorem cons_name (s : ConsSuite) (f i d : Nat) : nameText s.template f i d = s.name.toList ++ title " suite" f i d := by
  have h : s.template.title.toList = s.name.toList ++ " suite".toList := by cases s <;> decide +kernel
  simp only [nameText, title, h, List.append_assoc]

theorem cons_type (g : String) (k : Nat) : g.toList ++ "_".toList ++ (if k = 0 then "linear".toList else "linear_linear".toList) =
    g.toList ++ (if k = 0 then "_linear" else "_linear_linear").toList := by
  rw [List.append_assoc]
  congr 1
  split <;> decide +kernel

theorem sbox_id (f i d : Nat) : idText sboxTemplate f i d = ident "bbob-boxed" 3 2 2 f i d := rfl

theorem sbox_name (f i d : Nat) : "transform_vars_enforce_box".toList ++ "(".toList ++ nameText sboxTemplate f i d ++ ")".toList =
    "transform_vars_enforce_box(".toList ++ title "bbob-boxed suite" f i d ++ ")".toList := by
  have e : "transform_vars_enforce_box(".toList = "transform_vars_enforce_box".toList ++ "(".toList := by decide +kernel
  rw [e]
  rfl

/-- What `create` returns: the type of the rotated Rastrigin functions is that of the code. -/
noncomputable def codeType : Request → Option (List Char)
  | .constrained _ f _ _ k => some ((codeGroup f).toList ++ (if k = 0 then "_linear" else "_linear_linear").toList)
  | r => type r

theorem create_ok (r : Request) (h : Valid r) : create r = .ok ⟨some (Spec.id r), some (name r), codeType r⟩ := by
  cases r with
  | toy f i d =>
    have hs := small_two h.2.2
    exact toy_ok h.1 h.2.1 hs.2
  | bbob f i d =>
    have hs := small_two h.2.2
    exact bbob_ok h.1 h.2.1 hs.1 hs.2
  | largescale f i d =>
    have hs := small_two h.2.2
    exact largescale_ok h.1 h.2.1 hs.1 hs.2
  | sbox f i d =>
    have hs := small_two h.2.2
    have := sbox_ok h.1 h.2.1 hs.1 hs.2
    rw [sbox_id, sbox_name] at this
    exact this
  | noisy f i d =>
    have hs := small_two h.2.2
    exact noisy_ok h.1 h.2.1 hs.1 hs.2
  | mixint f i d =>
    have hs := small_two h.2.2.2
    exact mixint_ok h.1 h.2.1 h.2.2.1 hs.1 hs.2
  | biobj f i d i1 i2 =>
    have hs := small_four h.2.2
    exact biobj_ok h.1 h.2.1 hs.1 hs.2.1 hs.2.2.1 hs.2.2.2
  | biobjMixint f i d i1 i2 =>
    have hs := small_four h.2.2.2
    exact biobjMixint_ok h.1 h.2.1 h.2.2.1 hs.1 hs.2.1 hs.2.2.1 hs.2.2.2
  | constrained s f i d k =>
    have hs := small_two h.2.2
    have := constrained_ok s k h.1 h.2.1 hs.1 hs.2
    rw [cons_id, cons_name, cons_type] at this
    exact this

/-- **C103** Every problem of every suite, with any instance and dimension, can be created, and has the specified id and name; it
has the specified type unless it is a constrained problem with the rotated Rastrigin function. (Missing: the type of these,
see `C103_rotated_rastrigin`.) -/
theorem C103_texts_partial (r : Request) (h : Valid r) : ∃ t, create r = .ok ⟨some (Spec.id r), some (name r), t⟩ ∧
    (¬ RotatedRastrigin r → t = type r) := by
  refine ⟨codeType r, create_ok r h, ?_⟩
  intro hr
  cases r with
  | constrained s f i d k =>
    have : ¬ 49 ≤ f := hr
    simp only [codeType, codeGroup, if_neg this, type]
  | _ => rfl

/-- **C103** The rotated Rastrigin functions of the constrained suites (functions 49 to 54) have the type of a separable function. -/
theorem C103_rotated_rastrigin (s : ConsSuite) (f i d k : Nat) (h1 : 49 ≤ f) (h2 : f ≤ 54) (hs : Small [i, d]) :
    ∃ x, create (.constrained s f i d k) = .ok x ∧
      x.type = some ("1-separable".toList ++ (if k = 0 then "_linear" else "_linear_linear").toList) ∧
      x.type ≠ type (.constrained s f i d k) := by
  refine ⟨_, create_ok _ ⟨by omega, h2, hs⟩, ?_, ?_⟩
  · simp only [codeType, codeGroup, if_pos h1]
  · simp only [codeType, codeGroup, if_pos h1, type]
    intro h
    have hb : consBase f = 15 := by
      have : (f - 1) / 6 = 8 := by omega
      simp [consBase, this]
    rw [hb] at h
    have := List.append_cancel_right (Option.some.inj h)
    revert this
    decide +kernel

/-- **C103** An id consists of letters, digits, `-` and `_`. -/
theorem C103_characters (r : Request) (h : Valid r) (x : Texts) (hx : create r = .ok x) :
    ∃ s, x.id = some s ∧ s ≠ [] ∧ ∀ c ∈ s, c.isAlphanum = true ∨ c = '-' ∨ c = '_' := by
  have hid : Problem.idIsFine (Spec.id r) = true ∧ Spec.id r ≠ [] := by
    have hf : ∀ (s : String) (wf wi wd f i d : Nat), Problem.idIsFine s.toList = true →
        Problem.idIsFine (ident s wf wi wd f i d) = true ∧ ident s wf wi wd f i d ≠ [] := by
      intro s wf wi wd f i d h
      refine ⟨fine_idText (t := ⟨s, wf, wi, wd, ""⟩) h f i d, ?_⟩
      have e : "_f".toList = ['_', 'f'] := by decide +kernel
      simp [ident, e]
    cases r with
    | toy f i d =>
      have ht : Problem.idIsFine (toyTexts f).1.toList = true := by
        unfold toyTexts
        split <;> decide +kernel
      have e : "_d".toList = ['_', 'd'] := by decide +kernel
      refine ⟨?_, by simp [Spec.id, e]⟩
      simp only [Spec.id, fine_append, ht, ← zeros_eq, fine_zeros]
      decide +kernel
    | constrained s f i d k => exact hf _ _ _ _ _ _ _ (by cases s <;> decide +kernel)
    | bbob | largescale | sbox | noisy | mixint | biobj | biobjMixint => exact hf _ _ _ _ _ _ _ (by decide +kernel)
  rw [create_ok r h] at hx
  cases hx
  refine ⟨_, rfl, hid.2, ?_⟩
  intro c hc
  have := List.all_eq_true.mp hid.1 c hc
  simp only [Bool.or_eq_true, Bool.and_eq_true, decide_eq_true_eq, beq_iff_eq] at this
  simp only [Char.isAlphanum, Char.isAlpha, Char.isUpper, Char.isLower, Char.isDigit, Bool.or_eq_true, Bool.and_eq_true,
    decide_eq_true_eq]
  rcases this with ((h | h) | h | h) | h
  · exact Or.inl (Or.inl (Or.inl ⟨h.1, h.2⟩))
  · exact Or.inl (Or.inl (Or.inr ⟨h.1, h.2⟩))
  · exact Or.inr (Or.inr h)
  · exact Or.inr (Or.inl h)
  · exact Or.inl (Or.inr ⟨h.1, h.2⟩)

/-! ### Ids tell problems apart -/

theorem head_i (x : List Char) : ∀ c, ("_i".toList ++ x).head? = some c → c.isDigit = false := by
  intro c h
  rw [BiobjFiles.i_head] at h
  cases h
  decide

theorem head_d (x : List Char) : ∀ c, ("_d".toList ++ x).head? = some c → c.isDigit = false := by
  intro c h
  rw [BiobjFiles.d_head] at h
  cases h
  decide

theorem ident_numbers {s : String} {wf wi wd wf' wi' wd' f i d f' i' d' : Nat}
    (h : ident s wf wi wd f i d = ident s wf' wi' wd' f' i' d') : f = f' ∧ i = i' ∧ d = d' ∧ pad wd d = pad wd' d' := by
  unfold ident at h
  simp only [List.append_assoc, List.append_right_inj] at h
  obtain ⟨h1, h⟩ := InfoFile.digits_split _ _ _ _ (BiobjFiles.pad_digit wf f) (BiobjFiles.pad_digit wf' f') (head_i _) (head_i _) h
  simp only [List.append_right_inj] at h
  obtain ⟨h2, h⟩ := InfoFile.digits_split _ _ _ _ (BiobjFiles.pad_digit wi i) (BiobjFiles.pad_digit wi' i') (head_d _) (head_d _) h
  simp only [List.append_right_inj] at h
  have e := fun {w n w' n'} (h : pad w n = pad w' n') => (by
    have := congrArg CStr.decimal h
    rwa [BiobjFiles.decimal_pad, BiobjFiles.decimal_pad] at this : n = n')
  exact ⟨e h1, e h2, e h, h⟩

theorem pad_widths {d : Nat} (hd : d < 1000) : pad 2 d ≠ pad 4 d := by
  intro h
  have hl : (dec d).length ≤ 3 := (Nat.length_toDigits_le_iff (by decide) (by decide)).mpr (by omega)
  have := congrArg List.length h
  simp only [pad, List.length_append, List.length_replicate] at this
  omega

/-- The part of an id before the numbers. -/
def stem : Request → List Char
  | .toy f _ _ => (toyTexts f).1.toList ++ "_d".toList
  | .bbob _ _ _ | .largescale _ _ _ => "bbob_f".toList
  | .sbox _ _ _ => "bbob-boxed_f".toList
  | .noisy _ _ _ => "bbob_noisy_f".toList
  | .mixint _ _ _ => "bbob-mixint_f".toList
  | .biobj _ _ _ _ _ => "bbob-biobj_f".toList
  | .biobjMixint _ _ _ _ _ => "bbob-biobj-mixint_f".toList
  | .constrained .plain _ _ _ _ => "bbob-constrained_f".toList
  | .constrained .activeOnly _ _ _ _ => "bbob-constrained-active-only_f".toList
  | .constrained .noDisguise _ _ _ _ => "bbob-constrained-no-disguise_f".toList

/-- All such parts. -/
def stems : List (List Char) :=
  ["sphere_d", "ellipsoid_d", "rastrigin_d", "bueche-rastrigin_d", "linear_slope_d", "rosenbrock_d", "bbob_f", "bbob-boxed_f",
   "bbob_noisy_f", "bbob-mixint_f", "bbob-biobj_f", "bbob-biobj-mixint_f", "bbob-constrained_f", "bbob-constrained-active-only_f",
   "bbob-constrained-no-disguise_f"].map String.toList

theorem stems_free : ∀ a ∈ stems, ∀ b ∈ stems, a <+: b → a = b := by decide +kernel

theorem toy_stem : ∀ f ≤ 6, 1 ≤ f → (toyTexts f).1.toList ++ "_d".toList ∈ stems := by decide +kernel

theorem toy_stem_inj : ∀ f ≤ 6, ∀ f' ≤ 6, 1 ≤ f → 1 ≤ f' → (toyTexts f).1.toList ++ "_d".toList =
    (toyTexts f').1.toList ++ "_d".toList → f = f' := by decide +kernel

theorem stem_mem (r : Request) (h : Valid r) : stem r ∈ stems := by
  cases r with
  | toy f i d => exact toy_stem f h.2.1 h.1
  | constrained s =>
    cases s
    · exact (by decide +kernel : "bbob-constrained_f".toList ∈ stems)
    · exact (by decide +kernel : "bbob-constrained-active-only_f".toList ∈ stems)
    · exact (by decide +kernel : "bbob-constrained-no-disguise_f".toList ∈ stems)
  | bbob | largescale => exact (by decide +kernel : "bbob_f".toList ∈ stems)
  | sbox => exact (by decide +kernel : "bbob-boxed_f".toList ∈ stems)
  | noisy => exact (by decide +kernel : "bbob_noisy_f".toList ∈ stems)
  | mixint => exact (by decide +kernel : "bbob-mixint_f".toList ∈ stems)
  | biobj => exact (by decide +kernel : "bbob-biobj_f".toList ∈ stems)
  | biobjMixint => exact (by decide +kernel : "bbob-biobj-mixint_f".toList ∈ stems)

theorem id_stem (r : Request) : ∃ x, Spec.id r = stem r ++ x := by
  have hf : ∀ (s t : String) (wf wi wd f i d : Nat), t.toList = s.toList ++ "_f".toList →
      ∃ x, ident s wf wi wd f i d = t.toList ++ x := by
    intro s t wf wi wd f i d h
    refine ⟨pad wf f ++ "_i".toList ++ pad wi i ++ "_d".toList ++ pad wd d, ?_⟩
    simp only [ident, h, List.append_assoc]
  cases r with
  | toy f i d => exact ⟨_, rfl⟩
  | constrained s => cases s <;> exact hf _ _ _ _ _ _ _ _ (by decide +kernel)
  | bbob | largescale | sbox | noisy | mixint | biobj | biobjMixint => exact hf _ _ _ _ _ _ _ _ (by decide +kernel)

theorem stem_eq {r r' : Request} (h : Valid r) (h' : Valid r') (he : Spec.id r = Spec.id r') : stem r = stem r' := by
  obtain ⟨x, hx⟩ := id_stem r
  obtain ⟨y, hy⟩ := id_stem r'
  rw [hx, hy] at he
  rcases List.prefix_or_prefix_of_prefix (List.prefix_append (stem r) x) (he ▸ List.prefix_append (stem r') y) with hp | hp
  · exact stems_free _ (stem_mem r h) _ (stem_mem r' h') hp
  · exact (stems_free _ (stem_mem r' h') _ (stem_mem r h) hp).symm

theorem bbob_largescale {f i d f' i' d' : Nat} (hd : d < 1000)
    (h : ident "bbob" 3 2 2 f i d = ident "bbob" 3 2 4 f' i' d') : False := by
  obtain ⟨-, -, h3, h4⟩ := ident_numbers h
  rw [← h3] at h4
  exact pad_widths hd h4

/-- The text before the number of the function, or that there is none. -/
def base : Request → Option String
  | .toy _ _ _ => none
  | .bbob _ _ _ | .largescale _ _ _ => some "bbob"
  | .sbox _ _ _ => some "bbob-boxed"
  | .noisy _ _ _ => some "bbob_noisy"
  | .mixint _ _ _ => some "bbob-mixint"
  | .biobj _ _ _ _ _ => some "bbob-biobj"
  | .biobjMixint _ _ _ _ _ => some "bbob-biobj-mixint"
  | .constrained s _ _ _ _ => some s.name

/-- What a stem ends with decides whether it is that of a toy problem. -/
def baseOf (x : List Char) : Option String :=
  if x.getLast? = some 'd' then none else some (String.ofList (x.dropLast.dropLast))

theorem toy_base : ∀ f ≤ 6, baseOf ((toyTexts f).1.toList ++ "_d".toList) = none := by decide +kernel

theorem baseOf_stem (r : Request) (h : Valid r) : baseOf (stem r) = base r := by
  cases r with
  | toy f i d => exact toy_base f h.2.1
  | constrained s =>
    cases s
    · exact (by decide +kernel : baseOf "bbob-constrained_f".toList = some "bbob-constrained")
    · exact (by decide +kernel : baseOf "bbob-constrained-active-only_f".toList = some "bbob-constrained-active-only")
    · exact (by decide +kernel : baseOf "bbob-constrained-no-disguise_f".toList = some "bbob-constrained-no-disguise")
  | bbob | largescale => exact (by decide +kernel : baseOf "bbob_f".toList = some "bbob")
  | sbox => exact (by decide +kernel : baseOf "bbob-boxed_f".toList = some "bbob-boxed")
  | noisy => exact (by decide +kernel : baseOf "bbob_noisy_f".toList = some "bbob_noisy")
  | mixint => exact (by decide +kernel : baseOf "bbob-mixint_f".toList = some "bbob-mixint")
  | biobj => exact (by decide +kernel : baseOf "bbob-biobj_f".toList = some "bbob-biobj")
  | biobjMixint => exact (by decide +kernel : baseOf "bbob-biobj-mixint_f".toList = some "bbob-biobj-mixint")

theorem id_base (r : Request) {b : String} (h : base r = some b) :
    ∃ wf wi wd, Spec.id r = ident b wf wi wd (numbers r).1 (numbers r).2.1 (numbers r).2.2 := by
  cases r with
  | toy f i d => cases h
  | constrained s f i d k => cases h; exact ⟨_, _, _, rfl⟩
  | bbob | largescale | sbox | noisy | mixint | biobj | biobjMixint => cases h; exact ⟨_, _, _, rfl⟩

theorem base_suite {r r' : Request} (h : base r = base r') : suite r = suite r' ∨
    (∃ f i d f' i' d', r = .bbob f i d ∧ r' = .largescale f' i' d') ∨
    (∃ f i d f' i' d', r = .largescale f i d ∧ r' = .bbob f' i' d') := by
  cases r <;> cases r' <;>
    first
      | exact Or.inl rfl
      | exact Or.inr (Or.inl ⟨_, _, _, _, _, _, rfl, rfl⟩)
      | exact Or.inr (Or.inr ⟨_, _, _, _, _, _, rfl, rfl⟩)
      | (simp only [base, Option.some.injEq, reduceCtorEq] at h; done)
      | (simp only [base, Option.some.injEq] at h; exact absurd h (by decide))
      | (rename_i s _ _ _ _; cases s <;> simp only [base, ConsSuite.name, Option.some.injEq] at h <;> exact absurd h (by decide))
      | (rename_i s _ _ _ _ _ _ _; cases s <;> simp only [base, ConsSuite.name, Option.some.injEq] at h <;>
          exact absurd h (by decide))
      | (rename_i s _ _ _ _ _ _ _ _ _; cases s <;> simp only [base, ConsSuite.name, Option.some.injEq] at h <;>
          exact absurd h (by decide))
      | exact Or.inl (Option.some.inj h)

/-- Two problems with the same id, of dimensions below 1000, are of the same suite and have the same function and dimension; unless
they are toy problems, they have the same instance. -/
theorem id_inj {r r' : Request} (h : Valid r) (h' : Valid r') (hd : (numbers r).2.2 < 1000)
    (he : Spec.id r = Spec.id r') : suite r = suite r' ∧ (numbers r).1 = (numbers r').1 ∧ (numbers r).2.2 = (numbers r').2.2 ∧
    (suite r ≠ "toy" → (numbers r).2.1 = (numbers r').2.1) := by
  have hs := stem_eq h h' he
  have hb : base r = base r' := by rw [← baseOf_stem r h, ← baseOf_stem r' h', hs]
  cases hbr : base r with
  | none =>
    rw [hbr] at hb
    have ht : ∀ q : Request, base q = none → ∃ f i d, q = .toy f i d := by
      intro q hq
      cases q with
      | toy f i d => exact ⟨f, i, d, rfl⟩
      | _ => cases hq
    obtain ⟨f, i, d, rfl⟩ := ht r hbr
    obtain ⟨f', i', d', rfl⟩ := ht r' hb.symm
    have hf := toy_stem_inj f h.2.1 f' h'.2.1 h.1 h'.1 hs
    refine ⟨rfl, hf, ?_, fun hn => absurd rfl hn⟩
    have hp : pad 2 d = pad 2 d' := by
      have he' : stem (.toy f i d) ++ pad 2 d = stem (.toy f' i' d') ++ pad 2 d' := he
      rw [hs] at he'
      exact List.append_cancel_left he'
    have := congrArg CStr.decimal hp
    rwa [BiobjFiles.decimal_pad, BiobjFiles.decimal_pad] at this
  | some b =>
    obtain ⟨wf, wi, wd, h1⟩ := id_base r hbr
    obtain ⟨wf', wi', wd', h2⟩ := id_base r' (hb ▸ hbr)
    have hn := h1.symm.trans (he.trans h2)
    obtain ⟨hf, hi, hd', -⟩ := ident_numbers hn
    refine ⟨?_, hf, hd', fun _ => hi⟩
    rcases base_suite hb with h3 | ⟨f, i, d, f', i', d', rfl, rfl⟩ | ⟨f, i, d, f', i', d', rfl, rfl⟩
    · exact h3
    · exact (bbob_largescale hd he).elim
    · exact (bbob_largescale (lt_of_eq_of_lt hd'.symm hd) he.symm).elim

/-- **C103** Two problems of the suites that have the same id, of dimensions below 1000, are of the same suite and have the same
function, dimension and instance, unless they are of the toy suite. (Missing: the toy suite, see `C103_toy_duplicates`, and large
dimensions, see `C103_wide_duplicates`.) -/
theorem C103_unique_partial (r r' : Request) (h : Valid r) (h' : Valid r') (hd : (numbers r).2.2 < 1000) (x x' : Texts)
    (hx : create r = .ok x) (hx' : create r' = .ok x') (he : x.id = x'.id) :
    suite r = suite r' ∧ (suite r ≠ "toy" → numbers r = numbers r') := by
  rw [create_ok r h] at hx
  rw [create_ok r' h'] at hx'
  cases hx
  cases hx'
  obtain ⟨h1, h2, h3, h4⟩ := id_inj h h' hd (Option.some.inj he)
  exact ⟨h1, fun hn => Prod.ext h2 (Prod.ext (h4 hn) h3)⟩

/-- **C103** All instances of a function of the toy suite in a dimension have the same id and the same name. -/
theorem C103_toy_duplicates (f i i' d : Nat) (h1 : 1 ≤ f) (h2 : f ≤ 6) (hs : Small [i, i', d]) : ∃ x,
    create (.toy f i d) = .ok x ∧ create (.toy f i' d) = .ok x := by
  simp only [Spec.Small, List.mem_cons, List.not_mem_nil, or_false, forall_eq_or_imp, forall_eq] at hs
  exact ⟨_, create_ok (.toy f i d) ⟨h1, h2, by simpa [Spec.Small] using ⟨hs.1, hs.2.2⟩⟩,
    create_ok (.toy f i' d) ⟨h1, h2, by simpa [Spec.Small] using hs.2⟩⟩

/-- **C103** From dimension 1000 on, the same function and instance of the suites bbob and bbob-largescale have the same id. -/
theorem C103_wide_duplicates (f i d : Nat) (h1 : 1 ≤ f) (h2 : f ≤ 24) (hs : Small [i, d]) (hd : 1000 ≤ d) : ∃ x x',
    create (.bbob f i d) = .ok x ∧ create (.largescale f i d) = .ok x' ∧ x.id = x'.id := by
  refine ⟨_, _, create_ok (.bbob f i d) ⟨h1, h2, hs⟩, create_ok (.largescale f i d) ⟨h1, h2, hs⟩, ?_⟩
  have hl : 4 ≤ (dec d).length := by
    have : ¬ (dec d).length ≤ 3 := by
      intro h
      have := (Nat.length_toDigits_le_iff (b := 10) (by decide) (by decide)).mp h
      omega
    omega
  have e2 : 2 - (dec d).length = 0 := by omega
  have e4 : 4 - (dec d).length = 0 := by omega
  have : pad 2 d = pad 4 d := by simp only [pad, e2, e4]
  simp only [Spec.id, ident, this]

/-! ### Observers -/

theorem added_cons (o : List Char) (os : List (List Char)) : added (o :: os) = o.length + 2 + added os := by simp [added]

theorem around_length (o n : List Char) : (o ++ "(".toList ++ n ++ ")".toList).length = o.length + n.length + 2 := by
  have hp : "(".toList.length = 1 ∧ ")".toList.length = 1 := by decide +kernel
  simp only [List.length_append]
  omega

theorem nested_length (os : List (List Char)) (n : List Char) : (nested os n).length = n.length + added os := by
  induction os generalizing n with
  | nil => rfl
  | cons o os ih =>
    have h0 := added_cons o os
    have hl := around_length o n
    rw [nested, ih]
    omega

theorem observe_append (os os' : List (List Char)) (x : Texts) : observe (os ++ os') x = (observe os x).bind (observe os') := by
  induction os generalizing x with
  | nil => rfl
  | cons o os ih =>
    rw [List.cons_append, observe, observe]
    cases wrapped o x with
    | ok y => exact ih y
    | _ => rfl

theorem observe_ok : ∀ (os : List (List Char)) (n : List Char) (i t : Option (List Char)), n.length + added os ≤ 441 →
    observe os ⟨i, some n, t⟩ = .ok ⟨i, some (nested os n), t⟩
  | [], n, i, t, _ => rfl
  | o :: os, n, i, t, h => by
    have h0 := added_cons o os
    have hl := around_length o n
    have hw : wrapped o ⟨i, some n, t⟩ = .ok ⟨i, some (o ++ "(".toList ++ n ++ ")".toList), t⟩ :=
      setName_ok (s := o ++ "(".toList ++ n ++ ")".toList) (by omega) _
    rw [observe, hw, Res.ok_bind]
    exact observe_ok os _ i t (by omega)

theorem observe_not_ok : ∀ (os : List (List Char)) (n : List Char) (i t : Option (List Char)) (x : Texts), os ≠ [] →
    441 < n.length + added os → observe os ⟨i, some n, t⟩ ≠ .ok x
  | [], _, _, _, _, h, _ => absurd rfl h
  | o :: os, n, i, t, x, _, h => by
    have h0 := added_cons o os
    have hl := around_length o n
    by_cases hs : (o ++ "(".toList ++ n ++ ")".toList).length ≤ 441
    · have hw : wrapped o ⟨i, some n, t⟩ = .ok ⟨i, some (o ++ "(".toList ++ n ++ ")".toList), t⟩ :=
        setName_ok hs _
      rw [observe, hw, Res.ok_bind]
      refine observe_not_ok os _ i t x ?_ (by omega)
      rintro rfl
      have : added [] = 0 := rfl
      omega
    · have hw : ∀ y, wrapped o ⟨i, some n, t⟩ ≠ .ok y := by
        intro y
        show (strdupf (o ++ "(".toList ++ n ++ ")".toList)).bind _ ≠ _
        unfold strdupf
        by_cases h4 : 444 < (o ++ "(".toList ++ n ++ ")".toList).length + 1
        · rw [if_pos h4]
          intro h
          cases h
        · rw [if_neg h4, if_pos (by omega)]
          intro h
          cases h
      rw [observe]
      cases hw' : wrapped o ⟨i, some n, t⟩ with
      | ok y => exact absurd hw' (hw y)
      | error => intro h; cases h
      | assertFail => intro h; cases h
      | ub => intro h; cases h

/-- **C103** Observers added to a problem in turn surround its name by their names and leave its id and type as they are, as long as
there is space for the name. (Missing: names of more than 441 characters; adding these observers fails.) -/
theorem C103_observers_partial (r : Request) (h : Valid r) (os : List (List Char)) (hl : (name r).length + added os ≤ 441)
    (x : Texts) (hx : create r = .ok x) :
    ∃ y, observe os x = .ok y ∧ y.name = some (nested os (name r)) ∧ y.id = x.id ∧ y.type = x.type := by
  rw [create_ok r h] at hx
  cases hx
  exact ⟨_, observe_ok os _ _ _ hl, rfl, rfl, rfl⟩

/-- **C103** There is space for the name if and only if it has at most 441 characters. -/
theorem C103_observers_space (r : Request) (h : Valid r) (os : List (List Char)) (ho : os ≠ []) (x : Texts)
    (hx : create r = .ok x) : (∃ y, observe os x = .ok y) ↔ (nested os (name r)).length ≤ 441 := by
  rw [create_ok r h] at hx
  cases hx
  rw [nested_length]
  constructor
  · rintro ⟨y, hy⟩
    by_contra hc
    exact observe_not_ok os _ _ _ y ho (by omega) hy
  · intro hl
    exact ⟨_, observe_ok os _ _ _ hl⟩

theorem observe_overrun (os : List (List Char)) (o n : List Char) (i t : Option (List Char)) (h1 : n.length + added os ≤ 441)
    (h2 : 442 ≤ n.length + added os + o.length) : observe (os ++ [o]) ⟨i, some n, t⟩ = .ub := by
  have hl := around_length o (nested os n)
  have hn := nested_length os n
  have hw : wrapped o ⟨i, some (nested os n), t⟩ = .ub := by
    show (strdupf (o ++ "(".toList ++ nested os n ++ ")".toList)).bind _ = _
    unfold strdupf
    rw [if_pos (by omega)]
    rfl
  rw [observe_append, observe_ok os n i t h1, Res.ok_bind, observe, hw]
  rfl

/-- **C103** An observer more than there is space for writes beyond the buffer: 68 observers named `bbob` on the first problem of the
bbob suite. -/
theorem C103_observers_overrun : ∃ x, create (.bbob 1 1 2) = .ok x ∧ observe (List.replicate 68 "bbob".toList) x = .ub := by
  have hs : Small [1, 2] := by unfold Spec.Small; decide
  refine ⟨_, create_ok (.bbob 1 1 2) ⟨by decide, by decide, hs⟩, ?_⟩
  have hn : (name (.bbob 1 1 2)).length = 38 := by
    show (title "BBOB suite" 1 1 2).length = 38
    decide +kernel
  have ha : added (List.replicate 67 "bbob".toList) = 402 := by decide +kernel
  have hb : "bbob".toList.length = 4 := by decide +kernel
  exact observe_overrun (List.replicate 67 "bbob".toList) "bbob".toList _ _ _ (by omega) (by omega)

/-- **C103** A function number that is not in the suite is an error. -/
theorem C103_unknown (s : ConsSuite) (f i d k : Nat) :
    (f = 0 ∨ 24 < f → create (.bbob f i d) = .error ∧ create (.largescale f i d) = .error ∧ create (.sbox f i d) = .error ∧
      create (.mixint f i d) = .error) ∧
    (f = 0 ∨ 6 < f → create (.toy f i d) = .error) ∧
    (f < 101 ∨ 130 < f → create (.noisy f i d) = .error) ∧
    (54 < f → create (.constrained s f i d k) = .error) ∧
    (f = 0 ∨ 92 < f → ∀ i1 i2, create (.biobj f i d i1 i2) = .error ∧ create (.biobjMixint f i d i1 i2) = .error) := by
  refine ⟨fun h => ?_, fun h => ?_, fun h => ?_, fun h => ?_, fun h i1 i2 => ?_⟩
  · have h1 : Memory.bbobScript f = none := by
      unfold Memory.bbobScript
      split <;> first | omega | rfl
    have h2 : Memory.largescaleScript f = none := by
      unfold Memory.largescaleScript
      split <;> first | omega | rfl
    have e1 : bbob f i d = .error := by rw [bbob, h1, call]
    have e2 : largescale f i d = .error := by rw [largescale, h2, call]
    refine ⟨e1, e2, ?_, ?_⟩
    · show sbox f i d = .error
      rw [sbox, h1, call]
      rfl
    · show mixint f i d = .error
      unfold mixint
      split
      · rfl
      · rw [cont]
        split
        · rw [e1]; rfl
        · rw [e2]; rfl
  · have h1 : Memory.toyScript f = none := by
      unfold Memory.toyScript
      split <;> first | omega | rfl
    show Identity.toy f d = .error
    rw [Identity.toy, h1, call]
  · have h1 : Memory.noisyScript f = none := by
      unfold Memory.noisyScript
      split <;> first | omega | rfl
    show noisy f i d = .error
    rw [noisy, h1]
  · have h1 : Memory.consScript ((f + 5) / 6) = none := by
      have : 10 ≤ (f + 5) / 6 := by omega
      generalize (f + 5) / 6 = g at this
      unfold Memory.consScript
      split <;> first | omega | rfl
    show constrained s f i d k = .error
    rw [constrained, h1]
  · have h1 := Biobj.C59_numbers.2 f h
    have h2 : ∀ get, biobjOf get f i d i1 i2 = .error := by
      intro get
      rw [biobjOf, h1]
      rfl
    refine ⟨?_, ?_⟩
    · show biobj f i d i1 i2 = .error
      rw [biobj, h2]
      rfl
    · show biobjMixint f i d i1 i2 = .error
      unfold biobjMixint
      split
      · rfl
      · rw [h2]
        rfl

/-! ### Problems of the bi-objective suites, observed -/

/-- The observed problem is one of the suite with the format `F` of ids, made by `get` from function, instance and dimension (and the
instances of its two functions). -/
def Made (F : BiobjFiles.Spec.Format) (get : Nat → Nat → Nat → Nat → Nat → Request) (r : BiobjFiles.Run) : Prop :=
  ∃ i1 i2 x, Valid (get r.function r.inst r.dimension i1 i2) ∧ create (get r.function r.inst r.dimension i1 i2) = .ok x ∧
    r.suite = F.suite ∧ x.id = some r.id ∧ x.type = some r.ptype

theorem group_slash (f : Nat) : '/' ∉ (group f).toList := by
  unfold group
  split
  · decide +kernel
  · split
    · decide +kernel
    · split
      · decide +kernel
      · split <;> decide +kernel

theorem made_ok {F : BiobjFiles.Spec.Format} {get : Nat → Nat → Nat → Nat → Nat → Request}
    (hid : ∀ f i d i1 i2, Valid (get f i d i1 i2) → Spec.id (get f i d i1 i2) = BiobjFiles.Spec.ident F f i d ∧
      (Spec.id (get f i d i1 i2)).length ≤ 106)
    (ht : ∀ f i d i1 i2, codeType (get f i d i1 i2) = some ((group (pair f).1).toList ++ "_".toList ++ (group (pair f).2).toList))
    {r : BiobjFiles.Run} (h : Made F get r) : BiobjFiles.Spec.Valid F r ∧
      r.ptype = (group (pair r.function).1).toList ++ "_".toList ++ (group (pair r.function).2).toList := by
  obtain ⟨i1, i2, x, h1, h2, h3, h4, h5⟩ := h
  obtain ⟨hi, hl⟩ := hid _ _ _ _ _ h1
  rw [create_ok _ h1] at h2
  cases h2
  have hr : Spec.id (get r.function r.inst r.dimension i1 i2) = r.id := Option.some.inj h4
  have hp : r.ptype = (group (pair r.function).1).toList ++ "_".toList ++ (group (pair r.function).2).toList := by
    have h6 : codeType (get r.function r.inst r.dimension i1 i2) = some r.ptype := h5
    rw [ht] at h6
    exact (Option.some.inj h6).symm
  have hg1 := group_length (pair r.function).1
  have hg2 := group_length (pair r.function).2
  have hu : "_".toList.length = 1 := by decide +kernel
  have hs : '/' ∉ "_".toList := by decide +kernel
  refine ⟨⟨h3, by rw [← hr, hi], ?_, ?_, by rw [← hr]; omega⟩, hp⟩
  · rw [hp, List.mem_append, List.mem_append]
    rintro ((h | h) | h)
    · exact group_slash _ h
    · exact hs h
    · exact group_slash _ h
  · rw [hp, List.length_append, List.length_append]
    omega

theorem made_folder {F : BiobjFiles.Spec.Format} {get : Nat → Nat → Nat → Nat → Nat → Request}
    (hid : ∀ f i d i1 i2, Valid (get f i d i1 i2) → Spec.id (get f i d i1 i2) = BiobjFiles.Spec.ident F f i d ∧
      (Spec.id (get f i d i1 i2)).length ≤ 106)
    (ht : ∀ f i d i1 i2, codeType (get f i d i1 i2) = some ((group (pair f).1).toList ++ "_".toList ++ (group (pair f).2).toList))
    (hF : '_' ∉ F.name) (c : BiobjFiles.Conf) (hc : BiobjFiles.Spec.Fits c) (rs : List BiobjFiles.Run)
    (hr : ∀ r ∈ rs, Made F get r) :
    ∃ s bs, BiobjFiles.experiment c BiobjFiles.start rs = .ok s ∧ BiobjFiles.Spec.Describes c F rs s.disk bs := by
  refine BiobjFiles.C100_folder c F rs hc hF (fun r h => (made_ok hid ht (hr r h)).1) ?_
  intro r h r' h' he
  rw [(made_ok hid ht (hr r h)).2, (made_ok hid ht (hr r' h')).2, he]

/-- The ids of the suites bbob-biobj and bbob-biobj-ext. -/
def biobjFormat (suite : List Char) : BiobjFiles.Spec.Format := ⟨suite, "bbob-biobj".toList, 2, 2, 2⟩

/-- The ids of the suite bbob-biobj-mixint. -/
def biobjMixintFormat : BiobjFiles.Spec.Format := ⟨"bbob-biobj-mixint".toList, "bbob-biobj-mixint".toList, 3, 2, 3⟩

/-- **C103** Problems of the suite bbob-biobj (or bbob-biobj-ext), in any order and with any instances and dimensions, are problems as
they are supposed for the result folder of the bi-objective observer (C100): the files are those described there. -/
theorem C103_biobj_observable (suite : List Char) (c : BiobjFiles.Conf) (hc : BiobjFiles.Spec.Fits c) (rs : List BiobjFiles.Run)
    (hr : ∀ r ∈ rs, Made (biobjFormat suite) .biobj r) : ∃ s bs, BiobjFiles.experiment c BiobjFiles.start rs = .ok s ∧
      BiobjFiles.Spec.Describes c (biobjFormat suite) rs s.disk bs := by
  refine made_folder ?_ (fun _ _ _ _ _ => rfl) (by decide +kernel : '_' ∉ "bbob-biobj".toList) c hc rs hr
  intro f i d i1 i2 h
  have hs := small_four h.2.2
  have hg := good biobjTemplate (by decide +kernel) (f := f) (i := i) (d := d) (by have := h.2.1; omega) hs.1 hs.2.1
  refine ⟨rfl, ?_⟩
  have := idText_length hg
  exact this

/-- **C103** The same holds for the suite bbob-biobj-mixint. -/
theorem C103_biobj_mixint_observable (c : BiobjFiles.Conf) (hc : BiobjFiles.Spec.Fits c) (rs : List BiobjFiles.Run)
    (hr : ∀ r ∈ rs, Made biobjMixintFormat .biobjMixint r) : ∃ s bs, BiobjFiles.experiment c BiobjFiles.start rs = .ok s ∧
      BiobjFiles.Spec.Describes c biobjMixintFormat rs s.disk bs := by
  refine made_folder ?_ (fun _ _ _ _ _ => rfl) (by decide +kernel : '_' ∉ "bbob-biobj-mixint".toList) c hc rs hr
  intro f i d i1 i2 h
  have hs := small_four h.2.2.2
  have hg := good biobjMixintTemplate (by decide +kernel) (f := f) (i := i) (d := d) (by have := h.2.1; omega) hs.1 hs.2.1
  refine ⟨rfl, ?_⟩
  have := idText_length hg
  exact this

/-! ### Cases -/

example : create (.bbob 7 3 20) = .ok ⟨some "bbob_f007_i03_d20".toList, some "BBOB suite problem f7 instance 3 in 20D".toList,
    some "2-moderate".toList⟩ := by
  have hs : Small [3, 20] := by unfold Spec.Small; decide
  have h := create_ok (.bbob 7 3 20) ⟨by decide, by decide, hs⟩
  have h1 : ident "bbob" 3 2 2 7 3 20 = "bbob_f007_i03_d20".toList := by decide +kernel
  have h2 : title "BBOB suite" 7 3 20 = "BBOB suite problem f7 instance 3 in 20D".toList := by decide +kernel
  rw [← h1, ← h2]
  exact h

example : create (.constrained .plain 50 2 10 2) = .ok ⟨some "bbob-constrained_f050_i02_d10".toList,
    some "bbob-constrained suite problem f50 instance 2 in 10D".toList, some "1-separable_linear_linear".toList⟩ := by
  have hs : Small [2, 10] := by unfold Spec.Small; decide
  have h := create_ok (.constrained .plain 50 2 10 2) ⟨by decide, by decide, hs⟩
  have h1 : ident "bbob-constrained" 3 2 2 50 2 10 = "bbob-constrained_f050_i02_d10".toList := by decide +kernel
  have h2 : "bbob-constrained".toList ++ title " suite" 50 2 10 = "bbob-constrained suite problem f50 instance 2 in 10D".toList := by
    decide +kernel
  have h3 : "1-separable".toList ++ "_linear_linear".toList = "1-separable_linear_linear".toList := by decide +kernel
  rw [← h1, ← h2, ← h3]
  exact h

/-- The first problem of the example of C100 is a problem of the suite. -/
example : Made (biobjFormat "bbob-biobj".toList) .biobj (BiobjFiles.exampleRun BiobjFiles.exampleFormat 1 5 1 7) := by
  have hs : Small [1, 5, 2, 4] := by unfold Spec.Small; decide
  have hv : Valid (.biobj 1 1 5 2 4) := ⟨by decide, by decide, hs⟩
  refine ⟨2, 4, _, hv, create_ok _ hv, rfl, rfl, ?_⟩
  have hp : pair 1 = (1, 1) := by
    have : Biobj.functions 1 = .ok (1, 1) := by
      rw [Biobj.functions_eq]
      decide +kernel
    rw [pair, this]
  show some ((group (pair 1).1).toList ++ "_".toList ++ (group (pair 1).2).toList) = some _
  rw [hp]
  exact congrArg some (by decide +kernel : (group 1).toList ++ "_".toList ++ (group 1).toList = "1-separable_1-separable".toList)

/-- Two observers. -/
example : nested ["bbob".toList, "toy".toList] "p".toList = "toy(bbob(p))".toList := by decide +kernel

end Identity
