import Mathlib.Data.List.Basic
import Mathlib.Data.List.Range
import Mathlib.Data.List.Nodup
import Mathlib.Tactic.Linarith
import Mathlib.Tactic.IntervalCases
import Verif.Model.FileSystem
import Verif.Props.Observer

/-!
# Paths, directories and unique names: C48, C81, C82
-/

namespace FileSystem
open Observer (strdupf)

namespace Spec

/-- The path and the components, separated by `/`. -/
def join (path : List Char) (components : List (List Char)) : List Char :=
  components.foldl (fun p c => if p = [] then c else p ++ '/' :: c) path

/-- `q` is a proper, nonempty ancestor of `path`. -/
def Above (q path : List Char) : Prop := q ≠ [] ∧ ∃ r, path = q ++ '/' :: r

/-- The names tried: the name itself, then the name with `-0001` to `-9998`. -/
def candidates (name : List Char) : List (List Char) :=
  name :: (List.range' 1 9998).map fun k => name ++ '-' :: pad4 k

/-- A path of the form `C:`, which is never created. -/
def Drive (p : List Char) : Prop := p.length = 2 ∧ p[1]? = some ':'

/-- All ancestors of the path are directories or absent, and none is a drive. -/
def Clear (fs : FS) (path : List Char) : Prop :=
  ∀ q, Above q path → fs q ≠ some .file ∧ ¬ Drive q

/-- `fs'` is `fs` with the absent paths among those in `S` made directories. -/
structure Created (S : List Char → Prop) (fs fs' : FS) : Prop where
  keeps : ∀ q, fs q ≠ none → fs' q = fs q
  adds : ∀ q, S q → fs q = none → fs' q = some .dir
  only : ∀ q, ¬ S q → fs' q = fs q

end Spec
open Spec

/-! ## Joining paths: C82 -/

theorem joinLoop_exact (max len : Nat) (cs : List (List Char)) (p : List Char)
    (hc : ∀ c ∈ cs, len + 1 + c.length < max) (hl : (join p cs).length < max) :
    joinLoop max len cs p = .ok (join p cs) := by
  induction cs generalizing p with
  | nil => rfl
  | cons c cs ih =>
    have hgrow : ∀ (cs : List (List Char)) (p : List Char), p.length ≤ (join p cs).length := by
      intro cs
      induction cs with
      | nil => intro p; exact le_refl _
      | cons c cs ih =>
        intro p
        have := ih (if p = [] then c else p ++ '/' :: c)
        refine le_trans ?_ this
        split_ifs with h
        · simp [h]
        · simp
    have h1 := hgrow cs (if p = [] then c else p ++ '/' :: c)
    have h2 : join p (c :: cs) = join (if p = [] then c else p ++ '/' :: c) cs := rfl
    rw [h2] at hl ⊢
    have h1 := lt_of_le_of_lt h1 hl
    unfold joinLoop
    rw [if_neg (by have := hc c (by simp); omega)]
    rw [← ih _ (fun c' h => hc c' (by simp [h])) hl]
    dsimp only
    congr 1
    by_cases hp : p = []
    · subst hp
      simp only [if_true, List.length_nil, strncat] at h1 ⊢
      simp only [Nat.lt_irrefl, if_false, gt_iff_lt, List.nil_append, List.length_nil]
      rw [List.take_of_length_le]; omega
    · simp only [hp, if_false] at h1 ⊢
      have hpl : p.length > 0 := List.length_pos_iff.mpr hp
      simp only [hpl, if_true, strncat]
      simp only [List.length_append, List.length_cons] at h1
      rw [List.take_of_length_le (i := max - p.length - 1) (by simp; omega),
        List.take_of_length_le (by simp; omega)]
      simp

/-- C82: if the joined path with one character to spare fits the given maximal length, `coco_join_path` yields the
path and all components, separated by `/`. -/
theorem C82_joined_partial (path : List Char) (max : Nat) (components : List (List Char))
    (h : (join path components).length + 1 < max) :
    joinPath path max components = .ok (join path components) := by
  refine joinLoop_exact _ _ _ _ ?_ (by omega)
  intro c hc
  have key : ∀ (cs : List (List Char)) (p : List Char), c ∈ cs →
      p.length + c.length + 1 ≤ (join p cs).length + 1 ∧
        (p ≠ [] → p.length + c.length + 1 ≤ (join p cs).length) := by
    have hgrow : ∀ (cs : List (List Char)) (p : List Char), p.length ≤ (join p cs).length := by
      intro cs
      induction cs with
      | nil => intro p; exact le_refl _
      | cons c cs ih =>
        intro p
        have := ih (if p = [] then c else p ++ '/' :: c)
        refine le_trans ?_ this
        split_ifs with h
        · simp [h]
        · simp
    intro cs
    induction cs with
    | nil => intro p h; simp at h
    | cons d cs ih =>
      intro p hm
      have h2 : join p (d :: cs) = join (if p = [] then d else p ++ '/' :: d) cs := rfl
      rw [h2]
      rcases List.mem_cons.mp hm with rfl | hm
      · have h1 := hgrow cs (if p = [] then c else p ++ '/' :: c)
        by_cases hp : p = []
        · subst hp; simp at h1 ⊢; omega
        · simp only [hp, if_false] at h1 ⊢
          simp at h1 ⊢
          omega
      · have h1 := ih (if p = [] then d else p ++ '/' :: d) hm
        by_cases hp : p = []
        · subst hp; simp at h1 ⊢; omega
        · simp only [hp, if_false] at h1 ⊢
          simp at h1 ⊢
          omega
  have := (key components path hc).1
  omega

/-- C82: the buffer of the given maximal length is never overrun. -/
theorem C82_bounded (path : List Char) (max : Nat) (components : List (List Char)) (p : List Char)
    (h0 : path.length < max) (h : joinPath path max components = .ok p) : p.length < max := by
  have key : ∀ (cs : List (List Char)) (q : List Char), q.length < max →
      joinLoop max path.length cs q = .ok p → p.length < max := by
    intro cs
    induction cs with
    | nil => intro q hq h; cases h; exact hq
    | cons c cs ih =>
      intro q hq h
      unfold joinLoop at h
      by_cases hc : path.length + 1 + c.length ≥ max
      · rw [if_pos hc] at h; cases h
      · rw [if_neg hc] at h
        refine ih _ ?_ h
        by_cases hq0 : q.length > 0
        · simp only [hq0, if_true, strncat, List.length_append, List.length_take]
          simp only [List.length_cons, List.length_nil]
          omega
        · simp only [hq0, if_false, strncat, List.length_append, List.length_take]
          omega
  exact key components path h0 h

/-- C82: with a single component the result is exact or the process stops, and it stops if the joined path does not
fit. -/
theorem C82_single (path : List Char) (max : Nat) (c : List Char) :
    joinPath path max [c] =
      if path.length + 1 + c.length < max then .ok (join path [c]) else .error := by
  by_cases h : path.length + 1 + c.length < max
  · rw [if_pos h]
    refine joinLoop_exact _ _ _ _ (by simpa using h) ?_
    simp only [join, List.foldl_cons, List.foldl_nil]
    split_ifs with hp
    · subst hp; simp at h; omega
    · simp; omega
  · rw [if_neg h]
    unfold joinPath joinLoop
    rw [if_pos (by omega)]

/-- C82 is false of the code for two or more components: the length used in the check is that of the path before any
component was added, so the check passes and the result is cut without notice. -/
theorem C82_truncated :
    joinPath [] 8 ["aaaaa".toList, "bbbbb".toList] = .ok "aaaaa/b".toList := by decide +kernel

example : joinPath "exdata".toList 100 ["f1".toList, "data.dat".toList] = .ok "exdata/f1/data.dat".toList := by
  decide +kernel

/-! ## Creating directories: C81 -/

theorem parent_above (p : List Char) : parent p = [] ∨ Above (parent p) p := by
  by_cases h : parent p = []
  · exact Or.inl h
  · refine Or.inr ⟨h, ?_⟩
    unfold parent at h ⊢
    have hsplit := List.takeWhile_append_dropWhile (p := (· ≠ '/')) (l := p.reverse)
    cases hd : p.reverse.dropWhile (· ≠ '/') with
    | nil => rw [hd] at h; simp at h
    | cons c t =>
      have hc : c = '/' := by
        have := List.head_dropWhile_not (p := fun c : Char => decide (c ≠ '/')) (l := p.reverse)
          (by rw [hd]; simp)
        simp only [hd, List.head_cons] at this
        simpa using this
      rw [hd] at hsplit
      refine ⟨(p.reverse.takeWhile (· ≠ '/')).reverse, ?_⟩
      have := congrArg List.reverse hsplit
      simp only [List.reverse_append, List.reverse_cons, List.reverse_reverse] at this
      rw [List.drop_one, List.tail_cons]
      conv_lhs => rw [← this]
      rw [hc]
      simp

theorem above_snoc (q d : List Char) (c : Char) :
    Above q (d ++ [c]) ↔ Above q d ∨ (c = '/' ∧ q = d ∧ d ≠ []) := by
  constructor
  · rintro ⟨h, r, hr⟩
    rcases List.eq_nil_or_concat r with rfl | ⟨r', x, rfl⟩
    · have := List.append_inj' hr rfl
      right
      exact ⟨by simpa using this.2, this.1.symm, this.1 ▸ h⟩
    · left
      have hr' : d ++ [c] = (q ++ '/' :: r') ++ [x] := by rw [hr]; simp
      have := List.append_inj' hr' rfl
      exact ⟨h, r', this.1⟩
  · rintro (⟨h, r, rfl⟩ | ⟨rfl, rfl, h⟩)
    · exact ⟨h, r ++ [c], by simp⟩
    · exact ⟨h, [], rfl⟩

theorem mkdir_eq (fs : FS) (p : List Char) (hp : p ≠ []) (hd : ¬ Drive p)
    (ha : ∀ q, Above q p → fs q = some .dir) :
    ∃ fs', mkdir fs p = .ok (if fs p = none then 0 else 1, fs') ∧ Created (fun q => q = p) fs fs' := by
  unfold mkdir
  unfold Drive at hd
  rw [if_neg hd, if_neg hp]
  by_cases h : fs p = none
  · rw [if_neg (by simpa using h), if_pos h, if_pos]
    · refine ⟨_, rfl, ?_, ?_, ?_⟩
      · intro q hq
        exact Function.update_of_ne (fun e : q = p => hq (by rw [e]; exact h)) _ _
      · rintro q rfl _; simp
      · intro q hq; exact Function.update_of_ne hq _ _
    · rcases parent_above p with h0 | h0
      · exact Or.inl h0
      · exact Or.inr (ha _ h0)
  · rw [if_pos h, if_neg h]
    exact ⟨_, rfl, fun _ _ => rfl, fun q hq hn => absurd (hq ▸ hn) h, fun _ _ => rfl⟩

theorem Spec.Created.trans {S T U : List Char → Prop} {fs fs1 fs2 : FS} (h1 : Created S fs fs1) (h2 : Created T fs1 fs2)
    (hU : ∀ q, U q ↔ S q ∨ T q) : Created U fs fs2 := by
  refine ⟨?_, ?_, ?_⟩
  · intro q h
    have := h1.keeps q h
    rw [h2.keeps q (this ▸ h), this]
  · intro q hq hn
    by_cases hs : S q
    · have := h1.adds q hs hn
      rw [h2.keeps q (by simp [this]), this]
    · have ht : T q := ((hU q).mp hq).resolve_left hs
      exact h2.adds q ht (by rw [h1.only q hs, hn])
  · intro q hq
    have : ¬ S q ∧ ¬ T q := by
      constructor
      · exact fun h => hq ((hU q).mpr (Or.inl h))
      · exact fun h => hq ((hU q).mpr (Or.inr h))
    rw [h2.only q this.2, h1.only q this.1]

theorem Spec.Created.not_file {S : List Char → Prop} {fs fs1 : FS} (h : Created S fs fs1) {q : List Char}
    (hq : fs q ≠ some .file) : fs1 q ≠ some .file := by
  by_cases hn : fs q = none
  · by_cases hs : S q
    · rw [h.adds q hs hn]; simp
    · rw [h.only q hs]; exact hq
  · rw [h.keeps q hn]; exact hq

theorem Spec.Created.dir {S : List Char → Prop} {fs fs1 : FS} (h : Created S fs fs1) {q : List Char}
    (hq : fs q ≠ some .file) (hs : S q) : fs1 q = some .dir := by
  cases hk : fs q with
  | none => exact h.adds q hs hk
  | some k => cases k with
    | file => exact absurd hk hq
    | dir => rw [h.keeps q (by simp [hk]), hk]

theorem cutLoop_eq (rest : List Char) : ∀ (done : List Char) (fs : FS), Clear fs (done ++ rest) →
    (∀ q, Above q done → fs q = some .dir) →
    ∃ fs', cutLoop done rest fs = .ok fs' ∧ Created (fun q => Above q (done ++ rest)) fs fs' := by
  induction rest with
  | nil =>
    intro done fs _ ha
    refine ⟨fs, rfl, fun _ _ => rfl, ?_, fun _ _ => rfl⟩
    intro q hq hn
    rw [List.append_nil] at hq
    exact ha q hq
  | cons c rest ih =>
    intro done fs hcl ha
    have happ : done ++ c :: rest = (done ++ [c]) ++ rest := by simp
    unfold cutLoop
    by_cases hc : c = '/'
    · rw [if_pos hc]
      by_cases hd : done.length = 0
      · rw [if_pos hd]
        have hd' : done = [] := by simpa using hd
        rw [happ] at hcl ⊢
        refine ih _ fs hcl ?_
        intro q hq
        rcases (above_snoc _ _ _).mp hq with h | ⟨_, _, h⟩
        · exact ha q h
        · exact absurd hd' h
      · rw [if_neg hd]
        have hd' : done ≠ [] := by simpa using hd
        have habove : Above done (done ++ c :: rest) := ⟨hd', rest, by rw [hc]⟩
        obtain ⟨fs1, he, hcr⟩ := mkdir_eq fs done hd' (hcl done habove).2 ha
        rw [happ] at hcl habove ⊢
        obtain ⟨fs2, he2, hcr2⟩ := ih (done ++ [c]) fs1 (by
            intro q hq
            exact ⟨hcr.not_file (hcl q hq).1, (hcl q hq).2⟩) (by
            intro q hq
            rcases (above_snoc _ _ _).mp hq with h | ⟨_, rfl, _⟩
            · have := ha q h
              rw [hcr.keeps q (by simp [this]), this]
            · exact hcr.dir (hcl _ habove).1 rfl)
        refine ⟨fs2, ?_, ?_⟩
        · rw [he]; simp only [Res.ok_bind]; exact he2
        · refine hcr.trans hcr2 ?_
          intro q
          constructor
          · exact Or.inr
          · rintro (rfl | h)
            · exact habove
            · exact h
    · rw [if_neg hc]
      rw [happ] at hcl ⊢
      refine ih _ fs hcl ?_
      intro q hq
      rcases (above_snoc _ _ _).mp hq with h | ⟨h, _, _⟩
      · exact ha q h
      · exact absurd h hc

/-- C81: creating a directory whose ancestors are directories or absent succeeds; the result is 0 exactly if the path
did not exist before; afterwards the path and all its ancestors exist, and nothing else has changed. -/
theorem C81_create (fs : FS) (path : List Char) (hne : path ≠ []) (hlast : path.getLast? ≠ some '/')
    (hd : ¬ Drive path) (hcl : Clear fs path) :
    ∃ fs', createDirectory fs path = .ok (if fs path = none then 0 else 1, fs') ∧
      Created (fun q => q = path ∨ Above q path) fs fs' := by
  unfold createDirectory
  rw [if_neg hne]
  dsimp only
  rw [if_neg hlast]
  obtain ⟨fs1, he1, hcr1⟩ := cutLoop_eq path [] fs (by simpa using hcl) (by
    rintro q ⟨h, r, hr⟩; simp at hr)
  simp only [List.nil_append] at hcr1
  obtain ⟨fs2, he2, hcr2⟩ := mkdir_eq fs1 path hne hd fun q hq => hcr1.dir (hcl q hq).1 hq
  have hself : ¬ Above path path := by
    rintro ⟨_, r, hr⟩
    have := congrArg List.length hr
    simp at this
  refine ⟨fs2, ?_, hcr1.trans hcr2 fun q => Or.comm⟩
  rw [he1]; simp only [Res.ok_bind]; rw [he2, hcr1.only path hself]

/-- C81: a trailing separator makes no difference. -/
theorem C81_trailing (fs : FS) (path : List Char) (h : path.getLast? ≠ some '/') (hne : path ≠ []) :
    createDirectory fs (path ++ ['/']) = createDirectory fs path := by
  unfold createDirectory
  simp [h, hne]

/-- C81: if an ancestor is a file and the path does not exist, the process stops. -/
theorem C81_file_in_the_way :
    createDirectory (fun q => if q = "a".toList then some .file else none) "a/b".toList = .error := by
  simp [createDirectory, cutLoop, mkdir, parent]

/-! ## Unique names: C48 -/

theorem strdupf_ok (t : List Char) (h : t.length ≤ 441) : strdupf t = .ok t :=
  (Observer.C70_strdupf_partial t).1 h

theorem pad4_length (k : Nat) : (pad4 k).length = 4 := by simp [pad4]

theorem pad4_ne (k : Nat) : (pad4 k).getLast? ≠ some '/' := by
  have h : k % 10 < 10 := Nat.mod_lt _ (by omega)
  have key : ∀ d < 10, Char.ofNat (48 + d) ≠ '/' := by decide
  simp only [pad4, List.map_cons, List.map_nil, List.getLast?_cons_cons, List.getLast?_singleton, ne_eq,
    Option.some.injEq]
  exact key _ h

theorem no_slash_pad4 (k : Nat) : '/' ∉ '-' :: pad4 k := by
  have key : ∀ d < 10, Char.ofNat (48 + d) ≠ '/' := by decide
  simp only [pad4, List.map_cons, List.map_nil, List.mem_cons, List.not_mem_nil, or_false, not_or]
  refine ⟨by decide, ?_, ?_, ?_, ?_⟩ <;> exact (key _ (Nat.mod_lt _ (by omega))).symm

theorem above_suffix (q p t : List Char) (ht : '/' ∉ t) : Above q (p ++ t) ↔ Above q p := by
  induction t using List.reverseRecOn with
  | nil => simp
  | append_singleton t c ih =>
    rw [← List.append_assoc, above_snoc, ih (fun h => ht (by simp [h]))]
    constructor
    · rintro (h | ⟨h, _⟩)
      · exact h
      · exact absurd (by simp [h]) ht
    · exact Or.inl

/-- The numbered names. -/
def numbered (name : List Char) (k n : Nat) : List (List Char) :=
  (List.range' k n).map fun k => name ++ '-' :: pad4 k

theorem numbered_succ (name : List Char) (k n : Nat) :
    numbered name k (n + 1) = (name ++ '-' :: pad4 k) :: numbered name (k + 1) n := by
  simp [numbered, List.range'_succ]

theorem directoryLoop_eq (fs : FS) (path : List Char)
    (hcl : Clear fs path) (hlen : path.length ≤ 436) : ∀ (n k : Nat) (fs1 : FS) (S : List Char → Prop),
    Created S fs fs1 → (∀ q, S q → Above q path ∨ fs q ≠ none) →
    (numbered path k n).find? (fun c => fs c = none) = none ∧ directoryLoop path n k fs1 = .error ∨
    ∃ c fs', (numbered path k n).find? (fun c => fs c = none) = some c ∧
      directoryLoop path n k fs1 = .ok (c, fs') ∧ Created (fun q => q = c ∨ Above q path) fs fs' := by
  intro n
  induction n with
  | zero => intro k fs1 S _ _; left; exact ⟨rfl, rfl⟩
  | succ n ih =>
    intro k fs1 S hcr hS
    have hab : ∀ q, Above q (path ++ '-' :: pad4 k) ↔ Above q path :=
      fun q => above_suffix _ _ _ (no_slash_pad4 k)
    have hlast : (path ++ '-' :: pad4 k).getLast? ≠ some '/' := by
      rw [List.getLast?_append, List.getLast?_cons]
      have := pad4_ne k
      cases hp : (pad4 k).getLast? with
      | none => simp
      | some c => rw [hp] at this; simpa using this
    have hdr : ¬ Drive (path ++ '-' :: pad4 k) := by
      rintro ⟨h, _⟩; simp [pad4_length] at h
    obtain ⟨fs2, he, hcr2⟩ := C81_create fs1 (path ++ '-' :: pad4 k) (by simp) hlast hdr (by
      intro q hq
      have := hcl q ((hab q).mp hq)
      exact ⟨hcr.not_file this.1, this.2⟩)
    have hself : ¬ Above (path ++ '-' :: pad4 k) path := by
      rintro ⟨_, r, hr⟩
      have := congrArg List.length hr
      simp at this
    have hsame : fs1 (path ++ '-' :: pad4 k) = none ↔ fs (path ++ '-' :: pad4 k) = none := by
      by_cases h : fs (path ++ '-' :: pad4 k) = none
      · rw [hcr.only]
        intro h1
        rcases hS _ h1 with h2 | h2
        · exact hself h2
        · exact h2 h
      · rw [hcr.keeps _ h]
    have hcr3 := hcr.trans (U := fun q => S q ∨ (q = path ++ '-' :: pad4 k ∨ Above q (path ++ '-' :: pad4 k)))
      hcr2 (fun q => Iff.rfl)
    unfold directoryLoop
    rw [strdupf_ok _ (by simp [pad4_length]; omega)]
    simp only [Res.ok_bind, he]
    by_cases hf : fs (path ++ '-' :: pad4 k) = none
    · right
      refine ⟨path ++ '-' :: pad4 k, fs2, ?_, ?_, ?_⟩
      · rw [numbered_succ, List.find?_cons_of_pos (by simpa using hf)]
      · rw [if_pos (hsame.mpr hf)]; rfl
      · refine ⟨hcr3.keeps, ?_, ?_⟩
        · rintro q (h | h) hn
          · exact hcr3.adds q (Or.inr (Or.inl h)) hn
          · exact hcr3.adds q (Or.inr (Or.inr ((hab q).mpr h))) hn
        · intro q hq
          by_cases hn : fs q = none
          · refine hcr3.only q ?_
            rintro (h | h | h)
            · rcases hS q h with h | h
              · exact hq (Or.inr h)
              · exact h hn
            · exact hq (Or.inl h)
            · exact hq (Or.inr ((hab q).mp h))
          · exact hcr3.keeps q hn
    · rw [if_neg (fun h => hf (hsame.mp h))]
      rw [if_neg (by omega)]
      rcases ih (k + 1) fs2 _ hcr3 (by
          rintro q (h | h | h)
          · exact hS q h
          · right; rw [h]; exact hf
          · left; exact (hab q).mp h) with ⟨h1, h2⟩ | ⟨c, fs', h1, h2, h3⟩
      · left
        rw [numbered_succ, List.find?_cons_of_neg (by simpa using hf)]
        exact ⟨h1, h2⟩
      · right
        rw [numbered_succ, List.find?_cons_of_neg (by simpa using hf)]
        exact ⟨c, fs', h1, h2, h3⟩

/-- C48: the directory made is the first path that does not exist among the path itself and the path with `-0001`,
..., `-9998`; nothing but this directory and its ancestors is created. The process stops iff all of them exist. -/
theorem C48_directory (fs : FS) (path : List Char) (hne : path ≠ []) (hlast : path.getLast? ≠ some '/')
    (hd : ¬ Drive path) (hcl : Clear fs path) (hlen : path.length ≤ 436) :
    (∀ c ∈ candidates path, fs c ≠ none) ∧ uniqueDirectory fs path = .error ∨
    ∃ c fs', (candidates path).find? (fun c => fs c = none) = some c ∧ uniqueDirectory fs path = .ok (c, fs') ∧
      Created (fun q => q = c ∨ Above q path) fs fs' := by
  obtain ⟨fs1, he, hcr⟩ := C81_create fs path hne hlast hd hcl
  have hcand : candidates path = path :: numbered path 1 9998 := rfl
  unfold uniqueDirectory
  rw [he]
  simp only [Res.ok_bind]
  by_cases hf : fs path = none
  · right
    refine ⟨path, fs1, ?_, ?_, hcr⟩
    · rw [hcand, List.find?_cons_of_pos (by simpa using hf)]
    · simp [hf]
  · simp only [hf, if_false, one_ne_zero]
    rcases directoryLoop_eq fs path hcl hlen 9998 1 fs1 _ hcr (by
        rintro q (rfl | h)
        · exact Or.inr hf
        · exact Or.inl h) with ⟨h1, h2⟩ | ⟨c, fs', h1, h2, h3⟩
    · left
      refine ⟨?_, h2⟩
      intro c hc
      rw [hcand] at hc
      rcases List.mem_cons.mp hc with rfl | hc
      · exact hf
      · have := List.find?_eq_none.mp h1 c hc
        simpa using this
    · right
      refine ⟨c, fs', ?_, h2, h3⟩
      rw [hcand, List.find?_cons_of_neg (by simpa using hf)]
      exact h1

theorem filePath_eq (path name ext : List Char) (hlen : path.length + name.length + ext.length < 4090) :
    filePath path name ext = .ok (join [] [path, name ++ ext]) := by
  unfold filePath
  simp only [strncat, List.nil_append]
  rw [List.take_of_length_le (i := 4096 - 1) (by omega), List.take_of_length_le (by omega)]
  refine C82_joined_partial _ _ _ ?_
  simp only [join, List.foldl_cons, List.foldl_nil, if_true]
  split_ifs
  · simp; omega
  · simp; omega

theorem filenameLoop_eq (fs : FS) (path name ext : List Char) (hname : name.length ≤ 436)
    (hlen : path.length + name.length + ext.length < 4000) : ∀ (n k : Nat),
    filenameLoop fs path name ext n k =
      match (numbered name k n).find? (fun c => fs (join [] [path, c ++ ext]) ≠ some .file) with
      | some c => .ok c
      | none => .error := by
  intro n
  induction n with
  | zero => intro k; rfl
  | succ n ih =>
    intro k
    unfold filenameLoop
    rw [strdupf_ok _ (by simp [pad4_length]; omega)]
    simp only [Res.ok_bind]
    rw [filePath_eq _ _ _ (by simp [pad4_length]; omega)]
    simp only [Res.ok_bind, numbered_succ]
    by_cases hf : fs (join [] [path, (name ++ '-' :: pad4 k) ++ ext]) = some .file
    · rw [if_neg (by simp only [fileExists, hf]; simp), ih, List.find?_cons_of_neg (by simp only [hf]; simp)]
    · rw [if_pos (by simp only [fileExists, hf]; rfl), List.find?_cons_of_pos (by simpa only [ne_eq, decide_eq_true_eq] using hf)]

/-- C48: the file name chosen is the first one for which the file in the given directory with the given extension
does not exist, among the name itself and the name with `-0001`, ..., `-9998`; the process stops iff all of these
files exist. -/
theorem C48_filename (fs : FS) (path name ext : List Char) (hname : name.length ≤ 436)
    (hlen : path.length + name.length + ext.length < 4000) :
    uniqueFilename fs path name ext =
      match (candidates name).find? (fun c => fs (join [] [path, c ++ ext]) ≠ some .file) with
      | some c => .ok c
      | none => .error := by
  have hcand : candidates name = name :: numbered name 1 9998 := rfl
  unfold uniqueFilename
  rw [filePath_eq _ _ _ (by omega), hcand]
  simp only [Res.ok_bind]
  by_cases hf : fs (join [] [path, name ++ ext]) = some .file
  · rw [if_neg (by simp only [fileExists, hf]; simp), filenameLoop_eq _ _ _ _ hname hlen,
      List.find?_cons_of_neg (by simp only [hf]; simp)]
  · rw [if_pos (by simp only [fileExists, hf]; rfl), List.find?_cons_of_pos (by simpa only [ne_eq, decide_eq_true_eq] using hf)]

/-- C48: the names tried are all different. -/
theorem C48_candidates_distinct (name : List Char) : (candidates name).Nodup := by
  have hinj : ∀ i j : Nat, i < 10000 → j < 10000 → pad4 i = pad4 j → i = j := by
    intro i j hi hj h
    have key : ∀ a < 10, ∀ b < 10, Char.ofNat (48 + a) = Char.ofNat (48 + b) → a = b := by decide
    simp only [pad4, List.map_cons, List.map_nil, List.cons.injEq, and_true] at h
    have h1 := key _ (Nat.mod_lt _ (by omega)) _ (Nat.mod_lt _ (by omega)) h.1
    have h2 := key _ (Nat.mod_lt _ (by omega)) _ (Nat.mod_lt _ (by omega)) h.2.1
    have h3 := key _ (Nat.mod_lt _ (by omega)) _ (Nat.mod_lt _ (by omega)) h.2.2.1
    have h4 := key _ (Nat.mod_lt _ (by omega)) _ (Nat.mod_lt _ (by omega)) h.2.2.2
    omega
  unfold candidates
  rw [List.nodup_cons]
  constructor
  · intro h
    obtain ⟨k, _, hk⟩ := List.mem_map.mp h
    have := congrArg List.length hk
    simp at this
  · refine List.Nodup.map_on ?_ (List.nodup_range' (step := 1))
    intro i hi j hj h
    rw [List.mem_range'_1] at hi hj
    have := List.append_cancel_left h
    exact hinj i j (by omega) (by omega) (by simpa using this)

/-- A file system with the directory `exdata` and its subdirectory `f`. -/
def exFS : FS := fun q =>
  if q = "exdata".toList ∨ q = "exdata/f".toList then some .dir
  else if q = "exdata/f.dat".toList then some .file else none

example : Clear exFS "exdata/f".toList ∧ ¬ Drive "exdata/f".toList := by
  refine ⟨?_, by unfold Drive; decide⟩
  rintro q ⟨hq, r, hr⟩
  have : q = "exdata".toList := by
    have hlen : q.length < 8 := by
      have := congrArg List.length hr; simp at this; omega
    have hq : q = "exdata/f".toList.take q.length := by rw [hr]; simp
    have hs : "exdata/f".toList[q.length]? = some '/' := by rw [hr]; simp
    generalize q.length = n at *
    subst hq
    interval_cases n <;> first | rfl | (exact absurd hs (by decide))
  subst this
  unfold Drive
  decide

example : ((uniqueDirectory exFS "exdata/f".toList).bind fun r => .ok (r.1, r.2 r.1)) =
    .ok ("exdata/f-0001".toList, some .dir) := by decide +kernel

/-- For a path with a trailing separator the number is appended after the separator, so the new directory is inside
the existing one. -/
theorem C48_trailing_separator :
    ((uniqueDirectory exFS "exdata/f/".toList).bind fun r => .ok (r.1, r.2 r.1)) =
    .ok ("exdata/f/-0001".toList, some .dir) := by decide +kernel

example : uniqueFilename exFS "exdata".toList "f".toList ".dat".toList = .ok "f-0001".toList := by decide +kernel

end FileSystem
