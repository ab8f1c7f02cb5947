import Mathlib.Data.List.Basic
import Mathlib.Tactic.Common
import Verif.Model.InfoFile
import Verif.Props.FileSystem

/-!
# Lemmas on the files of the bbob observer
-/

namespace InfoFile
open FileSystem (pad4 strncat)
open FileSystem.Spec (candidates join)

/-! ### Texts -/

theorem dec_digit (n : Nat) : ∀ c ∈ dec n, c.isDigit = true :=
  fun _ h => Nat.isDigit_of_mem_toDigits (by decide) (by decide) h

theorem dec_ne_nil (n : Nat) : dec n ≠ [] := Nat.toDigits_ne_nil

theorem digitChar_inj : ∀ a < 10, ∀ b < 10, Nat.digitChar a = Nat.digitChar b → a = b := by decide

theorem dec_inj : ∀ {m n : Nat}, dec m = dec n → m = n := by
  intro m
  induction m using Nat.strong_induction_on with
  | _ m ih =>
    intro n h
    unfold dec at h
    rw [Nat.toDigits_eq_if (by decide), Nat.toDigits_eq_if (b := 10) (n := n) (by decide)] at h
    by_cases hm : m < 10
    · rw [if_pos hm] at h
      by_cases hn : n < 10
      · rw [if_pos hn] at h
        exact digitChar_inj m hm n hn (by simpa using h)
      · rw [if_neg hn] at h
        have := congrArg List.length h
        simp only [List.length_append, List.length_singleton] at this
        have h2 := Nat.length_toDigits_pos (b := 10) (n := n / 10)
        omega
    · rw [if_neg hm] at h
      by_cases hn : n < 10
      · rw [if_pos hn] at h
        have := congrArg List.length h
        simp only [List.length_append, List.length_singleton] at this
        have h2 := Nat.length_toDigits_pos (b := 10) (n := m / 10)
        omega
      · rw [if_neg hn] at h
        obtain ⟨h1, h2⟩ := List.append_inj' h rfl
        have e1 := ih (m / 10) (by omega) h1
        have e2 := digitChar_inj (m % 10) (Nat.mod_lt _ (by decide)) (n % 10) (Nat.mod_lt _ (by decide)) (by simpa using h2)
        omega

theorem dec_length {n : Nat} (h : n < 2 ^ 64) : (dec n).length ≤ 20 :=
  (Nat.length_toDigits_le_iff (by decide) (by decide)).mpr (by omega)

/-- A run of digits is determined by the text that starts with it. -/
theorem digits_split : ∀ (a b x y : List Char), (∀ c ∈ a, c.isDigit = true) → (∀ c ∈ b, c.isDigit = true) →
    (∀ c, x.head? = some c → c.isDigit = false) → (∀ c, y.head? = some c → c.isDigit = false) →
    a ++ x = b ++ y → a = b ∧ x = y := by
  intro a
  induction a with
  | nil =>
    intro b x y _ hb hx _ h
    cases b with
    | nil => exact ⟨rfl, by simpa using h⟩
    | cons c b =>
      subst h
      have h1 := hx c (by simp)
      have h2 := hb c (by simp)
      rw [h1] at h2
      cases h2
  | cons c a ih =>
    intro b x y ha hb hx hy h
    cases b with
    | nil =>
      simp only [List.cons_append, List.nil_append] at h
      have h1 := hy c (by rw [← h]; simp)
      have h2 := ha c (by simp)
      rw [h1] at h2
      cases h2
    | cons d b =>
      simp only [List.cons_append, List.cons.injEq] at h
      obtain ⟨h1, h2⟩ := ih b x y (fun c hc => ha c (by simp [hc])) (fun c hc => hb c (by simp [hc])) hx hy h.2
      exact ⟨by rw [h.1, h1], h2⟩

theorem intercalate_snoc (sep : List Char) (l : List (List Char)) (x : List Char) :
    List.intercalate sep (l ++ [x]) = if l = [] then x else List.intercalate sep l ++ sep ++ x := by
  induction l with
  | nil => simp [List.intercalate]
  | cons a l ih =>
    cases l with
    | nil => simp [List.intercalate]
    | cons b l =>
      rw [if_neg (by simp)] at ih ⊢
      simp only [List.intercalate, List.cons_append, List.intersperse_cons_cons, List.flatten_cons,
        List.append_assoc] at ih ⊢
      rw [ih]

/-! ### Names -/

/-- The names of the data files before a number is appended. -/
def base (f d : Nat) : List Char :=
  "data_f".toList ++ dec f ++ "/bbobexp_f".toList ++ dec f ++ "_DIM".toList ++ dec d

/-- A path in the result folder. -/
def inFolder (c : Conf) (name : List Char) : List Char := join [] [c.folder, name]

theorem inFolder_eq (c : Conf) (name : List Char) :
    inFolder c name = if c.folder = [] then name else c.folder ++ '/' :: name := by
  simp [inFolder, join]

theorem inFolder_inj (c : Conf) {a b : List Char} (h : inFolder c a = inFolder c b) : a = b := by
  rw [inFolder_eq, inFolder_eq] at h
  split_ifs at h
  · exact h
  · simpa using h

/-- The name of the info file. -/
def infoName (c : Conf) (f : Nat) : List Char := c.pre ++ "_f".toList ++ dec f ++ ".info".toList

theorem infoName_inj (c : Conf) {f f' : Nat} (h : infoName c f = infoName c f') : f = f' := by
  unfold infoName at h
  rw [List.append_left_inj, List.append_assoc, List.append_assoc, List.append_right_inj, List.append_right_inj] at h
  exact dec_inj h

/-- The extensions of the data files. -/
def exts : List (List Char) := [".dat".toList, ".tdat".toList, ".rdat".toList, ".mdat".toList]

theorem getLast_ext : ∀ e ∈ exts, e.getLast? = some 't' := by decide +kernel

theorem infoName_ne (c : Conf) (f : Nat) (n e : List Char) (he : e ∈ exts) : infoName c f ≠ n ++ e := by
  intro h
  have h1 := congrArg List.getLast? h
  have h2 : (".info".toList : List Char).getLast? = some 'o' := by decide +kernel
  rw [infoName, List.getLast?_append, h2, List.getLast?_append (l := n), getLast_ext e he] at h1
  simp at h1

theorem ext_inj {n n' e e' : List Char} (he : e ∈ exts) (he' : e' ∈ exts) (h : n ++ e = n' ++ e') :
    n = n' ∧ e = e' := by
  have h4 : ∀ e ∈ exts, 4 ≤ e.length ∧ e.length ≤ 5 := by decide +kernel
  have h5 : ∀ e ∈ exts, e.length = 4 → e = ".dat".toList := by decide +kernel
  have h6 : ∀ e ∈ exts, e.length = 5 → ∃ k, e = '.' :: k :: "dat".toList ∧ k ≠ '.' := by
    have : ∀ e ∈ exts, e.length = 5 → e = '.' :: e[1]! :: "dat".toList ∧ e[1]! ≠ '.' := by decide +kernel
    exact fun e he hl => ⟨e[1]!, this e he hl⟩
  have mixed : ∀ {n n' e e' : List Char}, e ∈ exts → e' ∈ exts → e.length = 4 → e'.length = 5 → n ++ e ≠ n' ++ e' := by
    intro n n' e e' he he' hl hl' h
    obtain ⟨k, hk, hk'⟩ := h6 e' he' hl'
    rw [h5 e he hl, hk] at h
    have h' : n ++ ('.' :: "dat".toList) = (n' ++ ['.']) ++ (k :: "dat".toList) := by
      rw [List.append_assoc]; exact h
    have := (List.append_inj' h' (by simp)).2
    simp only [List.cons.injEq] at this
    exact hk' this.1.symm
  have l1 := h4 e he
  have l2 := h4 e' he'
  by_cases hl : e.length = e'.length
  · exact List.append_inj' h hl
  · exfalso
    by_cases hl4 : e.length = 4
    · exact mixed he he' hl4 (by omega) h
    · exact mixed he' he (by omega) (by omega) h.symm

theorem mem_candidates {b n : List Char} :
    n ∈ candidates b ↔ ∃ t, n = b ++ t ∧ (t = [] ∨ ∃ k, 1 ≤ k ∧ k < 9999 ∧ t = '-' :: pad4 k) := by
  unfold candidates
  simp only [List.mem_cons, List.mem_map, List.mem_range'_1]
  constructor
  · rintro (rfl | ⟨k, ⟨hk, hk'⟩, rfl⟩)
    · exact ⟨[], by simp, Or.inl rfl⟩
    · exact ⟨_, rfl, Or.inr ⟨k, hk, by omega, rfl⟩⟩
  · rintro ⟨t, rfl, rfl | ⟨k, hk, hk', rfl⟩⟩
    · left; simp
    · right; exact ⟨k, ⟨hk, by omega⟩, rfl⟩

attribute [local irreducible] FileSystem.Spec.candidates

theorem candidate_length {f d : Nat} (hf : f < 2 ^ 64) (hd : d < 2 ^ 64) {n : List Char} (h : n ∈ candidates (base f d)) :
    n.length ≤ 90 := by
  rw [mem_candidates] at h
  obtain ⟨t, rfl, ht⟩ := h
  have h1 := dec_length hf
  have h2 := dec_length hd
  have l1 : ("data_f".toList).length = 6 := by decide +kernel
  have l2 : ("/bbobexp_f".toList).length = 10 := by decide +kernel
  have l3 : ("_DIM".toList).length = 4 := by decide +kernel
  have : t.length ≤ 5 := by
    rcases ht with rfl | ⟨k, _, _, rfl⟩
    · simp
    · simp [FileSystem.pad4_length]
  unfold base
  rw [List.length_append, List.length_append, List.length_append, List.length_append, List.length_append, List.length_append, l1, l2, l3]
  omega

theorem candidates_inj {f d f' d' : Nat} {n : List Char} (h : n ∈ candidates (base f d)) (h' : n ∈ candidates (base f' d')) :
    f = f' ∧ d = d' := by
  rw [mem_candidates] at h h'
  obtain ⟨t, rfl, ht⟩ := h
  obtain ⟨t', he, ht'⟩ := h'
  have hh : ∀ t : List Char, (t = [] ∨ ∃ k, 1 ≤ k ∧ k < 9999 ∧ t = '-' :: pad4 k) →
      ∀ c, t.head? = some c → c.isDigit = false := by
    rintro t (rfl | ⟨k, _, _, rfl⟩) c hc
    · cases hc
    · simp only [List.head?_cons, Option.some.injEq] at hc
      subst hc; decide
  have s1 : "/bbobexp_f".toList = '/' :: "bbobexp_f".toList := by decide +kernel
  have s2 : "_DIM".toList = '_' :: "DIM".toList := by decide +kernel
  unfold base at he
  simp only [List.append_assoc, List.append_right_inj] at he
  obtain ⟨e1, he⟩ := digits_split _ _ _ _ (dec_digit f) (dec_digit f')
    (by rw [s1]; simp) (by rw [s1]; simp) he
  have e1' := dec_inj e1
  subst e1'
  simp only [List.append_right_inj] at he
  obtain ⟨e2, _⟩ := digits_split _ _ _ _ (dec_digit d) (dec_digit d') (hh t ht) (hh t' ht') he
  exact ⟨rfl, dec_inj e2⟩

/-! ### The functions of the model for names that fit the buffers -/

theorem strncat_ok {a b : List Char} {n : Nat} (h : b.length ≤ n) : strncat a b n = a ++ b := by
  rw [strncat, List.take_of_length_le h]

theorem join_ok (c : Conf) (name : List Char) (h : c.folder.length + name.length < 4090) :
    FileSystem.joinPath [] (4096 + 2) [c.folder, name] = .ok (inFolder c name) := by
  refine FileSystem.C82_joined_partial _ _ _ ?_
  have := inFolder_eq c name
  unfold inFolder at this
  rw [this]
  split_ifs
  · omega
  · simp; omega

theorem writeDataFile_ok (c : Conf) (disk : Disk) (name ext text : List Char)
    (h : c.folder.length + name.length + ext.length < 4090) :
    writeDataFile disk c.folder name ext text = .ok (append disk (inFolder c (name ++ ext)) text) := by
  unfold writeDataFile
  rw [List.take_of_length_le (by omega)]
  dsimp only
  rw [strncat_ok (by omega), join_ok c _ (by simp; omega)]
  rfl

theorem infoPath_ok (c : Conf) (f : Nat) (hf : f < 2 ^ 64) (h : c.folder.length + c.pre.length < 3900) :
    infoPath c (dec f) = .ok (inFolder c (infoName c f)) := by
  have h1 := dec_length hf
  have l1 : ("_f".toList).length = 2 := by decide +kernel
  have l2 : (".info".toList).length = 5 := by decide +kernel
  unfold infoPath
  rw [List.take_of_length_le (by omega)]
  dsimp only
  rw [strncat_ok (a := c.pre) (by omega)]
  rw [strncat_ok (a := c.pre ++ "_f".toList) (by simp only [List.length_append, l1]; omega)]
  rw [strncat_ok (a := c.pre ++ "_f".toList ++ dec f) (by simp only [List.length_append, l1, l2]; omega)]
  exact join_ok c _ (by simp only [List.length_append, l1, l2]; omega)

theorem relativePath_ok (f d : Nat) (hf : f < 2 ^ 64) (hd : d < 2 ^ 64) :
    relativePath (dec f) (dec d) = base f d := by
  have h1 := dec_length hf
  have h2 := dec_length hd
  have l1 : ("data_f".toList).length = 6 := by decide +kernel
  have l2 : ("/bbobexp_f".toList).length = 10 := by decide +kernel
  have l3 : ("_DIM".toList).length = 4 := by decide +kernel
  unfold relativePath
  dsimp only
  rw [strncat_ok (a := "data_f".toList) (by simp only [l1]; omega)]
  rw [strncat_ok (b := "/bbobexp_f".toList) (by simp only [List.length_append, l1, l2]; omega)]
  rw [strncat_ok (a := "data_f".toList ++ dec f ++ "/bbobexp_f".toList) (by simp only [List.length_append, l1, l2]; omega)]
  rw [strncat_ok (b := "_DIM".toList) (by simp only [List.length_append, l1, l2, l3]; omega)]
  rw [strncat_ok (b := dec d) (by simp only [List.length_append, l1, l2, l3]; omega)]
  rfl

/-- What is written to the info file by one logger: the lines of a new block and the entry. -/
def infoPart (c : Conf) (r : Run) (newLine exists_ : Bool) (name : List Char) : List Char :=
  (if newLine then (if exists_ then "\n".toList else []) ++ heading c r name else []) ++
    (", ".toList ++ dec r.inst ++ ":".toList ++ dec r.evals ++ "|".toList ++ r.best)

/-- The disk after the life of a logger. -/
def after (c : Conf) (disk : Disk) (r : Run) (newLine : Bool) (name : List Char) : Disk := fun p =>
  if p = inFolder c (infoName c r.function) then
    some ((disk p).getD [] ++ infoPart c r newLine (disk p).isSome name)
  else if p = inFolder c (name ++ ".dat".toList) then some ((disk p).getD [] ++ (r.header ++ r.dat))
  else if p = inFolder c (name ++ ".tdat".toList) then some ((disk p).getD [] ++ (r.header ++ r.tdat))
  else if p = inFolder c (name ++ ".rdat".toList) then some ((disk p).getD [] ++ (r.header ++ r.rdat))
  else if p = inFolder c (name ++ ".mdat".toList) then some ((disk p).getD [] ++ (r.header ++ r.mdat))
  else disk p

theorem append_append (disk : Disk) (p a b : List Char) : append (append disk p a) p b = append disk p (a ++ b) := by
  funext q
  unfold append
  by_cases h : q = p
  · simp [h]
  · simp [h]

theorem openInfoFile_ok (c : Conf) (r : Run) (disk : Disk) (name : List Char) (newLine : Bool) (hf : r.function < 2 ^ 64)
    (h : c.folder.length + c.pre.length < 3900) (hn : name.length ≤ 90) :
    openInfoFile c r disk (dec r.function) name newLine =
      .ok (append disk (inFolder c (infoName c r.function))
        (if newLine then (if (disk (inFolder c (infoName c r.function))).isSome then "\n".toList else []) ++ heading c r name else []),
        inFolder c (infoName c r.function)) := by
  unfold openInfoFile
  rw [infoPath_ok c _ hf h, List.take_of_length_le (by omega)]
  simp only [Res.ok_bind]
  cases newLine
  · simp
  · simp only [if_true]
    cases hd : (disk (inFolder c (infoName c r.function))).isSome
    · simp [append_append]
    · simp [append_append]

/-- The chain of writes of a logger. -/
theorem writes_eq (c : Conf) (disk : Disk) (r : Run) (newLine : Bool) (name : List Char) :
    (append (append (append (append (append (append (append (append (append (append (append disk
      (inFolder c (infoName c r.function))
        (if newLine then (if (disk (inFolder c (infoName c r.function))).isSome then "\n".toList else []) ++ heading c r name else []))
      (inFolder c (infoName c r.function)) (", ".toList ++ dec r.inst))
      (inFolder c (name ++ ".dat".toList)) r.header)
      (inFolder c (name ++ ".tdat".toList)) r.header)
      (inFolder c (name ++ ".rdat".toList)) r.header)
      (inFolder c (name ++ ".mdat".toList)) r.header)
      (inFolder c (name ++ ".dat".toList)) r.dat)
      (inFolder c (name ++ ".tdat".toList)) r.tdat)
      (inFolder c (name ++ ".rdat".toList)) r.rdat)
      (inFolder c (name ++ ".mdat".toList)) r.mdat)
      (inFolder c (infoName c r.function)) (":".toList ++ dec r.evals ++ "|".toList ++ r.best)) = after c disk r newLine name := by
  have hne : ∀ e ∈ exts, inFolder c (infoName c r.function) ≠ inFolder c (name ++ e) :=
    fun e he h => infoName_ne c r.function name e he (inFolder_inj c h)
  have hee : ∀ e ∈ exts, ∀ e' ∈ exts, e ≠ e' → inFolder c (name ++ e) ≠ inFolder c (name ++ e') :=
    fun e he e' he' hne h => hne (ext_inj he he' (inFolder_inj c h)).2
  have m1 : ".dat".toList ∈ exts := by decide +kernel
  have m2 : ".tdat".toList ∈ exts := by decide +kernel
  have m3 : ".rdat".toList ∈ exts := by decide +kernel
  have m4 : ".mdat".toList ∈ exts := by decide +kernel
  have n1 := hne _ m1
  have n2 := hne _ m2
  have n3 := hne _ m3
  have n4 := hne _ m4
  have d12 := hee _ m1 _ m2 (by decide +kernel)
  have d13 := hee _ m1 _ m3 (by decide +kernel)
  have d14 := hee _ m1 _ m4 (by decide +kernel)
  have d23 := hee _ m2 _ m3 (by decide +kernel)
  have d24 := hee _ m2 _ m4 (by decide +kernel)
  have d34 := hee _ m3 _ m4 (by decide +kernel)
  generalize hI : inFolder c (infoName c r.function) = I at *
  generalize h1 : inFolder c (name ++ ".dat".toList) = D1 at *
  generalize h2 : inFolder c (name ++ ".tdat".toList) = D2 at *
  generalize h3 : inFolder c (name ++ ".rdat".toList) = D3 at *
  generalize h4 : inFolder c (name ++ ".mdat".toList) = D4 at *
  funext p
  unfold after append infoPart
  rw [hI, h1, h2, h3, h4]
  by_cases e0 : p = I
  · subst e0
    simp [n1, n2, n3, n4]
  · by_cases e1 : p = D1
    · subst e1
      simp [n1.symm, d12, d13, d14]
    · by_cases e2 : p = D2
      · subst e2
        simp [n2.symm, d12.symm, d23, d24]
      · by_cases e3 : p = D3
        · subst e3
          simp [n3.symm, d13.symm, d23.symm, d34]
        · by_cases e4 : p = D4
          · subst e4
            simp [n4.symm, d14.symm, d24.symm, d34.symm]
          · simp [e0, e1, e2, e3, e4]

/-- The disk after the life of a logger, and what the observer remembers. -/
theorem life_old (c : Conf) (s : St) (r : Run) (hu : r.used = true) (hf : r.function < 2 ^ 64) (hd : r.dimension < 2 ^ 64)
    (h : c.folder.length + c.pre.length < 3900) (hn : s.lastDat.length ≤ 90)
    (hl : startNewLine s r.dimension r.function = false) :
    life c s r = .ok { s with disk := after c s.disk r false s.lastDat } := by
  have k1 := dec_length hf
  have k2 := dec_length hd
  have l1 : (".dat".toList).length = 4 := by decide +kernel
  have l2 : (".tdat".toList).length = 5 := by decide +kernel
  have l3 : (".rdat".toList).length = 5 := by decide +kernel
  have l4 : (".mdat".toList).length = 5 := by decide +kernel
  unfold life openFiles
  rw [if_pos hu, FileSystem.strdupf_ok _ (by omega), FileSystem.strdupf_ok _ (by omega)]
  simp only [Res.ok_bind, hl, Bool.false_eq_true, if_false]
  rw [openInfoFile_ok c r _ _ _ hf h hn]
  simp only [Res.ok_bind]
  simp (disch := omega) only [writeDataFile_ok, Res.ok_bind]
  have := writes_eq c s.disk r false s.lastDat
  simp only [Bool.false_eq_true, if_false] at this
  simp only [Bool.false_eq_true, if_false]
  rw [this]

theorem life_new (c : Conf) (s : St) (r : Run) (hu : r.used = true) (hf : r.function < 2 ^ 64) (hd : r.dimension < 2 ^ 64)
    (h : c.folder.length + c.pre.length < 3900) (hl : startNewLine s r.dimension r.function = true) :
    life c s r = match (candidates (base r.function r.dimension)).find? (fun n => (s.disk (inFolder c (n ++ ".dat".toList))) = none) with
      | some name => .ok ⟨r.function, r.dimension, name, after c s.disk r true name⟩
      | none => .error := by
  have k1 := dec_length hf
  have k2 := dec_length hd
  have l1 : (".dat".toList).length = 4 := by decide +kernel
  have l2 : (".tdat".toList).length = 5 := by decide +kernel
  have l3 : (".rdat".toList).length = 5 := by decide +kernel
  have l4 : (".mdat".toList).length = 5 := by decide +kernel
  have hb := candidate_length hf hd (n := base r.function r.dimension) (by simp [candidates])
  unfold life openFiles
  rw [if_pos hu, FileSystem.strdupf_ok _ (by omega), FileSystem.strdupf_ok _ (by omega)]
  simp only [Res.ok_bind, hl, if_true]
  rw [relativePath_ok _ _ hf hd, FileSystem.C48_filename _ _ _ _ (by omega) (by omega)]
  have hp : (fun n => decide (kinds s.disk (join [] [c.folder, n ++ ".dat".toList]) ≠ some .file)) =
      (fun n => decide (s.disk (inFolder c (n ++ ".dat".toList)) = none)) := by
    funext n
    unfold kinds inFolder
    cases s.disk (join [] [c.folder, n ++ ".dat".toList]) <;> simp
  rw [hp]
  cases hfind : (candidates (base r.function r.dimension)).find? (fun n => (s.disk (inFolder c (n ++ ".dat".toList))) = none) with
  | none => rfl
  | some name =>
    have hn : name.length ≤ 90 := candidate_length hf hd (List.mem_of_find?_eq_some hfind)
    simp only [Res.ok_bind]
    rw [openInfoFile_ok c r _ _ _ hf h hn]
    simp only [Res.ok_bind]
    simp (disch := omega) only [writeDataFile_ok, Res.ok_bind]
    have := writes_eq c s.disk r true name
    simp only [if_true] at this ⊢
    rw [this, List.take_of_length_le (by omega)]

end InfoFile
