import Mathlib.Data.List.Basic
import Mathlib.Tactic.Common
import Verif.Model.BiobjFiles
import Verif.Lemmas.InfoFile

/-!
# Lemmas on the files of the bi-objective observer
-/

namespace BiobjFiles
open FileSystem.Spec (join)
open InfoFile (Disk append dec dec_digit digits_split)
open LoggerBiobj (Mode)

/-! ### Specification of the names of the files -/

namespace Spec

/-- The conversion `%0<w>lu`. -/
def pad (w n : Nat) : List Char := List.replicate (w - (dec n).length) '0' ++ dec n

/-- The endings of the files for a function and dimension. -/
inductive Ext where
  | dat | tdat | rdat | mdat
deriving DecidableEq

def Ext.text : Ext → List Char
  | .dat => "_hyp.dat".toList
  | .tdat => "_hyp.tdat".toList
  | .rdat => "_hyp.rdat".toList
  | .mdat => ".mdat".toList

/-- The identifiers of the problems of a suite: name, and the widths of the numbers. -/
structure Format where
  suite : List Char
  name : List Char
  wf : Nat
  wi : Nat
  wd : Nat

/-- The files of an experiment. -/
inductive File where
  | info (ptype : List Char)
  | data (ptype : List Char) (function dimension : Nat) (e : Ext)
  | archive (function dimension inst : Nat)
deriving DecidableEq

/-- `<name>_f<function>_d<dimension>`. -/
def stem (F : Format) (f d : Nat) : List Char := F.name ++ "_f".toList ++ pad F.wf f ++ "_d".toList ++ pad F.wd d

/-- `<name>_f<function>_i<instance>_d<dimension>`. -/
def ident (F : Format) (f i d : Nat) : List Char :=
  F.name ++ "_f".toList ++ pad F.wf f ++ "_i".toList ++ pad F.wi i ++ "_d".toList ++ pad F.wd d

/-- The ending of the archive files. -/
def archiveEnding (c : Conf) : List Char := if c.mode = .all then "_nondom_all.adat".toList else "_nondom_final.adat".toList

/-- The path of a file. -/
def File.path (c : Conf) (F : Format) : File → List Char
  | .info t => join c.folder [t ++ "_hyp.info".toList]
  | .data t f d e => join c.folder [t, stem F f d ++ e.text]
  | .archive f d i => join c.folder ["archive".toList, ident F f i d ++ archiveEnding c]

/-- The names of folders contain no separator. -/
def File.Ok : File → Prop
  | .info t => '/' ∉ t
  | .data t _ _ _ => '/' ∉ t
  | .archive _ _ _ => True

end Spec

open Spec

/-! ### Numbers with leading zeros -/

theorem pad_digit (w n : Nat) : ∀ c ∈ pad w n, c.isDigit = true := by
  intro c hc
  rcases List.mem_append.mp hc with h | h
  · rw [List.eq_of_mem_replicate h]; decide
  · exact dec_digit n c h

theorem foldl_zeros (k : Nat) : (List.replicate k '0').foldl (fun v c => 10 * v + CStr.digitVal c) 0 = 0 := by
  induction k with
  | zero => rfl
  | succ k ih =>
    rw [List.replicate_succ, List.foldl_cons]
    exact ih

theorem digitVal_digitChar : ∀ k < 10, CStr.digitVal (Nat.digitChar k) = k := by decide

theorem decimal_dec (n : Nat) : CStr.decimal (dec n) = n := by
  induction n using Nat.strong_induction_on with
  | _ n ih =>
    unfold dec
    rw [Nat.toDigits_eq_if (by decide)]
    by_cases h : n < 10
    · rw [if_pos h]
      simp only [CStr.decimal, List.foldl_cons, List.foldl_nil]
      rw [digitVal_digitChar n h]; omega
    · rw [if_neg h]
      have h1 := ih (n / 10) (by omega)
      unfold CStr.decimal dec at h1
      simp only [CStr.decimal, List.foldl_append, List.foldl_cons, List.foldl_nil]
      rw [h1, digitVal_digitChar _ (Nat.mod_lt _ (by decide))]
      omega

theorem decimal_pad (w n : Nat) : CStr.decimal (pad w n) = n := by
  have := decimal_dec n
  unfold CStr.decimal at this ⊢
  rw [pad, List.foldl_append, foldl_zeros, this]

theorem pad_inj {w m n : Nat} (h : pad w m = pad w n) : m = n := by
  have := congrArg CStr.decimal h
  rwa [decimal_pad, decimal_pad] at this

/-! ### Removal of the instance from the identifier -/

theorem strstr_skip (a s p : List Char) (ha : '_' ∉ a) :
    Str.strstr (a ++ s) ('_' :: p) = (Str.strstr s ('_' :: p)).map (· + a.length) := by
  induction a with
  | nil => simp
  | cons c a ih =>
    have hc : '_' ≠ c := fun h => ha (by rw [h]; exact List.mem_cons_self)
    rw [List.cons_append, Str.strstr, if_neg (by simp [List.isPrefixOf, hc])]
    rw [ih (fun h => ha (List.mem_cons_of_mem _ h)), Option.map_map]
    congr 1

theorem strstr_other (x y : Char) (s p : List Char) (h : x ≠ y) :
    Str.strstr ('_' :: x :: s) ('_' :: y :: p) = (Str.strstr (x :: s) ('_' :: y :: p)).map (· + 1) := by
  rw [Str.strstr, if_neg (by simp [List.isPrefixOf, h.symm])]

theorem strstr_here (s p : List Char) : Str.strstr (p ++ s) p = some 0 := by
  rw [Str.strstr.eq_def, if_pos]
  rw [List.isPrefixOf_iff_prefix]
  exact List.prefix_append p s

theorem digits_no_underscore {ds : List Char} (h : ∀ c ∈ ds, c.isDigit = true) : '_' ∉ ds := by
  intro hm
  have := h _ hm
  revert this
  decide

/-- `coco_remove_from_string(id, "_i", "_d")` removes the instance. -/
theorem remove_ok (name f i d : List Char) (hn : '_' ∉ name) (hf : ∀ c ∈ f, c.isDigit = true) (hi : ∀ c ∈ i, c.isDigit = true) :
    Str.removeFromString (name ++ "_f".toList ++ f ++ "_i".toList ++ i ++ "_d".toList ++ d) "_i".toList "_d".toList =
      .ok (name ++ "_f".toList ++ f ++ "_d".toList ++ d) := by
  have sf : "_f".toList = ['_', 'f'] := by decide +kernel
  have si : "_i".toList = ['_', 'i'] := by decide +kernel
  have sd : "_d".toList = ['_', 'd'] := by decide +kernel
  have hf' : '_' ∉ 'f' :: f := by
    simp only [List.mem_cons, not_or]
    exact ⟨by decide, digits_no_underscore hf⟩
  have hi' : '_' ∉ 'i' :: i := by
    simp only [List.mem_cons, not_or]
    exact ⟨by decide, digits_no_underscore hi⟩
  rw [sf, si, sd]
  have e : name ++ ['_', 'f'] ++ f ++ ['_', 'i'] ++ i ++ ['_', 'd'] ++ d =
      name ++ ('_' :: (('f' :: f) ++ ('_' :: (('i' :: i) ++ ('_' :: 'd' :: d))))) := by simp
  have e2 : name ++ ['_', 'f'] ++ f ++ ['_', 'd'] ++ d = (name ++ '_' :: 'f' :: f) ++ '_' :: 'd' :: d := by simp
  have h1 : Str.strstr (name ++ ('_' :: (('f' :: f) ++ ('_' :: (('i' :: i) ++ ('_' :: 'd' :: d)))))) ['_', 'i'] =
      some (name.length + (f.length + 2)) := by
    rw [strstr_skip _ _ _ hn, List.cons_append, strstr_other _ _ _ _ (by decide), ← List.cons_append, strstr_skip _ _ _ hf']
    have := strstr_here (i ++ ('_' :: 'd' :: d)) ['_', 'i']
    simp only [List.cons_append, List.nil_append] at this ⊢
    rw [this]
    simp
    omega
  have h2 : Str.strstr (name ++ ('_' :: (('f' :: f) ++ ('_' :: (('i' :: i) ++ ('_' :: 'd' :: d)))))) ['_', 'd'] =
      some (name.length + (f.length + 2) + (i.length + 2)) := by
    rw [strstr_skip _ _ _ hn, List.cons_append, strstr_other _ _ _ _ (by decide), ← List.cons_append, strstr_skip _ _ _ hf',
      List.cons_append, strstr_other _ _ _ _ (by decide), ← List.cons_append, strstr_skip _ _ _ hi']
    have := strstr_here d ['_', 'd']
    simp only [List.cons_append, List.nil_append] at this ⊢
    rw [this]
    simp
    omega
  unfold Str.removeFromString
  rw [e, e2]
  simp only [List.cons_ne_nil, if_false, h1, h2]
  rw [if_neg (by omega)]
  congr 1
  have t1 : name ++ ('_' :: (('f' :: f) ++ ('_' :: (('i' :: i) ++ ('_' :: 'd' :: d))))) =
      (name ++ '_' :: 'f' :: f) ++ (('_' :: 'i' :: i) ++ ('_' :: 'd' :: d)) := by simp
  rw [t1, List.take_left' (by simp)]
  congr 1
  rw [← List.append_assoc, List.drop_left' (by simp; omega)]

/-! ### Files -/

theorem join_one (p a : List Char) (hp : p ≠ []) : join p [a] = p ++ '/' :: a := by
  simp [join, hp]

theorem join_two (p a b : List Char) (hp : p ≠ []) : join p [a, b] = p ++ '/' :: (a ++ '/' :: b) := by
  simp [join, hp]

/-- The text up to the first separator. -/
theorem slash_split : ∀ (a b x y : List Char), '/' ∉ a → '/' ∉ b → a ++ '/' :: x = b ++ '/' :: y → a = b ∧ x = y := by
  intro a
  induction a with
  | nil =>
    intro b x y _ hb h
    cases b with
    | nil => exact ⟨rfl, by simpa using h⟩
    | cons c b =>
      simp only [List.nil_append, List.cons_append, List.cons.injEq] at h
      exact absurd (by rw [h.1]; exact List.mem_cons_self) hb
  | cons c a ih =>
    intro b x y ha hb h
    cases b with
    | nil =>
      simp only [List.nil_append, List.cons_append, List.cons.injEq] at h
      exact absurd (by rw [← h.1]; exact List.mem_cons_self) ha
    | cons d b =>
      simp only [List.cons_append, List.cons.injEq] at h
      obtain ⟨h1, h2⟩ := ih b x y (fun hm => ha (by simp [hm])) (fun hm => hb (by simp [hm])) h.2
      exact ⟨by rw [h.1, h1], h2⟩

theorem ext_last (e : Ext) : e.text.getLast? = some 't' := by cases e <;> decide +kernel

/-- The last five characters distinguish the endings. -/
theorem ext_tail (e : Ext) : ∃ a, e.text = a ++ e.text.drop (e.text.length - 5) := ⟨_, (List.take_append_drop _ _).symm⟩

theorem append_tail {a b x y : List Char} (h : a ++ x = b ++ y) (k : Nat) (hx : k ≤ x.length) (hy : k ≤ y.length) :
    x.drop (x.length - k) = y.drop (y.length - k) := by
  have h1 := congrArg (fun l : List Char => l.drop (l.length - k)) h
  rw [List.length_append, List.length_append, List.drop_append, List.drop_append] at h1
  rw [List.drop_of_length_le (by omega), List.drop_of_length_le (l := b) (by omega)] at h1
  simp only [List.nil_append] at h1
  have e1 : a.length + x.length - k - a.length = x.length - k := by omega
  have e2 : b.length + y.length - k - b.length = y.length - k := by omega
  rwa [e1, e2] at h1

theorem ext_len (e : Ext) : 5 ≤ e.text.length := by cases e <;> decide +kernel

theorem ext_text_inj {e e' : Ext} {a b : List Char} (h : a ++ e.text = b ++ e'.text) : e = e' := by
  have := append_tail h 5 (ext_len e) (ext_len e')
  revert this
  cases e <;> cases e' <;> decide +kernel

theorem ext_ne_archive {e : Ext} {a b : List Char} (c : Conf) : a ++ e.text ≠ b ++ archiveEnding c := by
  intro h
  have h5 : 5 ≤ (archiveEnding c).length := by
    unfold archiveEnding
    split <;> decide +kernel
  have := append_tail h 5 (ext_len e) h5
  revert this
  unfold archiveEnding
  split <;> cases e <;> decide +kernel

theorem info_ne_ext {e : Ext} {a b : List Char} : a ++ "_hyp.info".toList ≠ b ++ e.text := by
  intro h
  have := append_tail h 5 (by decide +kernel) (ext_len e)
  revert this
  cases e <;> decide +kernel

theorem info_ne_archive {a b : List Char} (c : Conf) : a ++ "_hyp.info".toList ≠ b ++ archiveEnding c := by
  intro h
  have h5 : 5 ≤ (archiveEnding c).length := by
    unfold archiveEnding
    split <;> decide +kernel
  have := append_tail h 5 (by decide +kernel) h5
  revert this
  unfold archiveEnding
  split <;> decide +kernel

theorem head_underscore {s : List Char} (hs : s.head? = some '_' ∨ s.head? = some '.') :
    ∀ c, s.head? = some c → c.isDigit = false := by
  intro c hc
  rcases hs with h | h <;> (rw [h] at hc; cases hc; decide)

theorem d_head (x : List Char) : ("_d".toList ++ x).head? = some '_' := by
  have : "_d".toList = ['_', 'd'] := by decide +kernel
  rw [this]; rfl

theorem i_head (x : List Char) : ("_i".toList ++ x).head? = some '_' := by
  have : "_i".toList = ['_', 'i'] := by decide +kernel
  rw [this]; rfl

theorem stem_inj (F : Format) {f d f' d' : Nat} {x y : List Char} (hx : x.head? = some '_' ∨ x.head? = some '.')
    (hy : y.head? = some '_' ∨ y.head? = some '.') (h : stem F f d ++ x = stem F f' d' ++ y) : f = f' ∧ d = d' := by
  unfold stem at h
  simp only [List.append_assoc, List.append_right_inj] at h
  obtain ⟨h1, h⟩ := digits_split _ _ _ _ (pad_digit F.wf f) (pad_digit F.wf f') (head_underscore (Or.inl (d_head _)))
    (head_underscore (Or.inl (d_head _))) h
  simp only [List.append_right_inj] at h
  obtain ⟨h2, _⟩ := digits_split _ _ _ _ (pad_digit F.wd d) (pad_digit F.wd d') (head_underscore hx) (head_underscore hy) h
  exact ⟨pad_inj h1, pad_inj h2⟩

theorem ident_inj (F : Format) {f i d f' i' d' : Nat} {x y : List Char} (hx : x.head? = some '_')
    (hy : y.head? = some '_') (h : ident F f i d ++ x = ident F f' i' d' ++ y) : f = f' ∧ i = i' ∧ d = d' := by
  unfold ident at h
  simp only [List.append_assoc, List.append_right_inj] at h
  obtain ⟨h1, h⟩ := digits_split _ _ _ _ (pad_digit F.wf f) (pad_digit F.wf f') (head_underscore (Or.inl (i_head _)))
    (head_underscore (Or.inl (i_head _))) h
  simp only [List.append_right_inj] at h
  obtain ⟨h2, h⟩ := digits_split _ _ _ _ (pad_digit F.wi i) (pad_digit F.wi i') (head_underscore (Or.inl (d_head _)))
    (head_underscore (Or.inl (d_head _))) h
  simp only [List.append_right_inj] at h
  obtain ⟨h3, _⟩ := digits_split _ _ _ _ (pad_digit F.wd d) (pad_digit F.wd d') (head_underscore (Or.inl hx))
    (head_underscore (Or.inl hy)) h
  exact ⟨pad_inj h1, pad_inj h2, pad_inj h3⟩

theorem ext_head (e : Ext) : e.text.head? = some '_' ∨ e.text.head? = some '.' := by
  cases e <;> decide +kernel

theorem archive_head (c : Conf) : (archiveEnding c).head? = some '_' := by
  unfold archiveEnding
  split <;> decide +kernel

/-- Different files have different paths. -/
theorem path_inj (c : Conf) (F : Format) (hc : c.folder ≠ []) {a b : File} (ha : a.Ok) (hb : b.Ok)
    (h : a.path c F = b.path c F) : a = b := by
  have hinfo : ∀ (t t' x e : List Char), t ++ "_hyp.info".toList = t' ++ '/' :: (x ++ e) →
      t ++ "_hyp.info".toList = (t' ++ '/' :: x) ++ e := by
    intro t t' x e h; rw [h]; simp
  cases a with
  | info t =>
    cases b with
    | info t' =>
      simp only [File.path, join_one _ _ hc, List.append_right_inj, List.cons.injEq, true_and, List.append_left_inj] at h
      rw [h]
    | data t' f d e =>
      simp only [File.path, join_one _ _ hc, join_two _ _ _ hc, List.append_right_inj, List.cons.injEq, true_and] at h
      exact absurd (hinfo _ _ _ _ h) info_ne_ext
    | archive f d i =>
      simp only [File.path, join_one _ _ hc, join_two _ _ _ hc, List.append_right_inj, List.cons.injEq, true_and] at h
      exact absurd (hinfo _ _ _ _ h) (info_ne_archive c)
  | data t f d e =>
    cases b with
    | info t' =>
      simp only [File.path, join_one _ _ hc, join_two _ _ _ hc, List.append_right_inj, List.cons.injEq, true_and] at h
      exact absurd (hinfo _ _ _ _ h.symm) info_ne_ext
    | data t' f' d' e' =>
      simp only [File.path, join_two _ _ _ hc, List.append_right_inj, List.cons.injEq, true_and] at h
      obtain ⟨h1, h2⟩ := slash_split _ _ _ _ ha hb h
      obtain ⟨h3, h4⟩ := stem_inj F (ext_head e) (ext_head e') h2
      rw [h1, h3, h4, ext_text_inj h2]
    | archive f' d' i' =>
      simp only [File.path, join_two _ _ _ hc, List.append_right_inj, List.cons.injEq, true_and] at h
      have h' : (t ++ '/' :: stem F f d) ++ e.text = ("archive".toList ++ '/' :: ident F f' i' d') ++ archiveEnding c := by
        simpa using h
      exact absurd h' (ext_ne_archive c)
  | archive f d i =>
    cases b with
    | info t' =>
      simp only [File.path, join_one _ _ hc, join_two _ _ _ hc, List.append_right_inj, List.cons.injEq, true_and] at h
      exact absurd (hinfo _ _ _ _ h.symm) (info_ne_archive c)
    | data t' f' d' e' =>
      simp only [File.path, join_two _ _ _ hc, List.append_right_inj, List.cons.injEq, true_and] at h
      have h' : (t' ++ '/' :: stem F f' d') ++ e'.text = ("archive".toList ++ '/' :: ident F f i d) ++ archiveEnding c := by
        simpa using h.symm
      exact absurd h' (ext_ne_archive c)
    | archive f' d' i' =>
      simp only [File.path, join_two _ _ _ hc, List.append_right_inj, List.cons.injEq, true_and] at h
      obtain ⟨h1, h2, h3⟩ := ident_inj F (archive_head c) (archive_head c) h
      rw [h1, h2, h3]

/-! ### Writing to several files -/

/-- Texts appended to files, one after the other. -/
def writeAll (c : Conf) (F : Format) (disk : Disk) (ws : List (File × List Char)) : Disk :=
  ws.foldl (fun d w => append d (w.1.path c F) w.2) disk

theorem writeAll_file (c : Conf) (F : Format) (hc : c.folder ≠ []) (ws : List (File × List Char)) (hw : ∀ w ∈ ws, w.1.Ok)
    (k : File) (hk : k.Ok) : ∀ disk : Disk,
    writeAll c F disk ws (k.path c F) =
      if k ∈ ws.map (·.1) then
        some ((disk (k.path c F)).getD [] ++ (ws.filter (fun w => w.1 = k)).flatMap (·.2))
      else disk (k.path c F) := by
  induction ws with
  | nil => intro disk; simp [writeAll]
  | cons w ws ih =>
    intro disk
    have h := ih (fun w hw' => hw w (by simp [hw'])) (append disk (w.1.path c F) w.2)
    have e : writeAll c F disk (w :: ws) = writeAll c F (append disk (w.1.path c F) w.2) ws := rfl
    rw [e, h]
    by_cases hwk : w.1 = k
    · have e2 : append disk (w.1.path c F) w.2 (k.path c F) = some ((disk (k.path c F)).getD [] ++ w.2) := by
        rw [hwk]; simp [append]
      rw [e2]
      have hm : k ∈ (w :: ws).map (·.1) := by simp [hwk]
      rw [if_pos hm, List.filter_cons_of_pos (by simpa using hwk)]
      by_cases hk' : k ∈ ws.map (·.1)
      · rw [if_pos hk']; simp
      · rw [if_neg hk']
        have : ws.filter (fun w => w.1 = k) = [] := by
          rw [List.filter_eq_nil_iff]
          intro w' hw' hh
          exact hk' (List.mem_map.mpr ⟨w', hw', by simpa using hh⟩)
        rw [this]; simp
    · have e2 : append disk (w.1.path c F) w.2 (k.path c F) = disk (k.path c F) := by
        unfold append
        rw [if_neg]
        intro hp
        exact hwk (path_inj c F hc hk (hw w (by simp)) hp).symm
      rw [e2, List.filter_cons_of_neg (by simpa using hwk)]
      have : k ∈ (w :: ws).map (·.1) ↔ k ∈ ws.map (·.1) := by
        rw [List.map_cons, List.mem_cons]
        exact or_iff_right (Ne.symm hwk)
      simp only [this]

theorem writeAll_other (c : Conf) (F : Format) (ws : List (File × List Char)) (p : List Char)
    (hp : ∀ w ∈ ws, p ≠ w.1.path c F) : ∀ disk : Disk, writeAll c F disk ws p = disk p := by
  induction ws with
  | nil => intro disk; rfl
  | cons w ws ih =>
    intro disk
    have e : writeAll c F disk (w :: ws) = writeAll c F (append disk (w.1.path c F) w.2) ws := rfl
    rw [e, ih (fun w hw' => hp w (by simp [hw']))]
    unfold append
    rw [if_neg (hp w (by simp))]

theorem writeAll_append (c : Conf) (F : Format) (disk : Disk) (a b : List (File × List Char)) :
    writeAll c F disk (a ++ b) = writeAll c F (writeAll c F disk a) b := by
  unfold writeAll
  rw [List.foldl_append]

end BiobjFiles
