import Verif.Lemmas.RemoveDir
import Mathlib.Algebra.Order.BigOperators.Group.List
import Mathlib.Algebra.Order.Ring.Nat

/-!
# C107: removal of directories
-/

namespace RemoveDir

/-! ### Specification

`prune fs l` is the file system without the object at `l` and everything below it, `Names fs p l` says that the path `p` names the
object at `l` (symbolic links on the way are allowed, if they are not in the tree itself), `Good` is what holds of every file
system. -/

/-- No symbolic link in the tree at `l` leads to a directory. -/
def Spec.NoLinksToDirectories (fs : Fs) (p l : Path) : Prop :=
  ∀ r t, fs.lookup (l ++ r) = some (.link t) → directoryExists fs (p ++ r) = false

/-! ### C107 -/

/-- **C107** (removal). A directory without symbolic links to directories is removed with all its content at any depth, and nothing else
is touched, if the permissions allow it and the paths are not longer than 441 characters. -/
theorem C107_removed_partial (env : Env) (fs : Fs) (p l : Path) (g : Good fs) (hn : Names fs p l) (hd : fs.lookup l = some .dir)
    (hl : Spec.NoLinksToDirectories fs p l)
    (hp : ∀ r k, (l ++ r, k) ∈ fs → env.denied (l ++ r) = false ∧ env.unreadable (l ++ r) = false ∧ (text (p ++ r)).length ≤ 441) :
    removeDir env fs p = some (.returned true, prune fs l) := by
  obtain ⟨N, hN⟩ : ∃ N, ∀ e ∈ fs, e.1.length ≤ N := by
    refine ⟨(fs.map fun e => e.1.length).sum, fun e he => ?_⟩
    exact List.single_le_sum (by simp) _ (List.mem_map_of_mem (f := fun e : Path × Kind => e.1.length) he)
  have m : Mid fs l fs := ⟨g, List.Sublist.refl _, List.filter_sublist⟩
  obtain ⟨o, fs', e, dn, hdir⟩ := removeDir_done (env := env) g hn hl N hN (N + 1) [] fs (by omega) m (by simpa using hd)
  simp only [List.append_nil] at e dn hdir
  have ho : o = .returned true := by
    by_contra h
    obtain ⟨r, k, h1, h2⟩ := dn.failure h
    obtain ⟨h3, h4, h5⟩ := hp r k h1
    rw [h3, h4] at h2
    rcases h2 with h2 | h2 | h2
    · cases h2
    · cases h2
    · omega
  rw [e, dn.success ho, ho]

/-- **C107** (failure). Whatever the permissions and the lengths of the paths: the call ends, it never touches anything outside of the
directory, it returns 0 only if the whole directory has been removed, and otherwise the directory is still there and there is
an object in it that cannot be removed or opened or whose path is too long. -/
theorem C107_inside_partial (env : Env) (fs : Fs) (p l : Path) (g : Good fs) (hn : Names fs p l) (hd : fs.lookup l = some .dir)
    (hl : Spec.NoLinksToDirectories fs p l) :
    ∃ o fs', removeDir env fs p = some (o, fs') ∧ fs'.Sublist fs ∧ (∀ e ∈ fs, e ∈ fs' ∨ l <+: e.1) ∧
      (o = .returned true → fs' = prune fs l) ∧
      (o ≠ .returned true → (l, Kind.dir) ∈ fs' ∧ ∃ r k, (l ++ r, k) ∈ fs ∧
        (env.denied (l ++ r) = true ∨ env.unreadable (l ++ r) = true ∨ 441 < (text (p ++ r)).length)) := by
  obtain ⟨N, hN⟩ : ∃ N, ∀ e ∈ fs, e.1.length ≤ N := by
    refine ⟨(fs.map fun e => e.1.length).sum, fun e he => ?_⟩
    exact List.single_le_sum (by simp) _ (List.mem_map_of_mem (f := fun e : Path × Kind => e.1.length) he)
  have m : Mid fs l fs := ⟨g, List.Sublist.refl _, List.filter_sublist⟩
  obtain ⟨o, fs', e, dn, hdir⟩ := removeDir_done (env := env) g hn hl N hN (N + 1) [] fs (by omega) m (by simpa using hd)
  simp only [List.append_nil] at e dn hdir
  refine ⟨o, fs', e, dn.sub, ?_, dn.success, fun h => ⟨hdir h, dn.failure h⟩⟩
  intro x hx
  by_cases h : l <+: x.1
  · exact .inr h
  · exact .inl (dn.sup.subset (List.mem_filter.mpr ⟨hx, by simpa using h⟩))

/-- **C107** (nothing to remove). If the path does not lead to a directory, the call returns 0 and changes nothing; in particular a
file with this path stays. -/
theorem C107_absent (env : Env) (fs : Fs) (p : Path) (h : ∀ l, locate fs p = some l → kindAt fs l ≠ some .dir) :
    removeDir env fs p = some (.returned true, fs) := by
  have : directoryExists fs p = false := by
    unfold directoryExists
    cases hl : locate fs p with
    | none => rfl
    | some l => simpa using h l hl
  rw [removeDir, this]

/-- **C107** (files). A file or a symbolic link is removed and nothing else is touched; the call returns 0 exactly if it was removed. -/
theorem C107_file (env : Env) (fs : Fs) (p l : Path) (g : Good fs) (hn : Names fs p l) :
    removeFile env fs p =
      if (∃ k, fs.lookup l = some k ∧ k ≠ .dir) ∧ env.denied l = false then (true, prune fs l) else (false, fs) := by
  have m : Mid fs l fs := ⟨g, List.Sublist.refl _, List.filter_sublist⟩
  cases hk : fs.lookup l with
  | none =>
    rw [if_neg (by simp)]
    unfold removeFile unlink
    obtain ⟨q, d, n, rfl, rfl, h1, h2⟩ := hn.ex
    have k1 : locate fs q = some d := resolve_mono g List.filter_sublist 40 q d h1
    have k2 := kindAt_mono g List.filter_sublist h2
    unfold locateEntry
    simp [k1, k2, hk]
  | some k =>
    have := tree_entry (r := []) hn m (by simpa using hk)
    simp only [List.append_nil] at this
    unfold removeFile unlink
    rw [this]
    simp only [hk]
    cases k with
    | dir => simp
    | file =>
      simp only
      rw [erase_eq g hk (by simp)]
      cases env.denied l <;> simp
    | link t =>
      simp only
      rw [erase_eq g hk (by simp)]
      cases env.denied l <;> simp

/-! ### Symbolic links and long paths -/

/-- The permissions of a process that may do everything. -/
def free : Env := ⟨fun _ => false, fun _ => false⟩

/-- A directory `/a` with a symbolic link to the directory `/b`. -/
def linked : Fs :=
  [([['a']], .dir), ([['a'], ['l']], .link [['b']]), ([['b']], .dir), ([['b'], ['d']], .dir), ([['b'], ['d'], ['f']], .file)]

/-- **C107** fails with symbolic links to directories: the removal of `/a` deletes the content of `/b`, to which a link in `/a` leads,
and then fails, leaving `/a` and the link. -/
theorem C107_link_followed : Good linked ∧ Names linked [['a']] [['a']] ∧
    removeDir free linked [['a']] =
      some (.returned false, [([['a']], .dir), ([['a'], ['l']], .link [['b']]), ([['b']], .dir)]) := by
  refine ⟨⟨by decide, ?_, ?_, ?_⟩, ⟨[], [], ['a'], rfl, rfl, by decide, by decide⟩, ?_⟩
  · intro d n k h
    simp only [linked, List.mem_cons, Prod.mk.injEq, List.not_mem_nil, or_false] at h
    rcases h with h | h | h | h | h <;>
    · have e := congrArg List.dropLast h.1
      rw [List.dropLast_concat] at e
      subst e
      decide
  · intro k h
    simp [linked] at h
  · intro d n k h
    simp only [linked, List.mem_cons, Prod.mk.injEq, List.not_mem_nil, or_false] at h
    rcases h with h | h | h | h | h <;>
    · have e := congrArg List.getLast? h.1
      rw [List.getLast?_concat] at e
      simp only [List.getLast?_cons_cons, List.getLast?_singleton, Option.some.injEq] at e
      subst e
      decide
  · have e1 : directoryExists linked [['a']] = true := by decide
    have e2 : openDir free linked [['a']] = some [['.'], ['.', '.'], ['l']] := by decide
    have e3 : directoryExists linked [['a'], ['l']] = true := by decide
    have e4 : openDir free linked [['a'], ['l']] = some [['.'], ['.', '.'], ['d']] := by decide
    have e5 : directoryExists linked [['a'], ['l'], ['d']] = true := by decide
    have e6 : openDir free linked [['a'], ['l'], ['d']] = some [['.'], ['.', '.'], ['f']] := by decide
    have e7 : directoryExists linked [['a'], ['l'], ['d'], ['f']] = false := by decide
    have skip : ∀ (fs : Fs) (p : Path) (ns : List Name), removeAll free fs p (['.'] :: ['.', '.'] :: ns) = removeAll free fs p ns := by
      intro fs p ns
      rw [removeAll, if_pos (by simp), removeAll, if_pos (by simp)]
    have s1 : removeDir free linked [['a'], ['l'], ['d']] = some (.returned true,
        [([['a']], .dir), ([['a'], ['l']], .link [['b']]), ([['b']], .dir)]) := by
      rw [removeDir, e5]
      simp only [e6]
      rw [skip, removeAll, if_neg (by decide)]
      have h1 : Observer.strdupf (text ([['a'], ['l'], ['d']] ++ [['f']])) = .ok "/a/l/d/f".toList := by decide
      rw [h1]
      simp only [List.cons_append, List.nil_append, e7]
      have h2 : unlink free linked [['a'], ['l'], ['d'], ['f']] = (true,
        [([['a']], .dir), ([['a'], ['l']], .link [['b']]), ([['b']], .dir), ([['b'], ['d']], .dir)]) := by decide
      rw [h2]
      simp only
      rw [removeAll]
      decide
    have s2 : removeDir free linked [['a'], ['l']] = some (.returned false,
        [([['a']], .dir), ([['a'], ['l']], .link [['b']]), ([['b']], .dir)]) := by
      rw [removeDir, e3]
      simp only [e4]
      rw [skip, removeAll, if_neg (by decide)]
      have h1 : Observer.strdupf (text ([['a'], ['l']] ++ [['d']])) = .ok "/a/l/d".toList := by decide
      rw [h1]
      simp only [List.cons_append, List.nil_append, e5, s1, Option.bind_eq_bind, Option.bind_some]
      rw [removeAll]
      decide
    rw [removeDir, e1]
    simp only [e2]
    rw [skip, removeAll, if_neg (by decide)]
    have h1 : Observer.strdupf (text ([['a']] ++ [['l']])) = .ok "/a/l".toList := by decide
    rw [h1]
    simp only [List.cons_append, List.nil_append, e3, s2, Option.bind_eq_bind, Option.bind_some]

/-- A directory with a file and an object with a long name. -/
def long (n : Nat) : Fs := [([['a']], .dir), ([['a'], ['f']], .file), ([['a'], List.replicate n 'x'], .file)]

/-- **C107** fails with long paths: if the text of a path in the directory (here two separators, one letter and a name) is longer than 443
characters, the call writes outside of a buffer; files found before are gone then. -/
theorem C107_long (n : Nat) (hn : 441 ≤ n) :
    removeDir free (long n) [['a']] = some (.overrun, [([['a']], .dir), ([['a'], List.replicate n 'x'], .file)]) := by
  obtain ⟨n, rfl⟩ : ∃ m, n = m + 2 := ⟨n - 2, by omega⟩
  have hx : List.replicate (n + 2) 'x' = 'x' :: 'x' :: List.replicate n 'x' := by simp [List.replicate_succ]
  unfold long
  rw [hx]
  have e1 : directoryExists [([['a']], .dir), ([['a'], ['f']], .file), ([['a'], 'x' :: 'x' :: List.replicate n 'x'], .file)] [['a']] = true := by
    simp [directoryExists, locate, resolve, walk, kindAt, List.lookup]
  have e2 : openDir free [([['a']], .dir), ([['a'], ['f']], .file), ([['a'], 'x' :: 'x' :: List.replicate n 'x'], .file)] [['a']] =
      some [['.'], ['.', '.'], ['f'], 'x' :: 'x' :: List.replicate n 'x'] := by
    simp [openDir, free, locate, resolve, walk, kindAt, List.lookup, names]
  have e3 : directoryExists [([['a']], .dir), ([['a'], ['f']], .file), ([['a'], 'x' :: 'x' :: List.replicate n 'x'], .file)] [['a'], ['f']] = false := by
    simp [directoryExists, locate, resolve, walk, kindAt, List.lookup]
  have e4 : unlink free [([['a']], .dir), ([['a'], ['f']], .file), ([['a'], 'x' :: 'x' :: List.replicate n 'x'], .file)] [['a'], ['f']] =
      (true, [([['a']], .dir), ([['a'], 'x' :: 'x' :: List.replicate n 'x'], .file)]) := by
    simp [unlink, free, locateEntry, locate, resolve, walk, kindAt, List.lookup, erase]
  rw [removeDir, e1]
  simp only [e2]
  rw [removeAll, if_pos (by simp), removeAll, if_pos (by simp), removeAll, if_neg (by decide)]
  have h1 : Observer.strdupf (text ([['a']] ++ [['f']])) = .ok "/a/f".toList := by decide
  rw [h1]
  simp only [List.cons_append, List.nil_append, e3, e4]
  rw [removeAll, if_neg (by simp)]
  have h2 : Observer.strdupf (text ([['a']] ++ ['x' :: 'x' :: List.replicate n 'x'])) = .ub := by
    unfold Observer.strdupf
    rw [if_pos]
    simp [text]
    omega
  rw [h2]
  rfl

/-! ### A case that meets the hypotheses -/

/-- `/tmp` is a symbolic link to `/var`; the directory `/tmp/e` has a directory, a file, a link to a file outside and a link to nowhere. -/
def sample : Fs :=
  [(["tmp".toList], .link ["var".toList]), (["var".toList], .dir), (["var".toList, "x".toList], .file),
    (["var".toList, "e".toList], .dir), (["var".toList, "e".toList, "d".toList], .dir),
    (["var".toList, "e".toList, "d".toList, "f".toList], .file), (["var".toList, "e".toList, "l".toList], .link ["var".toList, "x".toList]),
    (["var".toList, "e".toList, "m".toList], .link ["none".toList]), (["var".toList, "ee".toList], .file)]

theorem sample_good : Good sample := by
  refine ⟨by decide, ?_, ?_, ?_⟩
  · intro d n k h
    simp only [sample, List.mem_cons, Prod.mk.injEq, List.not_mem_nil, or_false] at h
    rcases h with h | h | h | h | h | h | h | h | h <;>
    · have e := congrArg List.dropLast h.1
      rw [List.dropLast_concat] at e
      subst e
      decide
  · intro k h
    simp [sample] at h
  · intro d n k h
    simp only [sample, List.mem_cons, Prod.mk.injEq, List.not_mem_nil, or_false] at h
    rcases h with h | h | h | h | h | h | h | h | h <;>
    · have e := congrArg List.getLast? h.1
      rw [List.getLast?_concat] at e
      simp only [List.getLast?_cons_cons, List.getLast?_singleton, Option.some.injEq] at e
      subst e
      decide

theorem sample_names : Names sample ["tmp".toList, "e".toList] ["var".toList, "e".toList] :=
  ⟨["tmp".toList], ["var".toList], "e".toList, rfl, rfl, by decide, by decide⟩

theorem sample_links : Spec.NoLinksToDirectories sample ["tmp".toList, "e".toList] ["var".toList, "e".toList] := by
  intro r t h
  have h := sample_good.lookup.mp h
  simp only [sample, List.mem_cons, Prod.mk.injEq, List.not_mem_nil, or_false] at h
  rcases h with h | h | h | h | h | h | h | h | h
  · simp at h
  · simp at h
  · simp at h
  · simp at h
  · simp at h
  · simp at h
  · simp only [List.cons_append, List.nil_append, List.cons.injEq, true_and] at h
    rw [h.1]; decide
  · simp only [List.cons_append, List.nil_append, List.cons.injEq, true_and] at h
    rw [h.1]; decide
  · simp at h

example : removeDir free sample ["tmp".toList, "e".toList] = some (.returned true,
    [(["tmp".toList], .link ["var".toList]), (["var".toList], .dir), (["var".toList, "x".toList], .file),
      (["var".toList, "ee".toList], .file)]) := by
  rw [C107_removed_partial free sample _ _ sample_good sample_names (by decide) sample_links]
  · decide
  · intro r k h
    refine ⟨rfl, rfl, ?_⟩
    simp only [sample, List.mem_cons, Prod.mk.injEq, List.not_mem_nil, or_false] at h
    rcases h with h | h | h | h | h | h | h | h | h <;> simp at h
    · rw [h.1]; decide
    · rw [h.1]; decide
    · rw [h.1]; decide
    · rw [h.1]; decide
    · rw [h.1]; decide

/-- If the file in the inner directory cannot be removed, nothing outside is touched. -/
example : ∃ o fs', removeDir ⟨fun l => decide (l.length = 4), fun _ => false⟩ sample ["tmp".toList, "e".toList] = some (o, fs') ∧
    (["var".toList, "x".toList], Kind.file) ∈ fs' ∧ (["var".toList, "ee".toList], Kind.file) ∈ fs' := by
  obtain ⟨o, fs', h1, -, h2, -⟩ := C107_inside_partial ⟨fun l => decide (l.length = 4), fun _ => false⟩ sample _ _ sample_good sample_names
    (by decide) sample_links
  exact ⟨o, fs', h1, (h2 _ (by decide)).resolve_right (by decide), (h2 _ (by decide)).resolve_right (by decide)⟩

example : removeDir free sample ["tmp".toList, "x".toList] = some (.returned true, sample) :=
  C107_absent _ _ _ (by decide)

example : removeFile free sample ["tmp".toList, "x".toList] = (true, prune sample ["var".toList, "x".toList]) := by
  rw [C107_file free sample ["tmp".toList, "x".toList] ["var".toList, "x".toList] sample_good
    ⟨["tmp".toList], ["var".toList], "x".toList, rfl, rfl, by decide, by decide⟩]
  rw [if_pos ⟨⟨.file, by decide, by decide⟩, rfl⟩]

end RemoveDir
