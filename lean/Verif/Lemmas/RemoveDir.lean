import Verif.Model.RemoveDir
import Mathlib.Data.List.Induction
import Mathlib.Data.List.Nodup

/-!
# Lemmas about the removal of directories
-/

namespace RemoveDir
open Observer (strdupf)

/-- The file system without the object at a location and everything below it. -/
def prune (fs : Fs) (l : Path) : Fs := fs.filter fun e => decide (¬ l <+: e.1)

/-- What holds of every file system: an object has one kind, lies in a directory, and is not called `.` or `..`. -/
structure Good (fs : Fs) : Prop where
  nodup : (fs.map Prod.fst).Nodup
  parent : ∀ d n k, (d ++ [n], k) ∈ fs → kindAt fs d = some .dir
  root : ∀ k, ([], k) ∉ fs
  dots : ∀ d n k, (d ++ [n], k) ∈ fs → n ≠ ['.'] ∧ n ≠ ['.', '.']

theorem lookup_iff {fs : Fs} (h : (fs.map Prod.fst).Nodup) (l : Path) (k : Kind) : fs.lookup l = some k ↔ (l, k) ∈ fs := by
  induction fs with
  | nil => simp
  | cons e fs ih =>
    obtain ⟨a, b⟩ := e
    rw [List.map_cons, List.nodup_cons] at h
    rw [List.lookup_cons]
    by_cases hl : l = a
    · subst hl
      simp only [beq_self_eq_true, Option.some.injEq, List.mem_cons, Prod.mk.injEq, true_and]
      constructor
      · exact fun h => .inl h.symm
      · rintro (h' | h')
        · exact h'.symm
        · exact absurd (List.mem_map_of_mem h') h.1
    · have : (l == a) = false := by simpa using hl
      rw [this]
      simp only [ih h.2, List.mem_cons, Prod.mk.injEq, hl, false_and, false_or]

theorem Good.lookup {fs : Fs} (g : Good fs) {l : Path} {k : Kind} : fs.lookup l = some k ↔ (l, k) ∈ fs := lookup_iff g.nodup l k

theorem Good.sub {fs fs' : Fs} (g : Good fs) (h : fs'.Sublist fs)
    (hp : ∀ d n k, (d ++ [n], k) ∈ fs' → kindAt fs' d = some .dir) : Good fs' :=
  ⟨g.nodup.sublist (h.map _), hp, fun k hk => g.root k (h.subset hk), fun d n k hk => g.dots d n k (h.subset hk)⟩

theorem Good.mono {fs fs' : Fs} (g : Good fs) (h : fs'.Sublist fs) {l : Path} {k : Kind} (hl : fs'.lookup l = some k) :
    fs.lookup l = some k := by
  rw [lookup_iff (g.nodup.sublist (h.map _))] at hl
  exact g.lookup.mpr (h.subset hl)

theorem Good.lookup_filter {fs : Fs} (g : Good fs) {q : Path × Kind → Bool} {l : Path} {k : Kind} :
    (fs.filter q).lookup l = some k ↔ fs.lookup l = some k ∧ q (l, k) = true := by
  rw [lookup_iff (g.nodup.sublist (List.filter_sublist.map _)), List.mem_filter, g.lookup]

theorem kindAt_pos {fs : Fs} {l : Path} (h : l ≠ []) : kindAt fs l = fs.lookup l := by simp [kindAt, h]

theorem kindAt_mono {fs fs' : Fs} (g : Good fs) (h : fs'.Sublist fs) {l : Path} {k : Kind} (hl : kindAt fs' l = some k) :
    kindAt fs l = some k := by
  unfold kindAt at *
  split at hl
  · rename_i e; rw [if_pos e]; exact hl
  · rename_i e; rw [if_neg e]; exact g.mono h hl

/-- Every object above an object is a directory. -/
theorem Good.above {fs : Fs} (g : Good fs) : ∀ (s l : Path) (n : Name) (k : Kind), fs.lookup (l ++ s ++ [n]) = some k →
    kindAt fs l = some .dir := by
  intro s
  induction s using List.reverseRecOn with
  | nil =>
    intro l n k h
    rw [List.append_nil] at h
    exact g.parent l n k (g.lookup.mp h)
  | append_singleton s m ih =>
    intro l n k h
    have h1 := g.parent _ n k (g.lookup.mp h)
    rw [kindAt_pos (by simp), ← List.append_assoc] at h1
    exact ih l m .dir h1

theorem good_filter {fs : Fs} (g : Good fs) (q : Path × Kind → Bool)
    (hq : ∀ d n k, (d ++ [n], k) ∈ fs → q (d ++ [n], k) = true → d = [] ∨ q (d, .dir) = true) : Good (fs.filter q) := by
  refine g.sub List.filter_sublist ?_
  intro d n k h
  obtain ⟨h1, h2⟩ := List.mem_filter.mp h
  have hd := g.parent d n k h1
  by_cases hn : d = []
  · simp [kindAt, hn]
  · rw [kindAt_pos hn] at hd ⊢
    exact g.lookup_filter.mpr ⟨hd, (hq d n k h1 h2).resolve_left hn⟩

theorem good_prune {fs : Fs} (g : Good fs) (l : Path) : Good (prune fs l) := by
  refine good_filter g _ ?_
  intro d n k _ h
  right
  simp only [decide_eq_true_eq] at h ⊢
  exact fun h' => h (h'.trans (List.prefix_append _ _))

/-! ### Paths -/

theorem walk_mono {fs fs' : Fs} (g : Good fs) (h : fs'.Sublist fs) {f f' : Path → Option Path}
    (hf : ∀ p l, f' p = some l → f p = some l) : ∀ (p a l : Path), walk fs' f' a p = some l → walk fs f a p = some l := by
  intro p
  induction p with
  | nil => exact fun a l h => h
  | cons n rest ih =>
    intro a l hw
    unfold walk at hw ⊢
    cases hk : fs'.lookup (a ++ [n]) with
    | none => rw [hk] at hw; cases hw
    | some k =>
      rw [hk] at hw
      rw [g.mono h hk]
      cases k with
      | file => exact hw
      | dir => exact ih _ _ hw
      | link t => exact hf _ _ hw

theorem resolve_mono {fs fs' : Fs} (g : Good fs) (h : fs'.Sublist fs) : ∀ (k : Nat) (p l : Path),
    resolve fs' k p = some l → resolve fs k p = some l := by
  intro k
  induction k with
  | zero =>
    intro p l hr
    unfold resolve at hr ⊢
    exact walk_mono g h (by intro p l h; cases h) p [] l hr
  | succ k ih =>
    intro p l hr
    unfold resolve at hr ⊢
    exact walk_mono g h ih p [] l hr

theorem directoryExists_mono {fs fs' : Fs} (g : Good fs) (h : fs'.Sublist fs) {p : Path} (hd : directoryExists fs' p = true) :
    directoryExists fs p = true := by
  unfold directoryExists at *
  cases hl : locate fs' p with
  | none => rw [hl] at hd; cases hd
  | some l =>
    rw [hl] at hd
    have : locate fs p = some l := resolve_mono g h 40 p l hl
    rw [this]
    simp only [decide_eq_true_eq] at hd ⊢
    exact kindAt_mono g h hd

theorem walk_append {fs : Fs} {follow : Path → Option Path}
    (hf : ∀ q d, follow q = some d → kindAt fs d = some .dir → ∃ f, ∀ rest, follow (q ++ rest) = walk fs f d rest) :
    ∀ (q a d : Path), walk fs follow a q = some d → kindAt fs d = some .dir → ∃ f, ∀ rest, walk fs follow a (q ++ rest) = walk fs f d rest := by
  intro q
  induction q with
  | nil =>
    intro a d h _
    injection h with h
    subst h
    exact ⟨follow, fun rest => rfl⟩
  | cons n q ih =>
    intro a d h hd
    unfold walk at h
    cases hk : fs.lookup (a ++ [n]) with
    | none => rw [hk] at h; cases h
    | some k =>
      rw [hk] at h
      cases k with
      | file =>
        simp only at h
        split at h
        · injection h with h
          rw [← h, kindAt_pos (by simp), hk] at hd
          cases hd
        · cases h
      | dir =>
        obtain ⟨f, e⟩ := ih _ _ h hd
        refine ⟨f, fun rest => ?_⟩
        rw [List.cons_append, walk, hk]
        exact e rest
      | link t =>
        obtain ⟨f, e⟩ := hf _ _ h hd
        refine ⟨f, fun rest => ?_⟩
        rw [List.cons_append, walk, hk]
        simp only
        rw [← List.append_assoc]
        exact e rest

theorem resolve_append {fs : Fs} : ∀ (k : Nat) (q d : Path), resolve fs k q = some d → kindAt fs d = some .dir →
    ∃ f, ∀ rest, resolve fs k (q ++ rest) = walk fs f d rest := by
  intro k
  induction k with
  | zero => exact fun q d h hd => walk_append (by intro q d h; cases h) q [] d h hd
  | succ k ih => exact fun q d h hd => walk_append ih q [] d h hd

theorem walk_down {fs : Fs} (f : Path → Option Path) : ∀ (r a : Path), (∀ s n t, r = s ++ n :: t → fs.lookup (a ++ s ++ [n]) = some .dir) →
    ∀ rest, walk fs f a (r ++ rest) = walk fs f (a ++ r) rest := by
  intro r
  induction r with
  | nil => intro a _ rest; simp
  | cons n r ih =>
    intro a h rest
    rw [List.cons_append, walk]
    have h0 := h [] n r rfl
    rw [List.append_nil] at h0
    rw [h0]
    simp only
    rw [ih (a ++ [n]) ?_ rest]
    · simp
    · intro s m t e
      have := h (n :: s) m t (by rw [e]; rfl)
      simpa using this

/-! ### The tree -/

/-- The path names the object at `l`, and it is reached without passing through `l`. -/
structure Names (fs : Fs) (p l : Path) : Prop where
  ex : ∃ q d n, p = q ++ [n] ∧ l = d ++ [n] ∧ locate (prune fs l) q = some d ∧ kindAt (prune fs l) d = some .dir

/-- A file system between the given one and the one without the tree. -/
structure Mid (fs0 : Fs) (l : Path) (fs : Fs) : Prop where
  good : Good fs
  sub : fs.Sublist fs0
  sup : (prune fs0 l).Sublist fs

theorem tree_walk {fs0 fs : Fs} {p l : Path} (hn : Names fs0 p l) (m : Mid fs0 l fs) :
    ∃ f, ∀ (r rest : Path), kindAt fs (l ++ r) = some .dir → locate fs (p ++ r ++ rest) = walk fs f (l ++ r) rest := by
  obtain ⟨q, d, n, rfl, rfl, h1, h2⟩ := hn.ex
  have k1 := resolve_mono m.good m.sup 40 q d h1
  have k2 := kindAt_mono m.good m.sup h2
  obtain ⟨f, hf⟩ := resolve_append 40 q d k1 k2
  refine ⟨f, fun r rest hd => ?_⟩
  have e : q ++ [n] ++ r ++ rest = q ++ ((n :: r) ++ rest) := by simp
  unfold locate
  rw [e, hf, walk_down]
  · simp
  · intro s x t hs
    rw [kindAt_pos (by simp)] at hd
    by_cases ht : t = []
    · subst ht
      rw [List.append_assoc, ← hs]
      simpa using hd
    · obtain ⟨t', y, rfl⟩ := List.eq_nil_or_concat t |>.resolve_left ht
      have h := m.good.above t' (d ++ s ++ [x]) y .dir (by
        rw [← hd]
        congr 1
        have : d ++ [n] ++ r = d ++ (n :: r) := by simp
        rw [this, hs]
        simp)
      rwa [kindAt_pos (by simp)] at h

theorem tree_locate {fs0 fs : Fs} {p l : Path} (hn : Names fs0 p l) (m : Mid fs0 l fs) {r : Path} (hd : fs.lookup (l ++ r) = some .dir) :
    locate fs (p ++ r) = some (l ++ r) := by
  obtain ⟨f, hf⟩ := tree_walk hn m
  have hne : l ++ r ≠ [] := by
    obtain ⟨q, d, n, -, rfl, -, -⟩ := hn.ex
    simp
  have := hf r [] (by rw [kindAt_pos hne]; exact hd)
  rwa [List.append_nil] at this

theorem names_ne {fs0 : Fs} {p l : Path} (hn : Names fs0 p l) (r : Path) : l ++ r ≠ [] := by
  obtain ⟨q, d, n, -, rfl, -, -⟩ := hn.ex
  simp

theorem tree_dir {fs0 fs : Fs} {p l : Path} (hn : Names fs0 p l) (m : Mid fs0 l fs) {r : Path} (hd : fs.lookup (l ++ r) = some .dir) :
    directoryExists fs (p ++ r) = true := by
  unfold directoryExists
  rw [tree_locate hn m hd]
  simp [kindAt_pos (names_ne hn r), hd]

theorem tree_entry {fs0 fs : Fs} {p l : Path} (hn : Names fs0 p l) (m : Mid fs0 l fs) {r : Path} {k : Kind}
    (hd : fs.lookup (l ++ r) = some k) : locateEntry fs (p ++ r) = some (l ++ r) := by
  rcases List.eq_nil_or_concat r with rfl | ⟨r', x, rfl⟩
  · obtain ⟨q, d, n, rfl, rfl, h1, h2⟩ := hn.ex
    have k1 : locate fs q = some d := resolve_mono m.good m.sup 40 q d h1
    have k2 := kindAt_mono m.good m.sup h2
    unfold locateEntry
    simp [k1, k2]
  · have hp := m.good.parent (l ++ r') x k (m.good.lookup.mp (by rw [← hd]; simp))
    have hp' := hp
    rw [kindAt_pos (names_ne hn r')] at hp'
    have := tree_locate hn m hp'
    have e1 : p ++ (r'.concat x) = (p ++ r') ++ [x] := by simp
    unfold locateEntry
    rw [e1]
    simp only [List.getLast?_concat, List.dropLast_concat, this, hp, if_true]
    simp

theorem tree_notdir {fs0 fs : Fs} {p l : Path} (g0 : Good fs0) (hn : Names fs0 p l) (m : Mid fs0 l fs)
    (hl : ∀ r t, fs0.lookup (l ++ r) = some (.link t) → directoryExists fs0 (p ++ r) = false)
    {r : Path} (hr : r ≠ []) {k : Kind} (hd : fs.lookup (l ++ r) = some k) (hk : k ≠ .dir) : directoryExists fs (p ++ r) = false := by
  cases k with
  | dir => exact absurd rfl hk
  | link t =>
    by_contra h
    rw [Bool.not_eq_false] at h
    have := directoryExists_mono g0 m.sub h
    rw [hl r t (g0.mono m.sub hd)] at this
    cases this
  | file =>
    obtain ⟨r', x, rfl⟩ := (List.eq_nil_or_concat r).resolve_left hr
    have hp := m.good.parent (l ++ r') x .file (m.good.lookup.mp (by rw [← hd]; simp))
    obtain ⟨f, hf⟩ := tree_walk hn m
    have e1 : p ++ (r'.concat x) = p ++ r' ++ [x] := by simp
    have e2 : l ++ (r'.concat x) = l ++ r' ++ [x] := by simp
    rw [e2] at hd
    unfold directoryExists
    rw [e1, hf r' [x] hp, walk, hd]
    simp only [if_true]
    rw [kindAt_pos (by simp), hd]
    simp

/-! ### Removal -/

/-- The file system without some objects in a directory and everything below them. -/
def pruneAll (fs : Fs) (l : Path) (ns : List Name) : Fs := fs.filter fun e => decide (∀ n ∈ ns, ¬ (l ++ [n]) <+: e.1)

theorem pruneAll_cons (fs : Fs) (l : Path) (n : Name) (ns : List Name) :
    pruneAll fs l (n :: ns) = pruneAll (prune fs (l ++ [n])) l ns := by
  unfold pruneAll prune
  rw [List.filter_filter]
  congr 1
  funext e
  simp [Bool.and_comm]

theorem pruneAll_nil (fs : Fs) (l : Path) : pruneAll fs l [] = fs := by simp [pruneAll]

/-- An object that is not a directory has nothing below it. -/
theorem erase_eq {fs : Fs} (g : Good fs) {l : Path} {k : Kind} (hl : fs.lookup l = some k) (hk : k ≠ .dir) :
    erase fs l = prune fs l := by
  unfold erase prune
  apply List.filter_congr
  rintro ⟨a, b⟩ hmem
  apply decide_eq_decide.mpr
  constructor
  · rintro h ⟨s, rfl⟩
    have hs : s ≠ [] := by rintro rfl; simp at h
    obtain ⟨s', n, rfl⟩ := (List.eq_nil_or_concat s).resolve_left hs
    have h1 := g.above s' l n b (g.lookup.mpr (by simpa using hmem))
    have hne : l ≠ [] := by
      rintro rfl
      exact g.root k (g.lookup.mp hl)
    rw [kindAt_pos hne, hl] at h1
    injection h1 with h1
    exact hk h1
  · rintro h rfl
    exact h (List.prefix_refl _)

theorem mem_names {fs : Fs} {l : Path} {n : Name} : n ∈ names fs l ↔ ∃ k, (l ++ [n], k) ∈ fs := by
  unfold names
  rw [List.mem_filterMap]
  constructor
  · rintro ⟨⟨a, k⟩, hm, h⟩
    split at h
    · rename_i hc
      obtain ⟨a', x, rfl⟩ := (List.eq_nil_or_concat a).resolve_left hc.1
      simp only [List.concat_eq_append, List.dropLast_concat, List.getLast?_concat, Option.some.injEq] at hc h hm
      obtain ⟨-, rfl⟩ := hc
      subst h
      exact ⟨k, hm⟩
    · cases h
  · rintro ⟨k, hm⟩
    exact ⟨_, hm, by simp⟩

theorem names_nodup {fs : Fs} (g : Good fs) (l : Path) : (names fs l).Nodup := by
  unfold names List.Nodup
  rw [List.pairwise_filterMap]
  refine (List.pairwise_map.mp g.nodup).imp ?_
  rintro ⟨a, ka⟩ ⟨b, kb⟩ hab n hn m hm rfl
  simp only at hab hn hm
  split at hn
  · split at hm
    · rename_i h1 h2
      obtain ⟨a', x, rfl⟩ := (List.eq_nil_or_concat a).resolve_left h1.1
      obtain ⟨b', y, rfl⟩ := (List.eq_nil_or_concat b).resolve_left h2.1
      simp only [List.concat_eq_append, List.dropLast_concat, List.getLast?_concat, Option.some.injEq] at *
      rw [h1.2, h2.2, hn, hm] at hab
      exact hab rfl
    · cases hm
  · cases hn

theorem prefix_split {l a : Path} (h : l <+: a) : a = l ∨ ∃ n, l ++ [n] <+: a := by
  obtain ⟨s, rfl⟩ := h
  cases s with
  | nil => simp
  | cons n s => exact .inr ⟨n, ⟨s, by simp⟩⟩

/-- Removing the content and then the directory removes the tree. -/
theorem erase_pruneAll {fs : Fs} (g : Good fs) {l : Path} (hl : l ≠ []) :
    erase (pruneAll fs l (names fs l)) l = prune fs l := by
  unfold erase pruneAll prune
  rw [List.filter_filter]
  apply List.filter_congr
  rintro ⟨a, b⟩ hmem
  rw [← Bool.decide_and]
  apply decide_eq_decide.mpr
  simp only
  constructor
  · rintro ⟨h1, h2⟩ h
    rcases prefix_split h with h | ⟨n, h⟩
    · exact h1 h
    · refine h2 n ?_ h
      rw [mem_names]
      obtain ⟨s, rfl⟩ := h
      rcases List.eq_nil_or_concat s with rfl | ⟨s', x, rfl⟩
      · exact ⟨b, by simpa using hmem⟩
      · have := g.above s' (l ++ [n]) x b (g.lookup.mpr (by simpa using hmem))
        rw [kindAt_pos (by simp)] at this
        exact ⟨.dir, g.lookup.mp this⟩
  · intro h
    refine ⟨?_, ?_⟩
    · rintro rfl
      exact h (List.prefix_refl _)
    · intro n _ h'
      exact h ((List.prefix_append _ _).trans h')

theorem names_pruneAll (fs : Fs) (l : Path) : names (pruneAll fs l (names fs l)) l = [] := by
  rw [List.eq_nil_iff_forall_not_mem]
  intro n hn
  obtain ⟨k, hk⟩ := mem_names.mp hn
  unfold pruneAll at hk
  obtain ⟨h1, h2⟩ := List.mem_filter.mp hk
  simp only [decide_eq_true_eq] at h2
  exact h2 n (mem_names.mpr ⟨k, h1⟩) (List.prefix_refl _)

theorem not_prefix_self {l : Path} {n : Name} : ¬ l ++ [n] <+: l := by
  rintro ⟨s, h⟩
  have := congrArg List.length h
  simp at this

theorem prefix_names {l a : Path} {n m : Name} (h1 : l ++ [n] <+: a) (h2 : l ++ [m] <+: a) : n = m := by
  have h := List.prefix_of_prefix_length_le h1 h2 (by simp)
  have := h.eq_of_length (by simp)
  simpa using this

/-- Why a call did not succeed: an object in the tree cannot be removed or read, or the text of its path is too long. -/
def Hindered (env : Env) (fs : Fs) (p l : Path) : Prop :=
  ∃ r k, (l ++ r, k) ∈ fs ∧ (env.denied (l ++ r) = true ∨ env.unreadable (l ++ r) = true ∨ 441 < (text (p ++ r)).length)

theorem mid_prune {fs0 fs : Fs} {l : Path} (m : Mid fs0 l fs) {a : Path} (ha : l <+: a) : Mid fs0 l (prune fs a) := by
  refine ⟨good_prune m.good a, List.filter_sublist.trans m.sub, ?_⟩
  have h1 := m.sup.filter fun e => decide (¬ a <+: e.1)
  refine List.Sublist.trans (List.Sublist.trans (Eq.subst (motive := fun x => (prune fs0 l).Sublist x) ?_ (List.Sublist.refl _)) (List.Sublist.refl _)) h1
  unfold prune
  rw [List.filter_filter]
  apply List.filter_congr
  intro e _
  rw [← Bool.decide_and]
  apply decide_eq_decide.mpr
  constructor
  · exact fun h => ⟨fun h' => h (ha.trans h'), h⟩
  · exact fun h => h.2

/-- What a call does, for every file system. -/
structure Done (env : Env) (fs : Fs) (p l : Path) (gone : Fs) (o : Outcome) (fs' : Fs) : Prop where
  sub : fs'.Sublist fs
  sup : gone.Sublist fs'
  success : o = .returned true → fs' = gone
  failure : o ≠ .returned true → Hindered env fs p l

theorem hindered_sub {env : Env} {fs fs' : Fs} {p l : Path} (s : Path) (h : fs'.Sublist fs) :
    Hindered env fs' (p ++ s) (l ++ s) → Hindered env fs p l := by
  rintro ⟨r, k, h1, h2⟩
  refine ⟨s ++ r, k, ?_, ?_⟩
  · rw [← List.append_assoc]; exact h.subset h1
  · rw [← List.append_assoc, ← List.append_assoc]; exact h2

theorem removeAll_done {env : Env} {fs0 : Fs} {p l : Path} (g0 : Good fs0) (hn : Names fs0 p l)
    (hl : ∀ r t, fs0.lookup (l ++ r) = some (.link t) → directoryExists fs0 (p ++ r) = false) (r : Path)
    (ih : ∀ n fs, Mid fs0 l fs → fs.lookup (l ++ (r ++ [n])) = some .dir → ∃ o fs', removeDir env fs (p ++ (r ++ [n])) = some (o, fs') ∧
      Done env fs (p ++ (r ++ [n])) (l ++ (r ++ [n])) (prune fs (l ++ (r ++ [n]))) o fs') :
    ∀ (ns : List Name) (fs : Fs), ns.Nodup → Mid fs0 l fs → (∀ n ∈ ns, ∃ k, fs.lookup (l ++ r ++ [n]) = some k) →
      ∃ o fs', removeAll env fs (p ++ r) ns = some (o, fs') ∧ Done env fs (p ++ r) (l ++ r) (pruneAll fs (l ++ r) ns) o fs' := by
  intro ns
  induction ns with
  | nil =>
    intro fs _ _ _
    refine ⟨.returned true, fs, by rw [removeAll], List.Sublist.refl _, ?_, ?_, ?_⟩
    · rw [pruneAll_nil]
    · intro _; rw [pruneAll_nil]
    · intro h; exact absurd rfl h
  | cons n ns ihns =>
    intro fs hnd m hex
    rw [List.nodup_cons] at hnd
    obtain ⟨k, hk⟩ := hex n (by simp)
    have hmem := m.good.lookup.mp hk
    obtain ⟨d1, d2⟩ := m.good.dots _ _ _ hmem
    have ea : p ++ r ++ [n] = p ++ (r ++ [n]) := by simp
    have eb : l ++ r ++ [n] = l ++ (r ++ [n]) := by simp
    have hpre : l <+: l ++ r ++ [n] := by rw [eb]; exact List.prefix_append _ _
    -- the rest of the loop
    have hrest : ∃ o fs', removeAll env (prune fs (l ++ r ++ [n])) (p ++ r) ns = some (o, fs') ∧
        Done env fs (p ++ r) (l ++ r) (pruneAll fs (l ++ r) (n :: ns)) o fs' := by
      obtain ⟨o, fs', e, dn⟩ := ihns (prune fs (l ++ r ++ [n])) hnd.2 (mid_prune m hpre) (by
        intro x hx
        obtain ⟨kx, hkx⟩ := hex x (by simp [hx])
        refine ⟨kx, m.good.lookup_filter.mpr ⟨hkx, ?_⟩⟩
        simp only [decide_eq_true_eq]
        intro h
        have := prefix_names h (List.prefix_refl _)
        exact hnd.1 (this ▸ hx))
      refine ⟨o, fs', e, dn.sub.trans List.filter_sublist, ?_, ?_, ?_⟩
      · rw [pruneAll_cons]; exact dn.sup
      · rw [pruneAll_cons]; exact dn.success
      · intro h
        obtain ⟨r', k', h1, h2⟩ := dn.failure h
        exact ⟨r', k', List.filter_sublist.subset h1, h2⟩
    have hsup : ∀ fs' : Fs, (prune fs (l ++ r ++ [n])).Sublist fs' → (pruneAll fs (l ++ r) (n :: ns)).Sublist fs' := by
      intro fs' h
      rw [pruneAll_cons]
      exact List.filter_sublist.trans h
    rw [removeAll]
    rw [if_neg (by simp [d1, d2])]
    have hlong : strdupf (text (p ++ r ++ [n])) ≠ .ok (text (p ++ r ++ [n])) → Hindered env fs (p ++ r) (l ++ r) := by
      intro h
      refine ⟨[n], k, hmem, .inr (.inr ?_)⟩
      by_contra hlen
      apply h
      unfold strdupf
      rw [if_neg (by omega), if_neg (by omega)]
    have hfail : ∀ o, o ≠ .returned true → Hindered env fs (p ++ r) (l ++ r) →
        Done env fs (p ++ r) (l ++ r) (pruneAll fs (l ++ r) (n :: ns)) o fs := by
      intro o ho hh
      exact ⟨List.Sublist.refl _, List.filter_sublist, fun h => absurd h ho, fun _ => hh⟩
    cases hs : strdupf (text (p ++ r ++ [n])) with
    | error => exact ⟨_, _, rfl, hfail _ (by simp) (hlong (by rw [hs]; simp))⟩
    | assertFail => exact ⟨_, _, rfl, hfail _ (by simp) (hlong (by rw [hs]; simp))⟩
    | ub => exact ⟨_, _, rfl, hfail _ (by simp) (hlong (by rw [hs]; simp))⟩
    | ok t =>
      simp only
      by_cases hkd : k = .dir
      · subst hkd
        have hde : directoryExists fs (p ++ r ++ [n]) = true := by
          rw [ea]; exact tree_dir hn m (by rw [← eb]; exact hk)
        rw [hde]
        simp only
        obtain ⟨o, fs', e, dn⟩ := ih n fs m (by rw [← eb]; exact hk)
        rw [ea, e]
        by_cases ho : o = .returned true
        · subst ho
          have := dn.success rfl
          subst this
          rw [← eb]
          exact hrest
        · refine ⟨o, fs', ?_, dn.sub, ?_, fun h => absurd h ho, ?_⟩
          · cases o with
            | returned b => cases b with
              | true => exact absurd rfl ho
              | false => rfl
            | stopped => rfl
            | overrun => rfl
          · exact hsup _ (by rw [eb]; exact dn.sup)
          · intro _
            have := dn.failure ho
            exact hindered_sub [n] (List.Sublist.refl _) (by rw [ea, eb]; exact this)
      · have hde : directoryExists fs (p ++ r ++ [n]) = false := by
          rw [ea]; exact tree_notdir g0 hn m hl (by simp) (by rw [← eb]; exact hk) hkd
        rw [hde]
        simp only
        have hle : locateEntry fs (p ++ r ++ [n]) = some (l ++ r ++ [n]) := by
          rw [ea, eb]; exact tree_entry hn m (by rw [← eb]; exact hk)
        have hu : unlink env fs (p ++ r ++ [n]) =
            if env.denied (l ++ r ++ [n]) then (false, fs) else (true, prune fs (l ++ r ++ [n])) := by
          unfold unlink
          rw [hle]
          simp only [hk]
          rw [erase_eq m.good hk hkd]
        rw [hu]
        cases hden : env.denied (l ++ r ++ [n]) with
        | true =>
          simp only [if_true]
          exact ⟨_, _, rfl, hfail _ (by simp) ⟨[n], k, hmem, .inl hden⟩⟩
        | false =>
          simp only [Bool.false_eq_true, if_false]
          exact hrest

theorem removeDir_done {env : Env} {fs0 : Fs} {p l : Path} (g0 : Good fs0) (hn : Names fs0 p l)
    (hl : ∀ r t, fs0.lookup (l ++ r) = some (.link t) → directoryExists fs0 (p ++ r) = false) (N : Nat)
    (hN : ∀ e ∈ fs0, e.1.length ≤ N) : ∀ (c : Nat) (r : Path) (fs : Fs), N < (l ++ r).length + c → Mid fs0 l fs →
      fs.lookup (l ++ r) = some .dir → ∃ o fs', removeDir env fs (p ++ r) = some (o, fs') ∧
      Done env fs (p ++ r) (l ++ r) (prune fs (l ++ r)) o fs' ∧ (o ≠ .returned true → (l ++ r, .dir) ∈ fs') := by
  intro c
  induction c with
  | zero =>
    intro r fs hc m hd
    have := hN _ (m.sub.subset (m.good.lookup.mp hd))
    simp only at this
    omega
  | succ c ih =>
    intro r fs hc m hd
    rw [removeDir, tree_dir hn m hd]
    simp only
    have hdir : kindAt fs (l ++ r) = some .dir := by rw [kindAt_pos (names_ne hn r)]; exact hd
    have hmem := m.good.lookup.mp hd
    have ho : openDir env fs (p ++ r) = if env.unreadable (l ++ r) = false then some (['.'] :: ['.', '.'] :: names fs (l ++ r)) else none := by
      unfold openDir
      rw [tree_locate hn m hd]
      simp [hdir]
    rw [ho]
    cases hu : env.unreadable (l ++ r) with
    | true =>
      refine ⟨_, _, rfl, ⟨List.Sublist.refl _, List.filter_sublist, fun h => by simp at h, fun _ => ?_⟩, fun _ => hmem⟩
      exact ⟨[], .dir, by simpa using hmem, .inr (.inl (by simpa using hu))⟩
    | false =>
      simp only [if_true]
      rw [removeAll, if_pos (by simp), removeAll, if_pos (by simp)]
      obtain ⟨o, fs', e, dn⟩ := removeAll_done (env := env) g0 hn hl r (fun n fs m' h' => by
          obtain ⟨o, fs', e, dn, -⟩ := ih (r ++ [n]) fs (by
            simp only [List.length_append, List.length_cons, List.length_nil] at hc ⊢; omega) m' h'
          exact ⟨o, fs', e, dn⟩)
        (names fs (l ++ r)) fs (names_nodup m.good _) m (by
          intro n h
          obtain ⟨k, hk⟩ := mem_names.mp h
          exact ⟨k, m.good.lookup.mpr hk⟩)
      rw [e]
      have hsup : (prune fs (l ++ r)).Sublist (pruneAll fs (l ++ r) (names fs (l ++ r))) := by
        rw [← erase_pruneAll m.good (names_ne hn r)]
        exact List.filter_sublist
      have hd' : (pruneAll fs (l ++ r) (names fs (l ++ r))).lookup (l ++ r) = some .dir := by
        refine m.good.lookup_filter.mpr ⟨hd, ?_⟩
        simp only [decide_eq_true_eq]
        exact fun n _ => not_prefix_self
      have hmem' : (l ++ r, .dir) ∈ pruneAll fs (l ++ r) (names fs (l ++ r)) :=
        (lookup_iff (m.good.nodup.sublist (List.filter_sublist.map _)) _ _).mp hd'
      by_cases hs : o = .returned true
      · subst hs
        have := dn.success rfl
        subst this
        have m' : Mid fs0 l (pruneAll fs (l ++ r) (names fs (l ++ r))) := by
          refine ⟨good_filter m.good _ ?_, List.filter_sublist.trans m.sub, ?_⟩
          · intro d x k _ h
            right
            simp only [decide_eq_true_eq] at h ⊢
            exact fun n hn' h' => h n hn' (h'.trans (List.prefix_append _ _))
          · refine List.Sublist.trans (mid_prune m (List.prefix_append l r)).sup hsup
        have hle := tree_entry hn m' hd'
        have hr : rmdir env (pruneAll fs (l ++ r) (names fs (l ++ r))) (p ++ r) =
            if env.denied (l ++ r) = false then (true, prune fs (l ++ r)) else (false, pruneAll fs (l ++ r) (names fs (l ++ r))) := by
          unfold rmdir
          rw [hle]
          simp only [hd', names_pruneAll, true_and]
          rw [erase_pruneAll m.good (names_ne hn r)]
        simp only [Option.bind_eq_bind, Option.bind_some, hr]
        cases hden : env.denied (l ++ r) with
        | false =>
          refine ⟨_, _, rfl, ⟨List.filter_sublist, List.Sublist.refl _, fun _ => rfl, fun h => by simp at h⟩, fun h => by simp at h⟩
        | true =>
          refine ⟨_, _, rfl, ⟨List.filter_sublist, hsup, fun h => by simp at h, fun _ => ?_⟩, fun _ => hmem'⟩
          exact ⟨[], .dir, by simpa using hmem, .inl (by simpa using hden)⟩
      · refine ⟨o, fs', ?_, ⟨dn.sub, hsup.trans dn.sup, fun h => absurd h hs, fun _ => dn.failure hs⟩, fun _ => dn.sup.subset hmem'⟩
        cases o with
        | returned b => cases b with
          | true => exact absurd rfl hs
          | false => rfl
        | stopped => rfl
        | overrun => rfl

end RemoveDir
