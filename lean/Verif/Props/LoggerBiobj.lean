import Verif.Lemmas.LoggerBiobj
import Verif.Props.Triggers

/-!
Properties C38 (archive and hypervolume), C39 (feeding solutions, evaluation-number triggers), C72 (indicator
value), C73 (archive file), C74 (restarts and last lines) of the bi-objective logger `/repo/src/logger_biobj.c`.
-/

namespace LoggerBiobj
open MO Front
open Archive (Normal normal_normal normalize_eq)

/-! ### Specification -/

/-- A solution given to the logger. -/
structure Spec.Sol where
  ev : Nat
  x : List ℚ
  y1 : ℚ
  y2 : ℚ
  feasible : Bool

/-- The largest evaluation number so far. -/
def Spec.lastEv (l : List Spec.Sol) : Nat := match l.getLast? with | none => 0 | some s => s.ev

/-- The solutions given so far after one more call. An evaluated solution gets the next evaluation number and
is feasible if no constraint value is positive; a fed solution has the given number and is feasible. -/
def Spec.addOp (dim : Nat) (l : List Spec.Sol) : Op → List Spec.Sol
  | .evaluate x y1 y2 cons => l ++ [⟨Spec.lastEv l + 1, x, y1, y2, decide (∀ c ∈ cons, c ≤ 0)⟩]
  | .feed ev y1 y2 => l ++ [⟨ev, List.replicate dim 0, y1, y2, true⟩]
  | _ => l

/-- The solutions given by a sequence of calls. -/
def Spec.sols (dim : Nat) (h : List Op) : List Spec.Sol := h.foldl (Spec.addOp dim) []

/-- Solutions are fed only in mode `read` and only with increasing evaluation numbers. -/
def Spec.Legal (mode : Mode) (dim : Nat) (h : List Op) : Prop :=
  ∀ h1 ev y1 y2 h2, h = h1 ++ .feed ev y1 y2 :: h2 → mode = .read ∧ Spec.lastEv (Spec.sols dim h1) < ev

/-- The normalised objective vector. -/
def Spec.point {T : Type} (P : Params T) (s : Spec.Sol) : ℚ × ℚ := Archive.Spec.normal P.i1 P.i2 P.n1 P.n2 s.y1 s.y2

/-- A solution belongs to the archive: it is feasible, and every feasible solution that is at least as good in
both objectives has the same vector and came later (or is the solution itself). -/
def Spec.Survives {T : Type} (P : Params T) (l : List Spec.Sol) (s : Spec.Sol) : Prop :=
  s ∈ l ∧ s.feasible = true ∧
    ∀ q ∈ l, q.feasible = true → Weakly (Spec.point P q) (Spec.point P s) → Spec.point P q = Spec.point P s ∧ s.ev ≤ q.ev

/-- A solution is accepted: it is feasible and no earlier feasible solution is at least as good in both
objectives. -/
def Spec.Accepted {T : Type} (P : Params T) (l : List Spec.Sol) (s : Spec.Sol) : Prop :=
  s.feasible = true ∧ ∀ q ∈ l, q.ev < s.ev → q.feasible = true → ¬ Weakly (Spec.point P q) (Spec.point P s)

/-- The normalised vectors of the feasible solutions. -/
def Spec.points {T : Type} (P : Params T) (l : List Spec.Sol) : Set (ℚ × ℚ) :=
  {p | ∃ s ∈ l, s.feasible = true ∧ p = Spec.point P s}

/-- The hypervolume of the feasible solutions with the reference point (1, 1): the area of the dominated part
of the unit square. -/
noncomputable def Spec.hypervolume {T : Type} (P : Params T) (l : List Spec.Sol) : ℝ :=
  (MeasureTheory.volume (region (Spec.points P l))).toReal

/-- The distances of the feasible solutions to the region of interest. -/
def Spec.gaps {T : Type} (P : Params T) (l : List Spec.Sol) : Set ℝ :=
  {d | ∃ s ∈ l, s.feasible = true ∧ IsLeast (MO.Spec.distances (Spec.point P s).1 (Spec.point P s).2) d}

/-- The indicator value: 0 before the first evaluation, 3e21 as long as no solution is feasible, and otherwise
the difference of the best known hypervolume and the hypervolume, plus the smallest distance of a feasible
solution to the region of interest. -/
def Spec.IsValue {T : Type} (P : Params T) (l : List Spec.Sol) (v : ℝ) : Prop :=
  (l = [] ∧ v = 0) ∨ (l ≠ [] ∧ (∀ s ∈ l, s.feasible = false) ∧ v = 3 * 10 ^ 21) ∨
    ∃ d, IsLeast (Spec.gaps P l) d ∧ v = P.best - Spec.hypervolume P l + d

/-- The parameters: the nadir point is above the ideal point, the base numbers of the evaluation trigger are
in order, and the problem has a variable. -/
structure Spec.Setup {T : Type} (P : Params T) (base : List Nat) (dim : Nat) : Prop where
  roi1 : 5 / 10 ^ 13 < P.n1 - P.i1
  roi2 : 5 / 10 ^ 13 < P.n2 - P.i2
  base : Triggers.Spec.BaseOk base
  dim : 1 ≤ dim

/-! ### Solutions and items -/

variable {T : Type}

theorem sols_append (dim : Nat) (h : List Op) (op : Op) :
    Spec.sols dim (h ++ [op]) = Spec.addOp dim (Spec.sols dim h) op := by
  unfold Spec.sols; rw [List.foldl_append]; rfl

theorem lastEv_append (l : List Spec.Sol) (s : Spec.Sol) : Spec.lastEv (l ++ [s]) = s.ev := by
  simp [Spec.lastEv]

/-- The solutions are numbered in increasing order from 1 on. -/
def Ordered (l : List Spec.Sol) : Prop := l.Pairwise (fun a b => a.ev < b.ev) ∧ ∀ s ∈ l, 1 ≤ s.ev

theorem Ordered.le_last {l : List Spec.Sol} (h : Ordered l) : ∀ s ∈ l, s.ev ≤ Spec.lastEv l := by
  intro s hs
  rcases List.eq_nil_or_concat l with rfl | ⟨l', t, rfl⟩
  · simp at hs
  · rw [List.concat_eq_append] at *
    rw [lastEv_append]
    rcases List.mem_append.1 hs with hs | hs
    · exact ((List.pairwise_append.1 h.1).2.2 s hs t (by simp)).le
    · rw [List.mem_singleton] at hs; rw [hs]

theorem Ordered.append {l : List Spec.Sol} (h : Ordered l) {s : Spec.Sol} (hs : Spec.lastEv l < s.ev) :
    Ordered (l ++ [s]) := by
  refine ⟨?_, ?_⟩
  · rw [List.pairwise_append]
    refine ⟨h.1, by simp, ?_⟩
    intro a ha b hb
    rw [List.mem_singleton] at hb
    rw [hb]
    exact lt_of_le_of_lt (h.le_last a ha) hs
  · intro t ht
    rcases List.mem_append.1 ht with ht | ht
    · exact h.2 t ht
    · rw [List.mem_singleton] at ht; rw [ht]; omega

/-- The item of a solution. -/
def itemOf (P : Params T) (s : Spec.Sol) : Item :=
  ⟨s.ev, s.x, s.y1, s.y2, s.feasible, (Spec.point P s).1, (Spec.point P s).2,
    withinROI [(Spec.point P s).1, (Spec.point P s).2]⟩

theorem itemOf_vec (P : Params T) (s : Spec.Sol) : vec (itemOf P s) = Spec.point P s := rfl

theorem itemOf_ok (P : Params T) (s : Spec.Sol) : ItemOk (itemOf P s) := by
  have hn : Normal (Spec.point P s) := normal_normal _ _ _ _ _ _
  refine ⟨hn, ?_⟩
  show withinROI [(Spec.point P s).1, (Spec.point P s).2] = true ↔ (Spec.point P s).1 ≤ 1 ∧ (Spec.point P s).2 ≤ 1
  rw [within_iff _ _ hn.grid.1 hn.grid.2]
  have := hn.nonneg
  tauto

theorem sumPositive_pos (c : List ℚ) : sumPositive c > 0 ↔ ∃ v ∈ c, v > 0 := by
  have key : ∀ (c : List ℚ) (a : ℚ), 0 ≤ a →
      (c.foldl (fun s v => if v > 0 then s + v else s) a > 0 ↔ a > 0 ∨ ∃ v ∈ c, v > 0) := by
    intro c
    induction c with
    | nil => intro a _; simp
    | cons v c ih =>
      intro a ha
      rw [List.foldl_cons]
      by_cases hv : v > 0
      · rw [if_pos hv, ih _ (by linarith)]
        constructor
        · intro _; exact .inr ⟨v, by simp, hv⟩
        · intro _; exact .inl (by linarith)
      · rw [if_neg hv, ih _ ha]
        simp only [List.mem_cons, exists_eq_or_imp, hv, false_or]
  unfold sumPositive
  rw [key c 0 le_rfl]
  simp

theorem createItem_eq {P : Params T} {base : List Nat} {dim : Nat} (hP : Spec.Setup P base dim) (ev : Nat)
    (x : List ℚ) (y1 y2 : ℚ) (cons : List ℚ) :
    createItem P.i1 P.i2 P.n1 P.n2 ev x y1 y2 cons =
      .ok (itemOf P ⟨ev, x, y1, y2, decide (∀ c ∈ cons, c ≤ 0)⟩) := by
  unfold createItem
  rw [normalize_eq _ _ _ _ _ _ hP.roi1 hP.roi2, Res.ok_bind]
  have : (!decide (sumPositive cons > 0)) = decide (∀ c ∈ cons, c ≤ 0) := by
    rw [← decide_not]
    apply decide_eq_decide.2
    rw [sumPositive_pos]
    push Not
    rfl
  simp only [this]
  rfl

/-! ### Content of the archive -/

/-- The archive holds the surviving solutions. -/
structure Content (P : Params T) (l : List Spec.Sol) (a : Arch) : Prop where
  trees : Trees a
  mem : ∀ it, it ∈ a.archive.items ↔ ∃ s, Spec.Survives P l s ∧ it = itemOf P s
  cover : ∀ q ∈ l, q.feasible = true → ∃ it ∈ a.archive.items, Weakly (vec it) (Spec.point P q)

theorem survives_infeasible (P : Params T) (l : List Spec.Sol) (n s : Spec.Sol) (hn : n.feasible = false) :
    Spec.Survives P (l ++ [n]) s ↔ Spec.Survives P l s := by
  unfold Spec.Survives
  constructor
  · rintro ⟨h1, h2, h3⟩
    refine ⟨?_, h2, fun q hq => h3 q (List.mem_append_left _ hq)⟩
    rcases List.mem_append.1 h1 with h | h
    · exact h
    · rw [List.mem_singleton] at h; rw [h, hn] at h2; exact absurd h2 (by simp)
  · rintro ⟨h1, h2, h3⟩
    refine ⟨List.mem_append_left _ h1, h2, ?_⟩
    intro q hq hqf hw
    rcases List.mem_append.1 hq with h | h
    · exact h3 q h hqf hw
    · rw [List.mem_singleton] at h; rw [h, hn] at hqf; exact absurd hqf (by simp)

theorem survives_dominated (P : Params T) (l : List Spec.Sol) (n s q : Spec.Sol) (ho : ∀ r ∈ l, r.ev < n.ev)
    (hq : q ∈ l) (hqf : q.feasible = true) (hw : Weakly (Spec.point P q) (Spec.point P n)) :
    Spec.Survives P (l ++ [n]) s ↔ Spec.Survives P l s := by
  unfold Spec.Survives
  constructor
  · rintro ⟨h1, h2, h3⟩
    refine ⟨?_, h2, fun q hq => h3 q (List.mem_append_left _ hq)⟩
    rcases List.mem_append.1 h1 with h | h
    · exact h
    · rw [List.mem_singleton] at h
      subst h
      have := (h3 q (List.mem_append_left _ hq) hqf hw).2
      have := ho q hq
      omega
  · rintro ⟨h1, h2, h3⟩
    refine ⟨List.mem_append_left _ h1, h2, ?_⟩
    intro r hr hrf hrw
    rcases List.mem_append.1 hr with h | h
    · exact h3 r h hrf hrw
    · rw [List.mem_singleton] at h
      subst h
      have h4 := (h3 q hq hqf (hw.trans hrw)).1
      refine ⟨?_, (ho s h1).le⟩
      rw [h4] at hw
      exact hrw.antisymm hw

theorem survives_new (P : Params T) (l : List Spec.Sol) (n s : Spec.Sol) (hnf : n.feasible = true)
    (ho : ∀ r ∈ l, r.ev < n.ev) (hno : ∀ q ∈ l, q.feasible = true → ¬ Weakly (Spec.point P q) (Spec.point P n)) :
    Spec.Survives P (l ++ [n]) s ↔
      s = n ∨ (Spec.Survives P l s ∧ ¬ Weakly (Spec.point P n) (Spec.point P s)) := by
  unfold Spec.Survives
  constructor
  · rintro ⟨h1, h2, h3⟩
    rcases List.mem_append.1 h1 with h | h
    · right
      refine ⟨⟨h, h2, fun q hq => h3 q (List.mem_append_left _ hq)⟩, ?_⟩
      intro hw
      have := (h3 n (by simp) hnf hw).1
      apply hno s h h2
      rw [this]
      exact Weakly.refl _
    · left; simpa using h
  · rintro (rfl | ⟨⟨h1, h2, h3⟩, h4⟩)
    · refine ⟨by simp, hnf, ?_⟩
      intro q hq hqf hw
      rcases List.mem_append.1 hq with h | h
      · exact absurd hw (hno q h hqf)
      · rw [List.mem_singleton] at h; rw [h]; exact ⟨rfl, le_rfl⟩
    · refine ⟨List.mem_append_left _ h1, h2, ?_⟩
      intro q hq hqf hw
      rcases List.mem_append.1 hq with h | h
      · exact h3 q h hqf hw
      · rw [List.mem_singleton] at h; rw [h] at hw; exact absurd hw h4

/-- Whether a solution is accepted can be read off the archive. -/
theorem covered_iff {P : Params T} {l : List Spec.Sol} {a : Arch} (c : Content P l a) (p : ℚ × ℚ) :
    (∃ it ∈ a.archive.items, Weakly (vec it) p) ↔ ∃ q ∈ l, q.feasible = true ∧ Weakly (Spec.point P q) p := by
  constructor
  · rintro ⟨it, h1, h2⟩
    obtain ⟨s, hs, rfl⟩ := (c.mem it).1 h1
    exact ⟨s, hs.1, hs.2.1, h2⟩
  · rintro ⟨q, h1, h2, h3⟩
    obtain ⟨it, k1, k2⟩ := c.cover q h1 h2
    exact ⟨it, k1, k2.trans h3⟩

theorem Content.congr {P : Params T} {l : List Spec.Sol} {a : Arch} (c : Content P l a) (f : Nat → ℚ) (cur : ℚ) :
    Content P l { a with contrib := f, cur := cur } :=
  ⟨⟨c.trees.inv, c.trees.stair, c.trees.ok, c.trees.evs, c.trees.binv, c.trees.bsub⟩, c.mem, c.cover⟩

/-- What the update of the archive does. -/
theorem update_content (P : Params T) (ci : Bool) (l : List Spec.Sol) (a : Arch) (c : Content P l a)
    (hyp : ci = true → Hyp a) (ho : Ordered l) (n : Spec.Sol) (hn : Spec.lastEv l < n.ev) :
    ∃ a' performed node, treeUpdate ci a (itemOf P n) = .ok (a', performed, node) ∧ Content P (l ++ [n]) a' ∧
      (ci = true → Hyp a') ∧
      ((performed = true ∧ Spec.Accepted P (l ++ [n]) n ∧ node = some (itemOf P n) ∧
          (a.buffer.items = [] → ∀ q, q ∈ a'.buffer.items ↔ q = itemOf P n)) ∨
       (performed = false ∧ ¬ Spec.Accepted P (l ++ [n]) n ∧ a'.cur = a.cur ∧ a'.buffer = a.buffer ∧
          (n.feasible = false → node = some (itemOf P n)) ∧
          (n.feasible = true → ∃ q ∈ l, q.feasible = true ∧ Weakly (Spec.point P q) (Spec.point P n)))) := by
  have hlt : ∀ r ∈ l, r.ev < n.ev := fun r hr => lt_of_le_of_lt (ho.le_last r hr) hn
  have hev : ∀ q ∈ a.archive.items, q.ev ≠ (itemOf P n).ev := by
    intro q hq
    obtain ⟨s, hs, rfl⟩ := (c.mem q).1 hq
    exact ne_of_lt (hlt s hs.1)
  have hypc : ci = true → Hyp { a with contrib := Function.update a.contrib (itemOf P n).ev 0 } := by
    intro hci
    have hcg : ∀ q ∈ a.archive.items, a.contrib q.ev = Function.update a.contrib (itemOf P n).ev 0 q.ev := by
      intro q hq
      rw [Function.update_of_ne (hev q hq)]
    exact ⟨(contrib_congr hcg).1 (hyp hci).contrib, by
      show a.cur = _
      rw [(hyp hci).sum]; exact sumC_congr hcg⟩
  have hacc : Spec.Accepted P (l ++ [n]) n ↔ n.feasible = true ∧
      ∀ q ∈ l, q.feasible = true → ¬ Weakly (Spec.point P q) (Spec.point P n) := by
    unfold Spec.Accepted
    constructor
    · rintro ⟨h1, h2⟩
      exact ⟨h1, fun q hq => h2 q (List.mem_append_left _ hq) (hlt q hq)⟩
    · rintro ⟨h1, h2⟩
      refine ⟨h1, ?_⟩
      intro q hq hqlt
      rcases List.mem_append.1 hq with h | h
      · exact h2 q h
      · rw [List.mem_singleton] at h; rw [h] at hqlt; exact absurd hqlt (lt_irrefl _)
  cases hf : n.feasible with
  | false =>
    refine ⟨_, false, _, by unfold treeUpdate; rw [if_pos (by simp [itemOf, hf])], ?_, hypc, ?_⟩
    · refine ⟨⟨c.trees.inv, c.trees.stair, c.trees.ok, c.trees.evs, c.trees.binv, c.trees.bsub⟩, ?_, ?_⟩
      · intro it
        simp only [survives_infeasible P l n _ hf]
        exact c.mem it
      · intro q hq hqf
        rcases List.mem_append.1 hq with h | h
        · exact c.cover q h hqf
        · rw [List.mem_singleton] at h; rw [h, hf] at hqf; exact absurd hqf (by simp)
    · right
      refine ⟨rfl, ?_, rfl, rfl, fun _ => rfl, by simp⟩
      rw [hacc, hf]
      simp
  | true =>
    rcases treeUpdate_spec ci a c.trees (itemOf P n) (itemOf_ok P n) hf hev with ⟨hex, e⟩ | ⟨hno, a', u, v, e, t, e1, e2, hb, hh⟩
    · obtain ⟨q, hq, hqf, hw⟩ := (covered_iff c _).1 hex
      refine ⟨_, false, none, e, ?_, hypc, ?_⟩
      · refine ⟨⟨c.trees.inv, c.trees.stair, c.trees.ok, c.trees.evs, c.trees.binv, c.trees.bsub⟩, ?_, ?_⟩
        · intro it
          simp only [survives_dominated P l n _ q hlt hq hqf hw]
          exact c.mem it
        · intro r hr hrf
          rcases List.mem_append.1 hr with h | h
          · exact c.cover r h hrf
          · rw [List.mem_singleton] at h; rw [h]; exact hex
      · right
        refine ⟨rfl, ?_, rfl, rfl, by simp, fun _ => ⟨q, hq, hqf, hw⟩⟩
        rw [hacc]
        exact fun h => h.2 q hq hqf hw
    · have hno' : ∀ q ∈ l, q.feasible = true → ¬ Weakly (Spec.point P q) (Spec.point P n) := by
        intro q hq hqf hw
        obtain ⟨it, k1, k2⟩ := (covered_iff c (Spec.point P n)).2 ⟨q, hq, hqf, hw⟩
        exact hno it k1 k2
      have hmem : ∀ it, it ∈ a'.archive.items ↔ it = itemOf P n ∨ (it ∈ a.archive.items ∧ ¬ Weakly (vec (itemOf P n)) (vec it)) := by
        intro it
        have : it ∈ a.archive.items.filter (fun q => !decide (Weakly (vec (itemOf P n)) (vec q))) ↔ it ∈ u ++ v := by rw [e1]
        rw [List.mem_filter, Bool.not_eq_true', decide_eq_false_iff_not, List.mem_append] at this
        rw [e2, this, List.mem_append, List.mem_cons]
        exact or_left_comm
      refine ⟨a', true, _, e, ⟨t, ?_, ?_⟩, fun hci => hh hci (hyp hci), ?_⟩
      · intro it
        rw [hmem it]
        simp only [survives_new P l n _ hf hlt hno']
        constructor
        · rintro (rfl | ⟨h1, h2⟩)
          · exact ⟨n, .inl rfl, rfl⟩
          · obtain ⟨s, hs, rfl⟩ := (c.mem it).1 h1
            exact ⟨s, .inr ⟨hs, h2⟩, rfl⟩
        · rintro ⟨s, rfl | ⟨h1, h2⟩, rfl⟩
          · exact .inl rfl
          · exact .inr ⟨(c.mem _).2 ⟨s, h1, rfl⟩, h2⟩
      · intro q hq hqf
        rcases List.mem_append.1 hq with h | h
        · obtain ⟨it, k1, k2⟩ := c.cover q h hqf
          by_cases hw : Weakly (vec (itemOf P n)) (vec it)
          · exact ⟨itemOf P n, (hmem _).2 (.inl rfl), hw.trans k2⟩
          · exact ⟨it, (hmem _).2 (.inr ⟨k1, hw⟩), k2⟩
        · rw [List.mem_singleton] at h
          rw [h]
          exact ⟨itemOf P n, (hmem _).2 (.inl rfl), Weakly.refl _⟩
      · left
        refine ⟨rfl, hacc.2 ⟨hf, hno'⟩, rfl, ?_⟩
        intro hbe q
        rw [hb q, hbe]
        simp

/-! ### The hypervolume -/

theorem region_points {P : Params T} {l : List Spec.Sol} {a : Arch} (c : Content P l a) :
    region (Spec.points P l) = region {p | p ∈ (a.archive.items.filter (·.within)).map vec} := by
  ext z
  unfold region
  simp only [Set.mem_ofPred_eq]
  constructor
  · rintro ⟨h1, h2, h3, h4, p, ⟨s, hs, hsf, rfl⟩, k1, k2⟩
    obtain ⟨it, m1, m2⟩ := c.cover s hs hsf
    have j1 : ((vec it).1 : ℝ) ≤ z.1 := le_trans (by exact_mod_cast m2.1) k1
    have j2 : ((vec it).2 : ℝ) ≤ z.2 := le_trans (by exact_mod_cast m2.2) k2
    refine ⟨h1, h2, h3, h4, vec it, ?_, j1, j2⟩
    refine List.mem_map.2 ⟨it, List.mem_filter.2 ⟨m1, ?_⟩, rfl⟩
    rw [(c.trees.ok it m1).within]
    constructor
    · have : (it.n1 : ℝ) ≤ 1 := le_trans j1 h2
      exact_mod_cast this
    · have : (it.n2 : ℝ) ≤ 1 := le_trans j2 h4
      exact_mod_cast this
  · rintro ⟨h1, h2, h3, h4, p, hp, k1, k2⟩
    obtain ⟨it, hit, rfl⟩ := List.mem_map.1 hp
    obtain ⟨s, hs, rfl⟩ := (c.mem it).1 (List.mem_filter.1 hit).1
    exact ⟨h1, h2, h3, h4, _, ⟨s, hs.1, hs.2.1, rfl⟩, k1, k2⟩

theorem hypervolume_eq {P : Params T} {l : List Spec.Sol} {a : Arch} (c : Content P l a) (h : Hyp a) :
    (a.cur : ℝ) = Spec.hypervolume P l := by
  have hstair : Stair id ((a.archive.items.filter (·.within)).map vec) := by
    unfold Stair
    rw [List.pairwise_map]
    exact c.trees.stair.sublist List.filter_sublist
  have hb : ∀ p ∈ (a.archive.items.filter (·.within)).map vec, 0 ≤ p.1 ∧ p.1 ≤ 1 ∧ 0 ≤ p.2 ∧ p.2 ≤ 1 := by
    intro p hp
    obtain ⟨it, hit, rfl⟩ := List.mem_map.1 hp
    obtain ⟨h1, h2⟩ := List.mem_filter.1 hit
    have ok := c.trees.ok it h1
    have := ok.within.1 h2
    exact ⟨ok.normal.nonneg.1, this.1, ok.normal.nonneg.2, this.2⟩
  unfold Spec.hypervolume
  rw [region_points c, volume_region _ hb hstair, h.sum, sumC_area c.trees.stair c.trees.ok (.inl rfl) h.contrib,
    ENNReal.toReal_ofReal]
  have := (volume_stair _ 1 le_rfl (by simpa using hb) hstair).1
  exact_mod_cast this

/-- Without an item in the region of interest the hypervolume is 0. -/
theorem cur_zero {a : Arch} (t : Trees a) (h : Hyp a) (ho : ∀ it ∈ a.archive.items, it.within = false) : a.cur = 0 := by
  rw [h.sum, sumC_area t.stair t.ok (.inl rfl) h.contrib]
  have : a.archive.items.filter (·.within) = [] := by
    rw [List.filter_eq_nil_iff]
    intro it hit
    simp [ho it hit]
  rw [this]
  rfl


/-! ### The indicator value -/

theorem gap_mono {p q : ℚ × ℚ} (h : Weakly p q) (hp : 0 ≤ p.1 ∧ 0 ≤ p.2) {d e : ℝ}
    (hd : IsLeast (MO.Spec.distances p.1 p.2) d) (he : IsLeast (MO.Spec.distances q.1 q.2) e) : d ≤ e := by
  obtain ⟨u, v, u0, u1, v0, v1, rfl⟩ := he.1
  have p1 : (0 : ℝ) ≤ p.1 := by exact_mod_cast hp.1
  have p2 : (0 : ℝ) ≤ p.2 := by exact_mod_cast hp.2
  have w1 : (p.1 : ℝ) ≤ q.1 := by exact_mod_cast h.1
  have w2 : (p.2 : ℝ) ≤ q.2 := by exact_mod_cast h.2
  have key : ∀ a b u : ℝ, a ≤ b → (a - min u a) ^ 2 ≤ (b - u) ^ 2 := by
    intro a b u hab
    rcases le_total u a with hu | hu
    · rw [min_eq_left hu]
      exact pow_le_pow_left₀ (by linarith) (by linarith) 2
    · rw [min_eq_right hu, sub_self]
      nlinarith [sq_nonneg (b - u)]
  refine le_trans (hd.2 ⟨min u p.1, min v p.2, le_min u0 p1, le_trans (min_le_left _ _) u1, le_min v0 p2,
    le_trans (min_le_left _ _) v1, rfl⟩) ?_
  exact Real.sqrt_le_sqrt (add_le_add (key _ _ _ w1) (key _ _ _ w2))

theorem gap_exists (P : Params T) (s : Spec.Sol) :
    ∃ d, distanceToROI [(Spec.point P s).1, (Spec.point P s).2] = .ok d ∧
      IsLeast (MO.Spec.distances (Spec.point P s).1 (Spec.point P s).2) d ∧
      (d = 0 ↔ (Spec.point P s).1 ≤ 1 ∧ (Spec.point P s).2 ≤ 1) ∧ 0 ≤ d := by
  have hn : Normal (Spec.point P s) := normal_normal _ _ _ _ _ _
  obtain ⟨d, h1, h2, h3⟩ := C32_distance _ _ hn.grid.1 hn.grid.2 hn.nonneg.1 hn.nonneg.2
  refine ⟨d, h1, h2, h3, ?_⟩
  obtain ⟨u, v, -, -, -, -, rfl⟩ := h2.1
  exact Real.sqrt_nonneg _

theorem gaps_nonneg {P : Params T} {l : List Spec.Sol} {d : ℝ} (h : d ∈ Spec.gaps P l) : 0 ≤ d := by
  obtain ⟨s, -, -, hs⟩ := h
  obtain ⟨u, v, -, -, -, -, rfl⟩ := hs.1
  exact Real.sqrt_nonneg _

theorem point_nonneg (P : Params T) (s : Spec.Sol) : 0 ≤ (Spec.point P s).1 ∧ 0 ≤ (Spec.point P s).2 :=
  (normal_normal P.i1 P.i2 P.n1 P.n2 s.y1 s.y2).nonneg

/-- The smallest distance does not change by a solution that is infeasible or dominated. -/
theorem gaps_rejected {P : Params T} {l : List Spec.Sol} {n : Spec.Sol} {d : ℝ} (h : IsLeast (Spec.gaps P l) d)
    (hn : n.feasible = true → ∃ q ∈ l, q.feasible = true ∧ Weakly (Spec.point P q) (Spec.point P n)) :
    IsLeast (Spec.gaps P (l ++ [n])) d := by
  obtain ⟨⟨s, hs, hsf, hsl⟩, h2⟩ := h
  refine ⟨⟨s, List.mem_append_left _ hs, hsf, hsl⟩, ?_⟩
  rintro e ⟨r, hr, hrf, hrl⟩
  rcases List.mem_append.1 hr with hr | hr
  · exact h2 ⟨r, hr, hrf, hrl⟩
  · rw [List.mem_singleton] at hr
    subst hr
    obtain ⟨q, hq, hqf, hw⟩ := hn hrf
    obtain ⟨dq, -, hdq, -, -⟩ := gap_exists P q
    exact le_trans (h2 ⟨q, hq, hqf, hdq⟩) (gap_mono hw (point_nonneg P q) hdq hrl)

theorem gaps_added {P : Params T} {l : List Spec.Sol} {n : Spec.Sol} {d e : ℝ} (h : IsLeast (Spec.gaps P l) d)
    (hnf : n.feasible = true) (he : IsLeast (MO.Spec.distances (Spec.point P n).1 (Spec.point P n).2) e) :
    IsLeast (Spec.gaps P (l ++ [n])) (if d < e then d else e) := by
  obtain ⟨⟨s, hs, hsf, hsl⟩, h2⟩ := h
  have low : ∀ r ∈ Spec.gaps P (l ++ [n]), d ≤ r ∨ e ≤ r := by
    rintro r ⟨t, ht, htf, htl⟩
    rcases List.mem_append.1 ht with ht | ht
    · exact .inl (h2 ⟨t, ht, htf, htl⟩)
    · rw [List.mem_singleton] at ht
      subst ht
      exact .inr (le_of_eq (he.unique htl))
  split
  · rename_i hlt
    refine ⟨⟨s, List.mem_append_left _ hs, hsf, hsl⟩, ?_⟩
    intro r hr
    rcases low r hr with h | h
    · exact h
    · linarith
  · rename_i hge
    refine ⟨⟨n, by simp, hnf, he⟩, ?_⟩
    intro r hr
    rcases low r hr with h | h
    · linarith [not_lt.1 hge]
    · exact h

/-- The indicator holds the value. -/
structure Value (P : Params T) (l : List Spec.Sol) (a : Arch) (i : Ind T) : Prop where
  none : (∀ s ∈ l, s.feasible = false) →
    i.penalty = none ∧ (l = [] → i.overall = 0) ∧ (l ≠ [] → i.overall = infinityForLogging)
  some : (∃ s ∈ l, s.feasible = true) →
    ∃ d, i.penalty = some d ∧ IsLeast (Spec.gaps P l) d ∧ i.overall = P.best - a.cur + d

theorem feasible_cases (l : List Spec.Sol) : (∀ s ∈ l, s.feasible = false) ∨ ∃ s ∈ l, s.feasible = true := by
  by_cases h : ∃ s ∈ l, s.feasible = true
  · exact .inr h
  · left
    intro s hs
    by_contra hc
    exact h ⟨s, hs, by simpa using hc⟩

theorem Value.isValue {P : Params T} {l : List Spec.Sol} {a : Arch} {i : Ind T} (v : Value P l a i)
    (c : Content P l a) (h : Hyp a) : Spec.IsValue P l i.overall := by
  rcases feasible_cases l with hl | hl
  · obtain ⟨-, h1, h2⟩ := v.none hl
    by_cases hn : l = []
    · exact .inl ⟨hn, h1 hn⟩
    · exact .inr (.inl ⟨hn, hl, h2 hn⟩)
  · obtain ⟨d, -, h1, h2⟩ := v.some hl
    exact .inr (.inr ⟨d, h1, by rw [h2, hypervolume_eq c h]⟩)

/-- The fields not changed by the update of the value. -/
structure SameLogs (i i' : Ind T) : Prop where
  logged : i'.evaluationLogged = i.evaluationLogged
  evaluations : i'.evaluations = i.evaluations
  dat : i'.dat = i.dat
  tdat : i'.tdat = i.tdat
  rdat : i'.rdat = i.rdat
  previous : i'.previous = i.overall

/-- Whether the target trigger is consulted for a solution: it is accepted, or the first one and infeasible. -/
def Spec.Consulted (P : Params T) (l : List Spec.Sol) (s : Spec.Sol) : Prop :=
  Spec.Accepted P l s ∨ (s.ev = 1 ∧ s.feasible = false)

theorem almostEqual_zero : Utils.almostEqual (0 : ℚ) 0 precision = true := by
  unfold Utils.almostEqual precision; norm_num

theorem updateValue_spec (P : Params T) (l : List Spec.Sol) (a a' : Arch) (n : Spec.Sol) (i : Ind T)
    (ho : Ordered l) (hn : Spec.lastEv l < n.ev) (hfirst : n.feasible = false → (n.ev = 1 ↔ l = []))
    (v : Value P l a i) (c' : Content P (l ++ [n]) a') (h' : Hyp a') (performed : Bool) (node : Option Item)
    (hu : (performed = true ∧ Spec.Accepted P (l ++ [n]) n ∧ node = some (itemOf P n)) ∨
       (performed = false ∧ ¬ Spec.Accepted P (l ++ [n]) n ∧ a'.cur = a.cur ∧
          (n.feasible = false → node = some (itemOf P n)) ∧
          (n.feasible = true → ∃ q ∈ l, q.feasible = true ∧ Weakly (Spec.point P q) (Spec.point P n)))) :
    ∃ i', updateValue P a'.cur n.ev performed node i = .ok i' ∧ Value P (l ++ [n]) a' i' ∧ SameLogs i i' ∧
      ((Spec.Consulted P (l ++ [n]) n ∧ i'.targetHit = (P.trigger i.targets i'.overall).1 ∧
          i'.targets = (P.trigger i.targets i'.overall).2) ∨
       (¬ Spec.Consulted P (l ++ [n]) n ∧ i'.targetHit = false ∧ i'.targets = i.targets)) := by
  rcases hu with ⟨rfl, hacc, rfl⟩ | ⟨rfl, hacc, hcur, hnode, hdom⟩
  · have hnf := hacc.1
    obtain ⟨e, he1, he2, he3, he4⟩ := gap_exists P n
    have hpen : ∃ p, newPenalty a'.cur i.penalty (itemOf P n) = .ok p ∧ IsLeast (Spec.gaps P (l ++ [n])) p := by
      unfold newPenalty
      by_cases hz : Utils.almostEqual a'.cur 0 precision = true
      · rw [if_pos hz]
        have hdist : distanceToROI [(itemOf P n).n1, (itemOf P n).n2] = .ok e := he1
        rw [hdist, Res.ok_bind]
        rcases feasible_cases l with hl | hl
        · obtain ⟨hp, -⟩ := v.none hl
          rw [hp]
          simp only
          rw [if_pos he4]
          refine ⟨e, rfl, ⟨n, by simp, hnf, he2⟩, ?_⟩
          rintro r ⟨t, ht, htf, htl⟩
          rcases List.mem_append.1 ht with ht | ht
          · rw [hl t ht] at htf; exact absurd htf (by simp)
          · rw [List.mem_singleton] at ht
            subst ht
            exact le_of_eq (he2.unique htl)
        · obtain ⟨d, hp, hd, -⟩ := v.some hl
          rw [hp]
          simp only
          have hg := gaps_added hd hnf he2
          rw [if_pos (gaps_nonneg hg.1)]
          exact ⟨_, rfl, hg⟩
      · rw [if_neg hz]
        refine ⟨0, rfl, ?_, fun r hr => gaps_nonneg hr⟩
        by_contra hc
        apply hz
        have : a'.cur = 0 := by
          apply cur_zero c'.trees h'
          intro it hit
          by_contra hw
          apply hc
          have hw' : it.within = true := by simpa using hw
          obtain ⟨s, hs, rfl⟩ := (c'.mem it).1 hit
          obtain ⟨d, -, hd, hd0, -⟩ := gap_exists P s
          have := hd0.2 ((itemOf_ok P s).within.1 hw')
          rw [this] at hd
          exact ⟨s, hs.1, hs.2.1, hd⟩
        rw [this]
        exact almostEqual_zero
    obtain ⟨p, hp1, hp2⟩ := hpen
    refine ⟨{ i with targetHit := (P.trigger i.targets (P.best - (a'.cur : ℝ) + p)).1, previous := i.overall,
                     penalty := some p, overall := P.best - (a'.cur : ℝ) + p,
                     targets := (P.trigger i.targets (P.best - (a'.cur : ℝ) + p)).2 },
      ?_, ?_, ?_, .inl ⟨.inl hacc, rfl, rfl⟩⟩
    · unfold updateValue
      simp only [if_true, hp1, Res.ok_bind]
    · refine ⟨?_, ?_⟩
      · intro hall
        have := hall n (by simp)
        rw [hnf] at this
        exact absurd this (by simp)
      · intro _
        exact ⟨p, rfl, hp2, rfl⟩
    · exact ⟨rfl, rfl, rfl, rfl, rfl, rfl⟩
  · unfold updateValue
    simp only [Bool.false_eq_true, if_false]
    by_cases h1 : n.ev = 1
    · have hl : l = [] := by
        rcases List.eq_nil_or_concat l with h | ⟨l', t, h⟩
        · exact h
        · exfalso
          rw [List.concat_eq_append] at h
          subst h
          rw [lastEv_append] at hn
          have := ho.2 t (by simp)
          omega
      subst hl
      cases hf : n.feasible with
      | true =>
        obtain ⟨q, hq, -⟩ := hdom hf
        simp at hq
      | false =>
        rw [hnode hf, if_pos h1]
        have : (itemOf P n).feasible = false := hf
        simp only [this, Bool.not_false, if_true]
        refine ⟨_, rfl, ⟨?_, ?_⟩, ⟨rfl, rfl, rfl, rfl, rfl, rfl⟩, .inl ⟨.inr ⟨h1, hf⟩, rfl, rfl⟩⟩
        · intro _
          exact ⟨(v.none (by simp)).1, by simp, fun _ => rfl⟩
        · rintro ⟨s, hs, hsf⟩
          simp only [List.nil_append, List.mem_singleton] at hs
          rw [hs, hf] at hsf
          exact absurd hsf (by simp)
    · rw [if_neg h1]
      refine ⟨_, rfl, ⟨?_, ?_⟩, ⟨rfl, rfl, rfl, rfl, rfl, rfl⟩, .inr ⟨?_, rfl, rfl⟩⟩
      · intro hall
        have hnf := hall n (by simp)
        have hl : l ≠ [] := fun h => h1 ((hfirst hnf).2 h)
        obtain ⟨k1, -, k3⟩ := v.none (fun s hs => hall s (List.mem_append_left _ hs))
        exact ⟨k1, by simp, fun _ => k3 hl⟩
      · rintro ⟨s, hs, hsf⟩
        have hex : ∃ s ∈ l, s.feasible = true := by
          rcases List.mem_append.1 hs with hs | hs
          · exact ⟨s, hs, hsf⟩
          · rw [List.mem_singleton] at hs
            rw [hs] at hsf
            obtain ⟨q, hq, hqf, -⟩ := hdom hsf
            exact ⟨q, hq, hqf⟩
        obtain ⟨d, k1, k2, k3⟩ := v.some hex
        refine ⟨d, k1, gaps_rejected k2 hdom, ?_⟩
        show i.overall = _
        rw [k3, hcur]
      · rintro (h | h)
        · exact hacc h
        · exact h1 h.1

/-! ### The evaluation trigger -/

open Classical in
/-- The state of the evaluation trigger after it was consulted with 1, ..., k. -/
noncomputable def exact (base : List Nat) (dim k : Nat) : Triggers.Evaluations :=
  Triggers.evalState base dim (Nat.count Triggers.Spec.firstGrid (k + 1))
    (Nat.count (Triggers.Spec.secondGrid base dim) (k + 1))

/-- The evaluation numbers that are logged. -/
def Spec.Logged (base : List Nat) (dim j : Nat) : Prop :=
  Triggers.Spec.firstGrid j ∨ Triggers.Spec.secondGrid base dim j

open Triggers in
theorem evalTrigger_state {base : List Nat} {dim : Nat} (hb : Triggers.Spec.BaseOk base) (f1 f2 n : Nat) :
    evalTrigger (evalState base dim f1 f2) n =
      .ok (decide (grid (firstExp f1) ≤ n) || decide (secondSeq base dim f2 ≤ n),
        evalState base dim (if grid (firstExp f1) ≤ n then f1 + 1 else f1)
          (if secondSeq base dim f2 ≤ n then f2 + 1 else f2)) := by
  unfold evalTrigger
  rw [triggerFirst_state]
  by_cases h1 : grid (firstExp f1) ≤ n
  · simp only [h1, if_true]
    rw [triggerSecond_state hb.1]
    by_cases h2 : secondSeq base dim f2 ≤ n <;> simp [h2]
  · simp only [h1, if_false]
    rw [triggerSecond_state hb.1]
    by_cases h2 : secondSeq base dim f2 ≤ n <;> simp [h2]

open Classical in
theorem evalTrigger_exact {base : List Nat} {dim : Nat} (hb : Triggers.Spec.BaseOk base) (hd : 1 ≤ dim) (k : Nat) :
    Triggers.evalTrigger (exact base dim k) (k + 1) =
      .ok (decide (Spec.Logged base dim (k + 1)), exact base dim (k + 1)) := by
  have k1 := fun f n => Triggers.le_iff_lt_count Triggers.firstSeq_strictMono Triggers.firstSeq_range f n
  have k2 := fun f n => Triggers.le_iff_lt_count (Triggers.secondSeq_strictMono hb hd)
    (Triggers.secondSeq_range (dim := dim) hb.1) f n
  unfold exact
  rw [evalTrigger_state hb]
  have c : ∀ (p : Nat → Prop), (Nat.count p (k + 1) < Nat.count p (k + 1 + 1) ↔ p (k + 1)) ∧
      Nat.count p (k + 1 + 1) = if p (k + 1) then Nat.count p (k + 1) + 1 else Nat.count p (k + 1) := by
    intro p
    rw [Nat.count_succ p (k + 1)]
    by_cases h : p (k + 1) <;> simp [h]
  simp only [k1, k2, (c _).1]
  rw [(c Triggers.Spec.firstGrid).2, (c (Triggers.Spec.secondGrid base dim)).2]
  by_cases g1 : Triggers.Spec.firstGrid (k + 1) <;> by_cases g2 : Triggers.Spec.secondGrid base dim (k + 1) <;>
    simp [Spec.Logged, g1, g2]

theorem evalInit_exact {base : List Nat} {dim : Nat} (hb : Triggers.Spec.BaseOk base) (hd : 1 ≤ dim) :
    Triggers.evalInit base dim = exact base dim 0 := by
  classical
  have h1 : Nat.count Triggers.Spec.firstGrid 1 = 0 := by
    rw [Nat.count_succ, Nat.count_zero, if_neg]
    rw [Triggers.firstSeq_range]
    rintro ⟨f, hf⟩
    have := Triggers.firstSeq_strictMono.monotone (Nat.zero_le f)
    simp only [Triggers.firstExp, Triggers.grid_zero] at this
    omega
  have h2 : Nat.count (Triggers.Spec.secondGrid base dim) 1 = 0 := by
    rw [Nat.count_succ, Nat.count_zero, if_neg]
    rintro ⟨j, b, hbm, h⟩
    have := hb.2.2.1 b hbm
    have : 0 < b * dim * 10 ^ j := by positivity
    omega
  rw [Triggers.evalInit_eq]
  unfold exact
  rw [Nat.zero_add]
  have e1 : 0 = @Nat.count Triggers.Spec.firstGrid (Classical.decPred _) 1 := by
    rw [← h1]
  have e2 : 0 = @Nat.count (Triggers.Spec.secondGrid base dim) (Classical.decPred _) 1 := by
    rw [← h2]
  exact congrArg₂ (Triggers.evalState base dim) e1 e2

/-- A state the evaluation trigger can be in. -/
def Ev (base : List Nat) (dim : Nat) (i : Ind T) : Prop := ∃ f1 f2, i.evaluations = Triggers.evalState base dim f1 f2

theorem exact_ev {base : List Nat} {dim k : Nat} {i : Ind T} (h : i.evaluations = exact base dim k) : Ev base dim i :=
  ⟨_, _, h⟩

/-- The fields not changed by writing to the tdat file. -/
structure SameValue (i i' : Ind T) : Prop where
  targetHit : i'.targetHit = i.targetHit
  targets : i'.targets = i.targets
  penalty : i'.penalty = i.penalty
  overall : i'.overall = i.overall
  previous : i'.previous = i.previous
  dat : i'.dat = i.dat
  rdat : i'.rdat = i.rdat

theorem SameValue.refl (i : Ind T) : SameValue i i := ⟨rfl, rfl, rfl, rfl, rfl, rfl, rfl⟩

theorem SameValue.trans {i j k : Ind T} (h : SameValue i j) (h' : SameValue j k) : SameValue i k :=
  ⟨h'.1.trans h.1, h'.2.trans h.2, h'.3.trans h.3, h'.4.trans h.4, h'.5.trans h.5, h'.6.trans h.6, h'.7.trans h.7⟩

open Classical in
theorem logSkipped_spec {base : List Nat} {dim : Nat} (hb : Triggers.Spec.BaseOk base) (hd : 1 ≤ dim) (js : List Nat)
    (i : Ind T) (he : Ev base dim i) :
    ∃ i', logSkipped js i = .ok i' ∧ SameValue i i' ∧ Ev base dim i' ∧
      ∀ k e, js = List.range' (k + 1) e → i.evaluations = exact base dim k →
        i'.evaluations = exact base dim (k + e) ∧
        i'.tdat = i.tdat ++ ((List.range' (k + 1) e).filter (fun j => decide (Spec.Logged base dim j))).map
          fun j => (j, i.previous) := by
  induction js generalizing i with
  | nil =>
    refine ⟨i, rfl, .refl i, he, ?_⟩
    intro k e hk hx
    cases e with
    | zero => simpa using hx
    | succ e => simp [List.range'_succ] at hk
  | cons j js ih =>
    obtain ⟨f1, f2, hf⟩ := he
    obtain ⟨b, st, hbe, hst⟩ : ∃ b st, Triggers.evalTrigger i.evaluations j = .ok (b, st) ∧
        ∃ f1 f2, st = Triggers.evalState base dim f1 f2 := by
      rw [hf, evalTrigger_state hb]
      exact ⟨_, _, rfl, _, _, rfl⟩
    obtain ⟨i', h1, h2, h3, h4⟩ := ih { i with evaluationLogged := b, evaluations := st,
                                               tdat := if b then i.tdat ++ [(j, i.previous)] else i.tdat } hst
    refine ⟨i', ?_, ?_, h3, ?_⟩
    · rw [logSkipped, hbe, Res.ok_bind]; exact h1
    · exact ⟨h2.1, h2.2, h2.3, h2.4, h2.5, h2.6, h2.7⟩
    · intro k e hk hx
      cases e with
      | zero => simp at hk
      | succ e =>
        rw [List.range'_succ, List.cons.injEq] at hk
        obtain ⟨rfl, hk⟩ := hk
        rw [hx, evalTrigger_exact hb hd, Res.ok.injEq, Prod.mk.injEq] at hbe
        obtain ⟨rfl, rfl⟩ := hbe
        obtain ⟨k1, k2⟩ := h4 (k + 1) e hk rfl
        refine ⟨by rw [k1]; congr 1; omega, ?_⟩
        rw [k2, List.range'_succ]
        simp only
        by_cases hl : Spec.Logged base dim (k + 1)
        · rw [List.filter_cons_of_pos (by simpa using hl)]
          simp [hl]
        · rw [List.filter_cons_of_neg (by simpa using hl)]
          simp [hl]

open Classical in
theorem logTdat_spec {base : List Nat} {dim : Nat} (hb : Triggers.Spec.BaseOk base) (hd : 1 ≤ dim) (n : Nat)
    (i : Ind T) (he : Ev base dim i) :
    ∃ i', logTdat n i = .ok i' ∧ SameValue i i' ∧ Ev base dim i' ∧
      (i'.evaluationLogged = true → i'.tdat.getLast? = some (n, i.overall)) ∧
      ∀ k, n = k + 1 → i.evaluations = exact base dim k →
        i'.evaluations = exact base dim n ∧
        i'.tdat = i.tdat ++ ([n].filter (fun j => decide (Spec.Logged base dim j))).map fun j => (j, i.overall) := by
  obtain ⟨f1, f2, hf⟩ := he
  obtain ⟨b, st, hbe, hst⟩ : ∃ b st, Triggers.evalTrigger i.evaluations n = .ok (b, st) ∧
      ∃ f1 f2, st = Triggers.evalState base dim f1 f2 := by
    rw [hf, evalTrigger_state hb]
    exact ⟨_, _, rfl, _, _, rfl⟩
  refine ⟨{ i with evaluationLogged := b, evaluations := st,
                   tdat := if b then i.tdat ++ [(n, i.overall)] else i.tdat },
    by unfold logTdat; rw [hbe, Res.ok_bind], ⟨rfl, rfl, rfl, rfl, rfl, rfl, rfl⟩, hst, ?_, ?_⟩
  · intro h
    simp only at h
    simp [h]
  · intro k hk hx
    subst hk
    rw [hx, evalTrigger_exact hb hd, Res.ok.injEq, Prod.mk.injEq] at hbe
    obtain ⟨rfl, rfl⟩ := hbe
    refine ⟨rfl, ?_⟩
    by_cases hl : Spec.Logged base dim (k + 1)
    · simp [hl]
    · simp [hl]


/-! ### Specification of the data files -/

/-- The solutions given up to evaluation number `j`. -/
def Spec.upTo (l : List Spec.Sol) (j : Nat) : List Spec.Sol := l.filter fun s => decide (s.ev ≤ j)

/-- In mode `read` solutions are only fed. -/
def Spec.Regular (mode : Mode) (h : List Op) : Prop := mode = .read → ∀ x y1 y2 cons, Op.evaluate x y1 y2 cons ∉ h

/-- The line of a solution in the archive file. -/
def Spec.line (s : Spec.Sol) : Nat × ℚ × ℚ × List ℚ := (s.ev, s.y1, s.y2, s.x)

/-- One call; the state consists of the solutions, the numbers of the first evaluations after a restart, and
whether a restart was signalled after the last evaluation. -/
def Spec.restartStep (dim : Nat) (s : List Spec.Sol × List Nat × Bool) (op : Op) : List Spec.Sol × List Nat × Bool :=
  (Spec.addOp dim s.1 op,
    match op with
    | .evaluate .. | .feed .. => (if s.2.2 then s.2.1 ++ [Spec.lastEv (Spec.addOp dim s.1 op)] else s.2.1, false)
    | .restart => (s.2.1, !s.1.isEmpty)
    | .recommend .. => s.2)

/-- The numbers of the first evaluations after a restart (a restart before the first evaluation does not
count), and whether a restart is pending. -/
def Spec.restarts (dim : Nat) (h : List Op) : List Nat × Bool := (h.foldl (Spec.restartStep dim) ([], [], false)).2

/-- The lines of the dat file: the target trigger is consulted with a sequence of values. -/
noncomputable def Spec.fires (P : Params T) (t : T) (cs : List (Nat × ℝ)) : List (Nat × ℝ × ℝ) × T :=
  cs.foldl (fun s c =>
    ((if (P.trigger s.2 c.2).1 then s.1 ++ [(c.1, c.2, P.last (P.trigger s.2 c.2).2)] else s.1), (P.trigger s.2 c.2).2)) ([], t)

/-! ### One evaluation -/

theorem restarts_append (dim : Nat) (h : List Op) (op : Op) :
    Spec.restarts dim (h ++ [op]) = (Spec.restartStep dim (Spec.sols dim h, Spec.restarts dim h) op).2 := by
  have key : ∀ (h : List Op) s, (h.foldl (Spec.restartStep dim) s).1 = h.foldl (Spec.addOp dim) s.1 := by
    intro h
    induction h with
    | nil => intro s; rfl
    | cons op h ih => intro s; rw [List.foldl_cons, List.foldl_cons, ih]; rfl
  unfold Spec.restarts
  rw [List.foldl_append, List.foldl_cons, List.foldl_nil]
  have : h.foldl (Spec.restartStep dim) ([], [], false) =
      (Spec.sols dim h, (h.foldl (Spec.restartStep dim) ([], [], false)).2) := by
    apply Prod.ext
    · rw [key]; rfl
    · rfl
  rw [this]

theorem upTo_old {l : List Spec.Sol} {n : Spec.Sol} {j : Nat} (h : j < n.ev) :
    Spec.upTo (l ++ [n]) j = Spec.upTo l j := by
  unfold Spec.upTo
  rw [List.filter_append]
  simp [h]

theorem upTo_all {l : List Spec.Sol} (ho : Ordered l) {j : Nat} (h : Spec.lastEv l ≤ j) : Spec.upTo l j = l := by
  unfold Spec.upTo
  rw [List.filter_eq_self]
  intro s hs
  have := ho.le_last s hs
  simp only [decide_eq_true_eq]
  omega

theorem accepted_old {P : Params T} {l : List Spec.Sol} {n s : Spec.Sol} (h : s.ev < n.ev) :
    Spec.Accepted P (l ++ [n]) s ↔ Spec.Accepted P l s := by
  unfold Spec.Accepted
  constructor
  · rintro ⟨h1, h2⟩
    exact ⟨h1, fun q hq => h2 q (List.mem_append_left _ hq)⟩
  · rintro ⟨h1, h2⟩
    refine ⟨h1, ?_⟩
    intro q hq hlt
    rcases List.mem_append.1 hq with hq | hq
    · exact h2 q hq hlt
    · rw [List.mem_singleton] at hq; rw [hq] at hlt; omega

open Classical in
theorem accepted_filter {P : Params T} {l : List Spec.Sol} {n : Spec.Sol} (h : ∀ r ∈ l, r.ev < n.ev) :
    (l ++ [n]).filter (fun s => decide (Spec.Accepted P (l ++ [n]) s)) =
      l.filter (fun s => decide (Spec.Accepted P l s)) ++ if Spec.Accepted P (l ++ [n]) n then [n] else [] := by
  rw [List.filter_append]
  congr 1
  · apply List.filter_congr
    intro s hs
    exact decide_eq_decide.2 (accepted_old (h s hs))
  · by_cases hn : Spec.Accepted P (l ++ [n]) n <;> simp [hn]

open Classical in
theorem consulted_filter {P : Params T} {l : List Spec.Sol} {n : Spec.Sol} (h : ∀ r ∈ l, r.ev < n.ev) :
    (l ++ [n]).filter (fun s => decide (Spec.Consulted P (l ++ [n]) s)) =
      l.filter (fun s => decide (Spec.Consulted P l s)) ++ if Spec.Consulted P (l ++ [n]) n then [n] else [] := by
  rw [List.filter_append]
  congr 1
  · apply List.filter_congr
    intro s hs
    apply decide_eq_decide.2
    unfold Spec.Consulted
    rw [accepted_old (h s hs)]
  · by_cases hn : Spec.Consulted P (l ++ [n]) n <;> simp [hn]

open Classical in
/-- The lines of the tdat file: every logged number up to the last evaluation, with the value at that time. -/
def Spec.IsTdat (P : Params T) (base : List Nat) (dim : Nat) (l : List Spec.Sol) (t : List (Nat × ℝ)) : Prop :=
  ∃ V : Nat → ℝ, (∀ j, Spec.IsValue P (Spec.upTo l j) (V j)) ∧
    t = ((List.range' 1 (Spec.lastEv l)).filter fun j => decide (Spec.Logged base dim j)).map fun j => (j, V j)

open Classical in
/-- The lines of the dat file: the target trigger is consulted with the value after every accepted solution and
after an infeasible first one. -/
def Spec.IsDat (P : Params T) (t0 : T) (l : List Spec.Sol) (dat : List (Nat × ℝ × ℝ)) (t : T) : Prop :=
  ∃ cs : List (Nat × ℝ), cs.map Prod.fst = (l.filter fun s => decide (Spec.Consulted P l s)).map Spec.Sol.ev ∧
    (∀ c ∈ cs, Spec.IsValue P (Spec.upTo l c.1) c.2) ∧ Spec.fires P t0 cs = (dat, t)

/-- The lines of the rdat file. -/
def Spec.IsRdat (P : Params T) (l : List Spec.Sol) (evs : List Nat) (r : List (Nat × ℝ)) : Prop :=
  r.map Prod.fst = evs ∧ ∀ c ∈ r, Spec.IsValue P (Spec.upTo l c.1) c.2

open Classical in
/-- What holds of the indicator between calls. -/
structure IndInv (P : Params T) (base : List Nat) (dim : Nat) (t0 : T) (reg : Prop) (l : List Spec.Sol) (rl : List Nat)
    (a : Arch) (i : Ind T) : Prop where
  value : Value P l a i
  ev : Ev base dim i
  lastDat : i.targetHit = true → i.dat.getLast? = some (Spec.lastEv l, i.overall, P.last i.targets)
  lastTdat : i.evaluationLogged = true → i.tdat.getLast? = some (Spec.lastEv l, i.overall)
  dat : Spec.IsDat P t0 l i.dat i.targets
  tdat : reg → i.evaluations = exact base dim (Spec.lastEv l) ∧
    ∃ V : Nat → ℝ, (∀ j, Spec.IsValue P (Spec.upTo l j) (V j)) ∧ (∀ j, Spec.lastEv l ≤ j → V j = i.overall) ∧
      i.tdat = ((List.range' 1 (Spec.lastEv l)).filter fun j => decide (Spec.Logged base dim j)).map fun j => (j, V j)
  rdat : Spec.IsRdat P l rl i.rdat
  rl_le : ∀ e ∈ rl, e ≤ Spec.lastEv l

theorem output_spec {P : Params T} {base : List Nat} {dim : Nat} (hP : Spec.Setup P base dim) (t0 : T)
    (reg reg' : Prop) (hreg : reg' → reg) (l : List Spec.Sol) (rl : List Nat) (a : Arch) (s : State T) (n : Spec.Sol)
    (ho : Ordered l) (hn : Spec.lastEv l < n.ev) (hfirst : n.feasible = false → (n.ev = 1 ↔ l = []))
    (hi : P.ci = true → IndInv P base dim t0 reg l rl a s.ind)
    (c' : Content P (l ++ [n]) s.arch) (h' : P.ci = true → Hyp s.arch) (he : s.evals = n.ev)
    (hread : P.mode = .read → reg' → s.prevEvals = Spec.lastEv l)
    (hother : P.mode ≠ .read → n.ev = Spec.lastEv l + 1)
    (performed : Bool) (node : Option Item)
    (hu : (performed = true ∧ Spec.Accepted P (l ++ [n]) n ∧ node = some (itemOf P n)) ∨
       (performed = false ∧ ¬ Spec.Accepted P (l ++ [n]) n ∧ s.arch.cur = a.cur ∧
          (n.feasible = false → node = some (itemOf P n)) ∧
          (n.feasible = true → ∃ q ∈ l, q.feasible = true ∧ Weakly (Spec.point P q) (Spec.point P n)))) :
    ∃ i', output P s performed node = .ok { s with ind := i', restarted := false } ∧
      (P.ci = true → IndInv P base dim t0 reg' (l ++ [n]) (if s.restarted then rl ++ [n.ev] else rl) s.arch i') := by
  classical
  unfold output
  by_cases hci : P.ci = true
  · rw [if_pos hci]
    have hi := hi hci
    have ho' := ho.append hn
    have hlt : ∀ r ∈ l, r.ev < n.ev := fun r hr => lt_of_le_of_lt (ho.le_last r hr) hn
    obtain ⟨i1, e1, v1, sl, htr⟩ := updateValue_spec P l a s.arch n s.ind ho hn hfirst hi.value c' (h' hci) performed node hu
    rw [he, e1, Res.ok_bind]
    -- the dat file
    have hnew : Spec.IsValue P (l ++ [n]) i1.overall := v1.isValue c' (h' hci)
    have hnew' : Spec.IsValue P (Spec.upTo (l ++ [n]) n.ev) i1.overall := by
      rw [upTo_all ho' (by rw [lastEv_append])]; exact hnew
    have hold : ∀ j v, j ≤ Spec.lastEv l → Spec.IsValue P (Spec.upTo l j) v → Spec.IsValue P (Spec.upTo (l ++ [n]) j) v := by
      intro j v hj hv
      rw [upTo_old (by omega)]; exact hv
    obtain ⟨i2, hi2⟩ : ∃ i2, i2 = logDat P n.ev i1 := ⟨_, rfl⟩
    have hdat : (i2.targetHit = true → i2.dat.getLast? = some (n.ev, i2.overall, P.last i2.targets)) ∧
        Spec.IsDat P t0 (l ++ [n]) i2.dat i2.targets ∧ i2.evaluations = s.ind.evaluations ∧ i2.tdat = s.ind.tdat ∧
        i2.rdat = s.ind.rdat ∧ i2.previous = s.ind.overall ∧ i2.overall = i1.overall ∧ i2.penalty = i1.penalty := by
      obtain ⟨cs, g1, g2, g3⟩ := hi.dat
      have hcl : ∀ c ∈ cs, c.1 ≤ Spec.lastEv l := by
        intro c hc
        have : c.1 ∈ cs.map Prod.fst := List.mem_map.2 ⟨c, hc, rfl⟩
        rw [g1] at this
        obtain ⟨r, hr, hre⟩ := List.mem_map.1 this
        rw [← hre]
        exact ho.le_last r (List.mem_filter.1 hr).1
      rcases htr with ⟨hc, ht1, ht2⟩ | ⟨hc, ht1, ht2⟩
      · have hcs : Spec.fires P t0 (cs ++ [(n.ev, i1.overall)]) =
            ((if i1.targetHit then s.ind.dat ++ [(n.ev, i1.overall, P.last i1.targets)] else s.ind.dat), i1.targets) := by
          have hg3 := g3
          unfold Spec.fires at hg3 ⊢
          rw [List.foldl_append, hg3, List.foldl_cons, List.foldl_nil, ht1, ht2]
        have hd2 : i2.dat = (if i1.targetHit then s.ind.dat ++ [(n.ev, i1.overall, P.last i1.targets)] else s.ind.dat) ∧
            i2.targets = i1.targets ∧ i2.targetHit = i1.targetHit ∧ i2.overall = i1.overall := by
          rw [hi2]
          unfold logDat
          cases h : i1.targetHit <;> simp [sl.dat, h]
        refine ⟨?_, ⟨cs ++ [(n.ev, i1.overall)], ?_, ?_, ?_⟩, ?_⟩
        · intro h
          rw [hd2.2.2.1] at h
          rw [hd2.1, hd2.2.1, hd2.2.2.2, if_pos h]
          simp
        · rw [consulted_filter hlt, if_pos hc, List.map_append, List.map_append, g1]
          rfl
        · intro c hcm
          rcases List.mem_append.1 hcm with hcm | hcm
          · exact hold _ _ (hcl c hcm) (g2 c hcm)
          · rw [List.mem_singleton] at hcm
            rw [hcm]; exact hnew'
        · rw [hcs, hd2.1, hd2.2.1]
        · rw [hi2]
          unfold logDat
          cases h : i1.targetHit <;> simp [sl.evaluations, sl.tdat, sl.rdat, sl.previous]
      · have hd2 : i2 = i1 := by
          rw [hi2]; unfold logDat; rw [ht1]; rfl
        rw [hd2]
        refine ⟨by rw [ht1]; simp, ⟨cs, ?_, ?_, ?_⟩, sl.evaluations, sl.tdat, sl.rdat, sl.previous, rfl, rfl⟩
        · rw [consulted_filter hlt, if_neg hc, List.append_nil, g1]
        · intro c hcm
          exact hold _ _ (hcl c hcm) (g2 c hcm)
        · rw [g3, sl.dat, ht2]
    rw [← hi2]
    obtain ⟨d1, d2, d3, d4, d5, d6, d7, d8⟩ := hdat
    have hev2 : Ev base dim i2 := by
      obtain ⟨f1, f2, hf⟩ := hi.ev
      exact ⟨f1, f2, by rw [d3]; exact hf⟩
    -- skipped evaluation numbers
    have hskip : ∃ i3, (if P.mode = .read then logSkipped (List.range' (s.prevEvals + 1) (n.ev - (s.prevEvals + 1))) i2
        else .ok i2) = .ok i3 ∧ SameValue i2 i3 ∧ Ev base dim i3 ∧
        (reg' → i3.evaluations = exact base dim (n.ev - 1) ∧
          i3.tdat = s.ind.tdat ++ ((List.range' (Spec.lastEv l + 1) (n.ev - (Spec.lastEv l + 1))).filter
            (fun j => decide (Spec.Logged base dim j))).map fun j => (j, s.ind.overall)) := by
      by_cases hm : P.mode = .read
      · rw [if_pos hm]
        obtain ⟨i3, k1, k2, k3, k4⟩ := logSkipped_spec hP.base hP.dim
          (List.range' (s.prevEvals + 1) (n.ev - (s.prevEvals + 1))) i2 hev2
        refine ⟨i3, k1, k2, k3, ?_⟩
        intro hr
        have hpe := hread hm hr
        rw [hpe] at k4
        obtain ⟨q1, q2⟩ := k4 (Spec.lastEv l) _ rfl (by rw [d3]; exact (hi.tdat (hreg hr)).1)
        refine ⟨by rw [q1]; congr 1; omega, ?_⟩
        rw [q2, d4, d6]
      · rw [if_neg hm]
        refine ⟨i2, rfl, .refl i2, hev2, ?_⟩
        intro hr
        have := hother hm
        rw [this]
        refine ⟨by rw [d3]; exact (hi.tdat (hreg hr)).1, ?_⟩
        rw [d4]
        simp
    obtain ⟨i3, k1, k2, k3, k4⟩ := hskip
    rw [k1, Res.ok_bind]
    obtain ⟨i4, q1, q2, q3, q4, q5⟩ := logTdat_spec hP.base hP.dim n.ev i3 k3
    rw [q1, Res.ok_bind]
    have s4 := k2.trans q2
    refine ⟨logRdat s.restarted n.ev i4, rfl, ?_⟩
    intro _
    -- the fields of the final structure
    obtain ⟨i5, hi5⟩ : ∃ i5, i5 = logRdat s.restarted n.ev i4 := ⟨_, rfl⟩
    rw [← hi5]
    have f5 : i5.targetHit = i4.targetHit ∧ i5.targets = i4.targets ∧ i5.penalty = i4.penalty ∧
        i5.overall = i4.overall ∧ i5.dat = i4.dat ∧ i5.tdat = i4.tdat ∧ i5.evaluations = i4.evaluations ∧
        i5.evaluationLogged = i4.evaluationLogged ∧
        i5.rdat = if s.restarted then i4.rdat ++ [(n.ev, i4.overall)] else i4.rdat := by
      rw [hi5]
      unfold logRdat
      cases s.restarted <;> simp
    obtain ⟨f1, f2, f3, f4, f5, f6, f7, f8, f9⟩ := f5
    have hov : i5.overall = i1.overall := by rw [f4, s4.overall, d7]
    refine ⟨⟨?_, ?_⟩, ?_, ?_, ?_, ?_, ?_, ?_, ?_⟩
    · intro hall
      obtain ⟨w1, w2, w3⟩ := v1.none hall
      rw [f3, s4.penalty, d8, hov]
      exact ⟨w1, w2, w3⟩
    · intro hex
      obtain ⟨d, w1, w2, w3⟩ := v1.some hex
      rw [f3, s4.penalty, d8, hov]
      exact ⟨d, w1, w2, w3⟩
    · obtain ⟨g1, g2, hg⟩ := q3
      exact ⟨g1, g2, by rw [f7]; exact hg⟩
    · rw [f1, s4.targetHit, f5, s4.dat, f4, s4.overall, f2, s4.targets, lastEv_append]
      exact d1
    · rw [f8, f6, f4, q2.overall, lastEv_append]
      exact q4
    · rw [f5, f2, s4.dat, s4.targets]
      exact d2
    · intro hr
      obtain ⟨r1, r2⟩ := k4 hr
      obtain ⟨r3, r4⟩ := q5 (n.ev - 1) (by omega) r1
      obtain ⟨-, V, V1, V2, V3⟩ := hi.tdat (hreg hr)
      rw [lastEv_append, f7]
      refine ⟨r3, fun j => if j < n.ev then V j else i5.overall, ?_, ?_, ?_⟩
      · intro j
        by_cases hj : j < n.ev
        · simp only [hj, if_true]
          rw [upTo_old hj]; exact V1 j
        · simp only [hj, if_false]
          rw [upTo_all ho' (by rw [lastEv_append]; omega), hov]
          exact hnew
      · intro j hj
        simp [not_lt.2 hj]
      · have hsplit : List.range' 1 n.ev = List.range' 1 (Spec.lastEv l) ++
            List.range' (Spec.lastEv l + 1) (n.ev - (Spec.lastEv l + 1)) ++ [n.ev] := by
          have a1 : List.range' 1 (Spec.lastEv l) ++ List.range' (Spec.lastEv l + 1) (n.ev - (Spec.lastEv l + 1)) =
              List.range' 1 (n.ev - 1) := by
            have := List.range'_append (s := 1) (m := Spec.lastEv l) (n := n.ev - (Spec.lastEv l + 1)) (step := 1)
            rw [Nat.one_mul, Nat.add_comm 1 (Spec.lastEv l)] at this
            rw [this]
            congr 1
            omega
          rw [a1]
          have a2 := List.range'_concat (s := 1) (n := n.ev - 1) (step := 1)
          have h3 : n.ev - 1 + 1 = n.ev := by omega
          rw [h3, Nat.one_mul, Nat.add_comm 1, h3] at a2
          exact a2
        rw [hsplit, List.filter_append, List.filter_append, List.map_append, List.map_append, f6, r4, r2, V3]
        congr 1
        · congr 1
          · apply List.map_congr_left
            intro j hj
            have := List.mem_range'_1.1 (List.mem_filter.1 hj).1
            beta_reduce
            rw [if_pos (by omega)]
          · apply List.map_congr_left
            intro j hj
            have := List.mem_range'_1.1 (List.mem_filter.1 hj).1
            beta_reduce
            rw [if_pos (by omega), V2 j (by omega)]
        · apply List.map_congr_left
          intro j hj
          have := (List.mem_filter.1 hj).1
          rw [List.mem_singleton] at this
          beta_reduce
          rw [this, if_neg (lt_irrefl _), f4, q2.overall]
    · obtain ⟨w1, w2⟩ := hi.rdat
      have hr4 : i4.rdat = s.ind.rdat := by rw [s4.rdat, d5]
      have hrl : ∀ c ∈ s.ind.rdat, c.1 ≤ Spec.lastEv l := fun c hc =>
        hi.rl_le c.1 (by rw [← w1]; exact List.mem_map.2 ⟨c, hc, rfl⟩)
      refine ⟨?_, ?_⟩
      · rw [f9, hr4]
        cases s.restarted <;> simp [w1]
      · intro c hc
        rw [f9, hr4] at hc
        have : c ∈ s.ind.rdat ∨ c = (n.ev, i4.overall) := by
          cases h : s.restarted
          · rw [h] at hc; exact .inl (by simpa using hc)
          · rw [h] at hc; simpa using hc
        rcases this with hc | hc
        · exact hold _ _ (hrl c hc) (w2 c hc)
        · rw [hc]
          show Spec.IsValue P (Spec.upTo (l ++ [n]) n.ev) i4.overall
          rw [← f4, hov]
          exact hnew'
    · intro e hemem
      rw [lastEv_append]
      have : e ∈ rl ∨ e = n.ev := by
        cases h : s.restarted
        · rw [h] at hemem; exact .inl (by simpa using hemem)
        · rw [h] at hemem; simpa using hemem
      rcases this with h | h
      · have := hi.rl_le e h; omega
      · omega
  · rw [if_neg hci]
    exact ⟨s.ind, rfl, fun h => absurd h hci⟩

/-! ### Sequences of calls -/

open Classical in
/-- What holds between calls. -/
structure Inv (P : Params T) (base : List Nat) (dim : Nat) (t0 : T) (h : List Op) (s : State T) : Prop where
  content : Content P (Spec.sols dim h) s.arch
  hyp : P.ci = true → Hyp s.arch
  evals : s.evals = Spec.lastEv (Spec.sols dim h)
  ordered : Ordered (Spec.sols dim h)
  buffer : P.mode = .all → s.arch.buffer.items = []
  adat : s.adat = if P.mode = .all then
    ((Spec.sols dim h).filter fun x => decide (Spec.Accepted P (Spec.sols dim h) x)).map Spec.line else []
  restarted : s.restarted = (Spec.restarts dim h).2
  ind : P.ci = true →
    IndInv P base dim t0 (Spec.Regular P.mode h) (Spec.sols dim h) (Spec.restarts dim h).1 s.arch s.ind

theorem lastEv_zero {l : List Spec.Sol} (h : Ordered l) : Spec.lastEv l = 0 ↔ l = [] := by
  rcases List.eq_nil_or_concat l with rfl | ⟨l', t, rfl⟩
  · simp [Spec.lastEv]
  · rw [List.concat_eq_append] at *
    rw [lastEv_append]
    have := h.2 t (by simp)
    simp only [List.append_eq_nil_iff, List.cons_ne_nil, and_false, iff_false]
    omega

theorem restarts_nil (dim : Nat) (h : List Op) (hs : Spec.sols dim h = []) : (Spec.restarts dim h).2 = false := by
  induction h using List.reverseRecOn with
  | nil => rfl
  | append_singleton h op ih =>
    rw [sols_append] at hs
    rw [restarts_append]
    cases op with
    | evaluate x y1 y2 cons => rfl
    | feed ev y1 y2 => rfl
    | restart =>
      have hs' : Spec.sols dim h = [] := hs
      simp [Spec.restartStep, hs']
    | recommend x y1 y2 cons => exact ih hs

theorem init_inv {P : Params T} {base : List Nat} {dim : Nat} (hP : Spec.Setup P base dim) (t0 : T) :
    Inv P base dim t0 [] (init t0 base dim) := by
  have hs : Spec.sols dim [] = [] := rfl
  have hval : ∀ v : ℝ, v = 0 → Spec.IsValue P [] v := fun v hv => .inl ⟨rfl, hv⟩
  have inv0 : ∀ {κ : Type} [LinearOrder κ] (key : Item → κ), Avl.Spec.Inv key (Avl.empty : Avl.Avl Item) :=
    fun key => ⟨trivial, rfl, List.Pairwise.nil⟩
  refine ⟨⟨⟨inv0 _, List.Pairwise.nil, ?_, List.Pairwise.nil, inv0 _, ?_⟩, ?_, ?_⟩, ?_, rfl, ⟨List.Pairwise.nil, ?_⟩, ?_, ?_, rfl, ?_⟩
  · intro it hit; simp [init, Avl.empty] at hit
  · intro it hit; simp [init, Avl.empty] at hit
  · intro it; simp [init, Avl.empty, Spec.Survives, hs]
  · intro q hq; simp [hs] at hq
  · intro _; exact ⟨trivial, rfl⟩
  · intro s h; simp [hs] at h
  · intro _; rfl
  · simp [init, hs]
  · intro _
    refine ⟨⟨?_, ?_⟩, ?_, ?_, ?_, ?_, ?_, ?_, ?_⟩
    · intro _; exact ⟨rfl, fun _ => rfl, fun h => absurd rfl h⟩
    · rintro ⟨s, h, -⟩; simp [hs] at h
    · exact ⟨0, 0, Triggers.evalInit_eq base dim⟩
    · intro h; simp [init] at h
    · intro h; simp [init] at h
    · exact ⟨[], by simp [hs], by simp, rfl⟩
    · intro _
      refine ⟨evalInit_exact hP.base hP.dim, fun _ => 0, ?_, fun _ _ => rfl, ?_⟩
      · intro j; exact hval 0 rfl
      · simp [init, hs, Spec.lastEv]
    · exact ⟨rfl, by simp [init]⟩
    · intro e he; simp [Spec.restarts] at he

theorem legal_prefix {mode : Mode} {dim : Nat} {h h' : List Op} (hl : Spec.Legal mode dim (h ++ h')) :
    Spec.Legal mode dim h := by
  intro h1 ev y1 y2 h2 e
  exact hl h1 ev y1 y2 (h2 ++ h') (by rw [e]; simp)

theorem regular_prefix {mode : Mode} {h h' : List Op} (hr : Spec.Regular mode (h ++ h')) : Spec.Regular mode h :=
  fun hm x y1 y2 cons hmem => hr hm x y1 y2 cons (List.mem_append_left _ hmem)

/-- The part common to evaluating and feeding a solution. -/
theorem solution_inv {P : Params T} {base : List Nat} {dim : Nat} (hP : Spec.Setup P base dim) (t0 : T)
    (h : List Op) (op : Op) (s : State T) (iv : Inv P base dim t0 h s) (n : Spec.Sol) (prev : Nat)
    (hsol : Spec.sols dim (h ++ [op]) = Spec.sols dim h ++ [n])
    (hres : Spec.restarts dim (h ++ [op]) =
      (if (Spec.restarts dim h).2 then (Spec.restarts dim h).1 ++ [n.ev] else (Spec.restarts dim h).1, false))
    (hn : Spec.lastEv (Spec.sols dim h) < n.ev)
    (hfirst : n.feasible = false → (n.ev = 1 ↔ Spec.sols dim h = []))
    (hread : P.mode = .read → Spec.Regular P.mode (h ++ [op]) → prev = Spec.lastEv (Spec.sols dim h))
    (hother : P.mode ≠ .read → n.ev = Spec.lastEv (Spec.sols dim h) + 1) :
    ∃ s' b, ((treeUpdate P.ci s.arch (itemOf P n)).bind fun (a, performed, node) =>
        (if performed && decide (P.mode = .all) then
            (treeOutput a a.buffer.items).bind fun ls =>
              .ok { s with evals := n.ev, prevEvals := prev, arch := { a with buffer := Avl.empty }, adat := s.adat ++ ls }
          else .ok { s with evals := n.ev, prevEvals := prev, arch := a }).bind fun s =>
        (output P s performed node).bind fun s => .ok (s, performed)) = .ok (s', b) ∧
      Inv P base dim t0 (h ++ [op]) s' ∧ (b = true ↔ Spec.Accepted P (Spec.sols dim h ++ [n]) n) := by
  classical
  obtain ⟨a', performed, node, e, c', hy', hu⟩ := update_content P P.ci _ s.arch iv.content iv.hyp iv.ordered n hn
  have ho' := iv.ordered.append hn
  have hlt : ∀ r ∈ Spec.sols dim h, r.ev < n.ev := fun r hr => lt_of_le_of_lt (iv.ordered.le_last r hr) hn
  -- the archive file
  obtain ⟨a'', ls, harch, hls, cc, hh, hbuf, hcur⟩ : ∃ a'' ls,
      (if performed && decide (P.mode = .all) then
          (treeOutput a' a'.buffer.items).bind fun ls =>
            .ok { s with evals := n.ev, prevEvals := prev, arch := { a' with buffer := Avl.empty }, adat := s.adat ++ ls }
        else .ok { s with evals := n.ev, prevEvals := prev, arch := a' }) =
      .ok { s with evals := n.ev, prevEvals := prev, arch := a'', adat := s.adat ++ ls } ∧
      (ls = if P.mode = .all ∧ Spec.Accepted P (Spec.sols dim h ++ [n]) n then [Spec.line n] else []) ∧
      Content P (Spec.sols dim h ++ [n]) a'' ∧ (P.ci = true → Hyp a'') ∧
      (P.mode = .all → a''.buffer.items = []) ∧ a''.cur = a'.cur := by
    rcases hu with ⟨rfl, hacc, -, hb⟩ | ⟨rfl, hacc, -, hb, -, -⟩
    · by_cases hm : P.mode = .all
      · have hb' := hb (iv.buffer hm)
        have hsingle : a'.buffer.items = [itemOf P n] := by
          have hnd := Avl.increasing_nodup c'.trees.binv.increasing
          have hp : a'.buffer.items.Perm [itemOf P n] := by
            rw [List.perm_ext_iff_of_nodup hnd (by simp)]
            intro q
            rw [hb' q, List.mem_singleton]
          exact List.perm_singleton.1 hp
        have hmem : itemOf P n ∈ a'.archive.items := c'.trees.bsub _ ((hb' _).2 rfl)
        refine ⟨{ a' with buffer := Avl.empty }, [Spec.line n], ?_, by rw [if_pos ⟨hm, hacc⟩], ?_, ?_, fun _ => rfl, rfl⟩
        · simp only [Bool.true_and, hm, decide_true, if_true, hsingle, treeOutput, hmem, Res.ok_bind]
          rfl
        · exact ⟨⟨c'.trees.inv, c'.trees.stair, c'.trees.ok, c'.trees.evs, ⟨trivial, rfl, List.Pairwise.nil⟩,
            by intro it hit; simp [Avl.empty] at hit⟩, c'.mem, c'.cover⟩
        · exact fun hci => ⟨(hy' hci).contrib, (hy' hci).sum⟩
      · refine ⟨a', [], ?_, by rw [if_neg (fun h => hm h.1)], c', hy', fun h => absurd h hm, rfl⟩
        simp [hm]
    · refine ⟨a', [], by simp, by rw [if_neg (fun h => hacc h.2)], c', hy', ?_, rfl⟩
      intro hm
      rw [hb]; exact iv.buffer hm
  obtain ⟨i', eo, hi'⟩ := output_spec hP t0 (Spec.Regular P.mode h) (Spec.Regular P.mode (h ++ [op])) regular_prefix
    (Spec.sols dim h) (Spec.restarts dim h).1 s.arch
    { s with evals := n.ev, prevEvals := prev, arch := a'', adat := s.adat ++ ls } n iv.ordered hn hfirst
    iv.ind cc hh rfl hread hother performed node (by
      rcases hu with ⟨h1, h2, h3, -⟩ | ⟨h1, h2, h3, -, h5, h6⟩
      · exact .inl ⟨h1, h2, h3⟩
      · exact .inr ⟨h1, h2, by simp only [hcur]; exact h3, h5, h6⟩)
  refine ⟨{ s with evals := n.ev, prevEvals := prev, arch := a'', adat := s.adat ++ ls, ind := i', restarted := false },
    performed, ?_, ?_, ?_⟩
  · rw [e, Res.ok_bind]
    simp only
    rw [harch, Res.ok_bind, eo, Res.ok_bind]
  rotate_left
  · rcases hu with ⟨rfl, hacc, -⟩ | ⟨rfl, hacc, -⟩
    · simp [hacc]
    · simp [hacc]
  · refine ⟨?_, ?_, ?_, ?_, ?_, ?_, ?_, ?_⟩
    · rw [hsol]; exact cc
    · exact hh
    · rw [hsol, lastEv_append]
    · rw [hsol]; exact ho'
    · exact hbuf
    · show s.adat ++ ls = _
      rw [iv.adat, hls]
      by_cases hm : P.mode = .all
      · rw [if_pos hm, if_pos hm, hsol, accepted_filter hlt, List.map_append]
        by_cases hacc : Spec.Accepted P (Spec.sols dim h ++ [n]) n <;> simp [hm, hacc]
      · simp [hm]
    · rw [hres]
    · intro hci
      have := hi' hci
      simp only [iv.restarted] at this
      rw [hsol, hres]
      exact this

theorem feed_inv {P : Params T} {base : List Nat} {dim : Nat} (hP : Spec.Setup P base dim) (t0 : T)
    (h : List Op) (ev : Nat) (y1 y2 : ℚ) (hm : P.mode = .read) (s : State T) (iv : Inv P base dim t0 h s)
    (hev : Spec.lastEv (Spec.sols dim h) < ev) :
    ∃ s' b, feed P dim s ev y1 y2 = .ok (s', b) ∧ Inv P base dim t0 (h ++ [.feed ev y1 y2]) s' ∧
      (b = true ↔ Spec.Accepted P (Spec.sols dim h ++ [⟨ev, List.replicate dim 0, y1, y2, true⟩])
        ⟨ev, List.replicate dim 0, y1, y2, true⟩) := by
  obtain ⟨s', b, e, iv', hb⟩ := solution_inv hP t0 h (.feed ev y1 y2) s iv
    ⟨ev, List.replicate dim 0, y1, y2, true⟩ s.evals
    (by rw [sols_append]; rfl) (by rw [restarts_append]; simp [Spec.restartStep, Spec.addOp, lastEv_append])
    hev (by simp) (fun _ _ => iv.evals) (fun h => absurd hm h)
  refine ⟨s', b, ?_, iv', hb⟩
  unfold feed
  rw [decide_eq_true hm]
  simp only [Res.assert, if_true, Res.ok_bind]
  rw [if_neg (by rw [iv.evals]; omega), createItem_eq hP, Res.ok_bind]
  have hd : decide (∀ c ∈ ([] : List ℚ), c ≤ 0) = true := by simp
  rw [hd, ← e]
  cases treeUpdate P.ci s.arch (itemOf P ⟨ev, List.replicate dim 0, y1, y2, true⟩) with
  | ok r =>
    obtain ⟨a, performed, node⟩ := r
    simp [hm]
  | error => rfl
  | assertFail => rfl
  | ub => rfl

theorem step_inv {P : Params T} {base : List Nat} {dim : Nat} (hP : Spec.Setup P base dim) (t0 : T)
    (h : List Op) (op : Op) (hl : Spec.Legal P.mode dim (h ++ [op])) (s : State T) (iv : Inv P base dim t0 h s) :
    ∃ s', step P dim s op = .ok s' ∧ Inv P base dim t0 (h ++ [op]) s' := by
  cases op with
  | evaluate x y1 y2 cons =>
    obtain ⟨s', b, e, iv', -⟩ := solution_inv hP t0 h (.evaluate x y1 y2 cons) s iv
      ⟨Spec.lastEv (Spec.sols dim h) + 1, x, y1, y2, decide (∀ c ∈ cons, c ≤ 0)⟩ s.prevEvals
      (by rw [sols_append]; rfl) (by rw [restarts_append]; simp [Spec.restartStep, Spec.addOp, lastEv_append])
      (by simp)
      (by
        intro _
        rw [← lastEv_zero iv.ordered]
        simp)
      (by
        intro hm hr
        exact absurd (List.mem_append_right h (List.mem_singleton_self _)) (hr hm x y1 y2 cons))
      (fun _ => rfl)
    refine ⟨s', ?_, iv'⟩
    show evaluate P s x y1 y2 cons = _
    unfold evaluate
    simp only
    rw [iv.evals, createItem_eq hP, Res.ok_bind]
    revert e
    cases treeUpdate P.ci s.arch (itemOf P ⟨Spec.lastEv (Spec.sols dim h) + 1, x, y1, y2, decide (∀ c ∈ cons, c ≤ 0)⟩) with
    | ok r =>
      obtain ⟨a, performed, node⟩ := r
      simp only [Res.ok_bind]
      cases (if performed && decide (P.mode = .all) then
            (treeOutput a a.buffer.items).bind fun ls =>
              Res.ok { s with evals := Spec.lastEv (Spec.sols dim h) + 1, arch := { a with buffer := Avl.empty }, adat := s.adat ++ ls }
          else .ok { s with evals := Spec.lastEv (Spec.sols dim h) + 1, arch := a }) with
      | ok r =>
        simp only [Res.ok_bind]
        cases output P r performed node with
        | ok r => simp only [Res.ok_bind, Res.ok.injEq, Prod.mk.injEq]; exact fun h => h.1
        | error => exact fun h => by simp at h
        | assertFail => exact fun h => by simp at h
        | ub => exact fun h => by simp at h
      | error => exact fun h => by simp at h
      | assertFail => exact fun h => by simp at h
      | ub => exact fun h => by simp at h
    | error => exact fun h => by simp at h
    | assertFail => exact fun h => by simp at h
    | ub => exact fun h => by simp at h
  | feed ev y1 y2 =>
    obtain ⟨hm, hev⟩ := hl h ev y1 y2 [] rfl
    obtain ⟨s', b, e, iv', -⟩ := feed_inv hP t0 h ev y1 y2 hm s iv hev
    exact ⟨s', by simp only [step, e, Res.ok_bind], iv'⟩
  | restart =>
    refine ⟨restart s, rfl, ?_⟩
    have hs : Spec.sols dim (h ++ [.restart]) = Spec.sols dim h := by rw [sols_append]; rfl
    have hr : Spec.restarts dim (h ++ [.restart]) = ((Spec.restarts dim h).1, !(Spec.sols dim h).isEmpty) := by
      rw [restarts_append]; rfl
    have hreg : Spec.Regular P.mode (h ++ [.restart]) → Spec.Regular P.mode h := regular_prefix
    have hfields : (restart s).arch = s.arch ∧ (restart s).evals = s.evals ∧ (restart s).adat = s.adat ∧
        (restart s).ind = s.ind ∧ (restart s).restarted = (decide (s.evals > 0) || s.restarted) := by
      unfold restart
      by_cases h : s.evals > 0 <;> simp [h]
    obtain ⟨g1, g2, g3, g4, g5⟩ := hfields
    refine ⟨?_, ?_, ?_, ?_, ?_, ?_, ?_, ?_⟩
    · rw [hs, g1]; exact iv.content
    · rw [g1]; exact iv.hyp
    · rw [hs, g2]; exact iv.evals
    · rw [hs]; exact iv.ordered
    · rw [g1]; exact iv.buffer
    · rw [hs, g3]; exact iv.adat
    · rw [g5, hr]
      have hz := lastEv_zero iv.ordered
      rw [← iv.evals] at hz
      by_cases he : s.evals = 0
      · have hnil := hz.1 he
        have hrs : s.restarted = false := by
          rw [iv.restarted]
          exact restarts_nil dim h hnil
        simp [he, hnil, hrs]
      · have : Spec.sols dim h ≠ [] := fun h => he (hz.2 h)
        simp only [Nat.pos_of_ne_zero he, decide_true, Bool.true_or]
        cases hl : Spec.sols dim h with
        | nil => exact absurd hl this
        | cons _ _ => rfl
    · intro hci
      rw [hs, hr, g1, g4]
      have := iv.ind hci
      exact ⟨this.value, this.ev, this.lastDat, this.lastTdat, this.dat, fun h => this.tdat (hreg h), this.rdat, this.rl_le⟩
  | recommend x y1 y2 cons =>
    refine ⟨_, rfl, ?_⟩
    have hs : Spec.sols dim (h ++ [.recommend x y1 y2 cons]) = Spec.sols dim h := by rw [sols_append]; rfl
    have hr : Spec.restarts dim (h ++ [.recommend x y1 y2 cons]) = Spec.restarts dim h := by
      rw [restarts_append]; rfl
    have hreg : Spec.Regular P.mode (h ++ [.recommend x y1 y2 cons]) → Spec.Regular P.mode h := regular_prefix
    refine ⟨?_, ?_, ?_, ?_, ?_, ?_, ?_, ?_⟩
    · rw [hs]; exact iv.content
    · exact iv.hyp
    · rw [hs]; exact iv.evals
    · rw [hs]; exact iv.ordered
    · exact iv.buffer
    · rw [hs]; exact iv.adat
    · rw [hr]; exact iv.restarted
    · intro hci
      rw [hs, hr]
      have := iv.ind hci
      exact ⟨this.value, this.ev, this.lastDat, this.lastTdat, this.dat, fun h => this.tdat (hreg h), this.rdat, this.rl_le⟩

theorem run_append (P : Params T) (dim : Nat) (s : State T) (h h' : List Op) :
    run P dim s (h ++ h') = (run P dim s h).bind fun s => run P dim s h' := by
  induction h generalizing s with
  | nil => rfl
  | cons op h ih =>
    simp only [List.cons_append, run, ih]
    cases step P dim s op <;> rfl

theorem run_inv {P : Params T} {base : List Nat} {dim : Nat} (hP : Spec.Setup P base dim) (t0 : T)
    (h : List Op) (hl : Spec.Legal P.mode dim h) :
    ∃ s, run P dim (init t0 base dim) h = .ok s ∧ Inv P base dim t0 h s := by
  induction h using List.reverseRecOn with
  | nil => exact ⟨_, rfl, init_inv hP t0⟩
  | append_singleton h op ih =>
    obtain ⟨s, e, iv⟩ := ih (legal_prefix hl)
    obtain ⟨s', e', iv'⟩ := step_inv hP t0 h op hl s iv
    refine ⟨s', ?_, iv'⟩
    rw [run_append, e, Res.ok_bind, run, e', Res.ok_bind, run]

/-! ### C38 -/

/-- **C38** (archive). After any sequence of calls (fed solutions with increasing numbers, only in mode `read`),
the archive holds exactly the non-dominated ones among the feasible solutions, the first one of each normalised
objective vector, in the order of the second objective. No assertion fails and no freed memory is read. -/
theorem C38_archive (P : Params T) (base : List Nat) (dim : Nat) (hP : Spec.Setup P base dim) (t0 : T) (h : List Op)
    (hl : Spec.Legal P.mode dim h) :
    ∃ s, run P dim (init t0 base dim) h = .ok s ∧
      (∀ ln, ln ∈ s.arch.archive.items.map (fun it => (it.ev, it.y1, it.y2, it.x)) ↔
        ∃ sol, Spec.Survives P (Spec.sols dim h) sol ∧ Spec.line sol = ln) ∧
      s.arch.archive.items.Pairwise fun a b => a.n2 < b.n2 := by
  obtain ⟨s, e, iv⟩ := run_inv hP t0 h hl
  refine ⟨s, e, ?_, ?_⟩
  · intro ln
    rw [List.mem_map]
    constructor
    · rintro ⟨it, hit, rfl⟩
      obtain ⟨sol, h1, rfl⟩ := (iv.content.mem it).1 hit
      exact ⟨sol, h1, rfl⟩
    · rintro ⟨sol, h1, rfl⟩
      exact ⟨itemOf P sol, (iv.content.mem _).2 ⟨sol, h1, rfl⟩, rfl⟩
  · exact iv.content.trees.inv.increasing

/-- **C38** (hypervolume). If indicators are computed, the incrementally maintained value is the area dominated
by all feasible solutions given so far, in the normalised objective space with reference point (1, 1). -/
theorem C38_hypervolume (P : Params T) (base : List Nat) (dim : Nat) (hP : Spec.Setup P base dim) (t0 : T)
    (h : List Op) (hl : Spec.Legal P.mode dim h) (hci : P.ci = true) :
    ∃ s, run P dim (init t0 base dim) h = .ok s ∧ (s.arch.cur : ℝ) = Spec.hypervolume P (Spec.sols dim h) := by
  obtain ⟨s, e, iv⟩ := run_inv hP t0 h hl
  exact ⟨s, e, hypervolume_eq iv.content (iv.hyp hci)⟩

/-! ### C39 -/

/-- **C39** (feeding). After any sequence of calls, feeding a solution fails if its evaluation number is not
larger than all before; otherwise it succeeds and tells whether the solution is accepted: no earlier solution is
at least as good in both objectives. It is only allowed in mode `read`. -/
theorem C39_feed (P : Params T) (base : List Nat) (dim : Nat) (hP : Spec.Setup P base dim) (t0 : T) (h : List Op)
    (hl : Spec.Legal P.mode dim h) (ev : Nat) (y1 y2 : ℚ) :
    ∃ s, run P dim (init t0 base dim) h = .ok s ∧
      (P.mode ≠ .read → feed P dim s ev y1 y2 = .assertFail) ∧
      (P.mode = .read → ev ≤ Spec.lastEv (Spec.sols dim h) → feed P dim s ev y1 y2 = .error) ∧
      (P.mode = .read → Spec.lastEv (Spec.sols dim h) < ev → ∃ s' b, feed P dim s ev y1 y2 = .ok (s', b) ∧
        (b = true ↔ Spec.Accepted P (Spec.sols dim (h ++ [.feed ev y1 y2])) ⟨ev, List.replicate dim 0, y1, y2, true⟩)) := by
  obtain ⟨s, e, iv⟩ := run_inv hP t0 h hl
  refine ⟨s, e, ?_, ?_, ?_⟩
  · intro hm
    unfold feed
    rw [decide_eq_false hm]
    rfl
  · intro hm hle
    unfold feed
    rw [decide_eq_true hm]
    simp only [Res.assert, if_true, Res.ok_bind]
    rw [if_pos (by rw [iv.evals]; exact hle)]
  · intro hm hlt
    obtain ⟨s', b, e', -, hb⟩ := feed_inv hP t0 h ev y1 y2 hm s iv hlt
    refine ⟨s', b, e', ?_⟩
    rw [sols_append]
    exact hb

/-- The largest number is the largest. -/
theorem C39_largest (mode : Mode) (dim : Nat) (h : List Op) (hl : Spec.Legal mode dim h) :
    ∀ s ∈ Spec.sols dim h, s.ev ≤ Spec.lastEv (Spec.sols dim h) := by
  have : Ordered (Spec.sols dim h) := by
    induction h using List.reverseRecOn with
    | nil => exact ⟨List.Pairwise.nil, by simp [Spec.sols]⟩
    | append_singleton h op ih =>
      have ih := ih (legal_prefix hl)
      rw [sols_append]
      cases op with
      | evaluate x y1 y2 cons => exact ih.append (by simp)
      | feed ev y1 y2 => exact ih.append (hl h ev y1 y2 [] rfl).2
      | restart => exact ih
      | recommend x y1 y2 cons => exact ih
  exact this.le_last

/-- **C39** (triggers). The tdat file has one line for every logged evaluation number up to the current one,
also for the numbers skipped between fed solutions, with the indicator value at that time. In mode `read`
solutions may only be fed, not evaluated. -/
theorem C39_tdat (P : Params T) (base : List Nat) (dim : Nat) (hP : Spec.Setup P base dim) (t0 : T) (h : List Op)
    (hl : Spec.Legal P.mode dim h) (hr : Spec.Regular P.mode h) (hci : P.ci = true) :
    ∃ s, run P dim (init t0 base dim) h = .ok s ∧ Spec.IsTdat P base dim (Spec.sols dim h) s.ind.tdat := by
  obtain ⟨s, e, iv⟩ := run_inv hP t0 h hl
  obtain ⟨-, V, V1, -, V3⟩ := (iv.ind hci).tdat hr
  exact ⟨s, e, V, V1, V3⟩

/-! ### C72 -/

/-- **C72.** After any sequence of calls the indicator value is as specified. -/
theorem C72_value (P : Params T) (base : List Nat) (dim : Nat) (hP : Spec.Setup P base dim) (t0 : T) (h : List Op)
    (hl : Spec.Legal P.mode dim h) (hci : P.ci = true) :
    ∃ s, run P dim (init t0 base dim) h = .ok s ∧ Spec.IsValue P (Spec.sols dim h) s.ind.overall := by
  obtain ⟨s, e, iv⟩ := run_inv hP t0 h hl
  exact ⟨s, e, (iv.ind hci).value.isValue iv.content (iv.hyp hci)⟩

theorem sols_prefix (dim : Nat) (h h' : List Op) : ∃ l, Spec.sols dim (h ++ h') = Spec.sols dim h ++ l := by
  induction h' using List.reverseRecOn with
  | nil => exact ⟨[], by simp⟩
  | append_singleton h' op ih =>
    obtain ⟨l, e⟩ := ih
    rw [← List.append_assoc, sols_append, e]
    cases op with
    | evaluate x y1 y2 cons => exact ⟨l ++ [_], by simp only [Spec.addOp, List.append_assoc]; rfl⟩
    | feed ev y1 y2 => exact ⟨l ++ [_], by simp only [Spec.addOp, List.append_assoc]; rfl⟩
    | restart => exact ⟨l, rfl⟩
    | recommend x y1 y2 cons => exact ⟨l, rfl⟩

theorem region_bounded (s : Set (ℚ × ℚ)) : MeasureTheory.volume (region s) ≠ ⊤ := by
  have hsub : region s ⊆ Set.Icc (0 : ℝ) 1 ×ˢ Set.Icc (0 : ℝ) 1 := by
    rintro z ⟨h1, h2, h3, h4, -⟩
    exact ⟨⟨h1, h2⟩, h3, h4⟩
  refine ne_top_of_le_ne_top ?_ (MeasureTheory.measure_mono hsub)
  rw [MeasureTheory.Measure.volume_eq_prod, MeasureTheory.Measure.prod_prod, Real.volume_Icc]
  simp

/-- **C72** (monotone). Once a feasible solution was given, the indicator value never increases. -/
theorem C72_monotone (P : Params T) (base : List Nat) (dim : Nat) (hP : Spec.Setup P base dim) (t0 : T)
    (h h' : List Op) (hl : Spec.Legal P.mode dim (h ++ h')) (hci : P.ci = true)
    (hf : ∃ s ∈ Spec.sols dim h, s.feasible = true) :
    ∃ s s', run P dim (init t0 base dim) h = .ok s ∧ run P dim (init t0 base dim) (h ++ h') = .ok s' ∧
      s'.ind.overall ≤ s.ind.overall := by
  obtain ⟨s, e, iv⟩ := run_inv hP t0 h (legal_prefix hl)
  obtain ⟨s', e', iv'⟩ := run_inv hP t0 (h ++ h') hl
  refine ⟨s, s', e, e', ?_⟩
  obtain ⟨l, hpre⟩ := sols_prefix dim h h'
  have hsub : ∀ x ∈ Spec.sols dim h, x ∈ Spec.sols dim (h ++ h') := by
    intro x hx; rw [hpre]; exact List.mem_append_left _ hx
  obtain ⟨x, hx, hxf⟩ := hf
  obtain ⟨d, -, hd, ho⟩ := (iv.ind hci).value.some ⟨x, hx, hxf⟩
  obtain ⟨d', -, hd', ho'⟩ := (iv'.ind hci).value.some ⟨x, hsub x hx, hxf⟩
  rw [ho, ho', hypervolume_eq iv.content (iv.hyp hci), hypervolume_eq iv'.content (iv'.hyp hci)]
  have h1 : d' ≤ d := by
    obtain ⟨r, hr, hrf, hrl⟩ := hd.1
    exact hd'.2 ⟨r, hsub r hr, hrf, hrl⟩
  have h2 : Spec.hypervolume P (Spec.sols dim h) ≤ Spec.hypervolume P (Spec.sols dim (h ++ h')) := by
    unfold Spec.hypervolume
    apply ENNReal.toReal_mono (region_bounded _)
    apply MeasureTheory.measure_mono
    rintro z ⟨k1, k2, k3, k4, p, ⟨r, hr, hrf, rfl⟩, k5⟩
    exact ⟨k1, k2, k3, k4, _, ⟨r, hsub r hr, hrf, rfl⟩, k5⟩
  linarith

/-! ### C73 -/

open Classical in
/-- **C73** (mode all). The archive file has one line for every accepted solution, in the order of evaluation. -/
theorem C73_all (P : Params T) (base : List Nat) (dim : Nat) (hP : Spec.Setup P base dim) (t0 : T) (h : List Op)
    (hl : Spec.Legal P.mode dim h) (hm : P.mode = .all) :
    ∃ s s', run P dim (init t0 base dim) h = .ok s ∧ finish P s = .ok s' ∧ s'.adat = s.adat ∧
      s.adat = ((Spec.sols dim h).filter fun x => decide (Spec.Accepted P (Spec.sols dim h) x)).map Spec.line := by
  obtain ⟨s, e, iv⟩ := run_inv hP t0 h hl
  have had := iv.adat
  rw [if_pos hm] at had
  refine ⟨s, ?_⟩
  unfold finish
  rw [if_neg (by rw [hm]; decide), Res.ok_bind]
  by_cases hci : P.ci = true
  · rw [if_pos hci]
    exact ⟨_, e, rfl, rfl, had⟩
  · rw [if_neg hci]
    exact ⟨s, e, rfl, rfl, had⟩

theorem resort_spec (its : List Item) (t : Avl.Avl Item) (ht : Avl.Spec.Inv Item.ev t)
    (hnd : (its.map Item.ev).Nodup) (hne : ∀ it ∈ its, ∀ q ∈ t.items, q.ev ≠ it.ev) :
    ∃ t', resort its t = .ok t' ∧ Avl.Spec.Inv Item.ev t' ∧ ∀ q, q ∈ t'.items ↔ q ∈ its ∨ q ∈ t.items := by
  induction its generalizing t with
  | nil => exact ⟨t, rfl, ht, by simp⟩
  | cons it its ih =>
    rw [List.map_cons, List.nodup_cons] at hnd
    obtain ⟨t1, e1, inv1, m1⟩ := bufferInsert t ht it (hne it (by simp))
    obtain ⟨t', e2, inv2, m2⟩ := ih t1 inv1 hnd.2 (by
      intro r hr q hq
      rcases (m1 q).1 hq with rfl | hq
      · intro h
        exact hnd.1 (by rw [h]; exact List.mem_map.2 ⟨r, hr, rfl⟩)
      · exact hne r (by simp [hr]) q hq)
    refine ⟨t', by rw [resort, e1, Res.ok_bind]; exact e2, inv2, ?_⟩
    intro q
    rw [m2 q, m1 q, List.mem_cons]
    tauto

theorem treeOutput_eq (a : Arch) (its : List Item) (h : ∀ it ∈ its, it ∈ a.archive.items) :
    treeOutput a its = .ok (its.map fun it => (it.ev, it.y1, it.y2, it.x)) := by
  induction its with
  | nil => rfl
  | cons it its ih =>
    rw [treeOutput, if_pos (h it (by simp)), ih (fun q hq => h q (by simp [hq])), Res.ok_bind]
    rfl

theorem sorted_unique {l m : List Item} (hl : l.Pairwise fun a b => a.ev < b.ev)
    (hm : m.Pairwise fun a b => a.ev < b.ev) (h : ∀ q, q ∈ l ↔ q ∈ m) : l = m := by
  have hl' : l.Nodup := hl.imp (fun h he => by rw [he] at h; exact lt_irrefl _ h)
  have hm' : m.Nodup := hm.imp (fun h he => by rw [he] at h; exact lt_irrefl _ h)
  refine List.Perm.eq_of_pairwise (le := fun a b => a.ev < b.ev) ?_ hl hm ((List.perm_ext_iff_of_nodup hl' hm').2 h)
  intro a b _ _ h1 h2
  omega

open Classical in
/-- **C73** (mode final). When the problem is freed, the surviving solutions are written to the archive file in
the order of evaluation; before that nothing is written. -/
theorem C73_final (P : Params T) (base : List Nat) (dim : Nat) (hP : Spec.Setup P base dim) (t0 : T) (h : List Op)
    (hl : Spec.Legal P.mode dim h) (hm : P.mode = .final) :
    ∃ s s', run P dim (init t0 base dim) h = .ok s ∧ s.adat = [] ∧ finish P s = .ok s' ∧
      s'.adat = ((Spec.sols dim h).filter fun x => decide (Spec.Survives P (Spec.sols dim h) x)).map Spec.line := by
  obtain ⟨s, e, iv⟩ := run_inv hP t0 h hl
  have had := iv.adat
  rw [if_neg (by rw [hm]; decide)] at had
  obtain ⟨t, e1, inv1, m1⟩ := resort_spec s.arch.archive.items Avl.empty ⟨trivial, rfl, List.Pairwise.nil⟩
    iv.content.trees.evs (by intro it _ q hq; simp [Avl.empty] at hq)
  have hmem : ∀ q, q ∈ t.items ↔ q ∈ s.arch.archive.items := by
    intro q; rw [m1 q]; simp [Avl.empty]
  have hitems : t.items = ((Spec.sols dim h).filter fun x => decide (Spec.Survives P (Spec.sols dim h) x)).map (itemOf P) := by
    apply sorted_unique inv1.increasing
    · rw [List.pairwise_map]
      exact iv.ordered.1.sublist List.filter_sublist
    · intro q
      rw [hmem q, iv.content.mem q, List.mem_map]
      constructor
      · rintro ⟨x, hx, rfl⟩
        exact ⟨x, List.mem_filter.2 ⟨hx.1, by simpa using hx⟩, rfl⟩
      · rintro ⟨x, hx, rfl⟩
        exact ⟨x, by simpa using (List.mem_filter.1 hx).2, rfl⟩
  have hout := treeOutput_eq s.arch t.items (fun it hit => (hmem it).1 hit)
  have hlines : t.items.map (fun it => (it.ev, it.y1, it.y2, it.x)) =
      ((Spec.sols dim h).filter fun x => decide (Spec.Survives P (Spec.sols dim h) x)).map Spec.line := by
    rw [hitems, List.map_map]
    rfl
  refine ⟨s, ?_⟩
  unfold finish
  rw [if_pos hm, e1, Res.ok_bind, hout, Res.ok_bind, Res.ok_bind, hlines]
  by_cases hci : P.ci = true
  · rw [if_pos hci]
    exact ⟨_, e, had, rfl, by simp [had]⟩
  · rw [if_neg hci]
    exact ⟨_, e, had, rfl, by simp [had]⟩

/-! ### C74 -/

/-- **C74** (restarts). The rdat file has one line for the first evaluation after each restart, with the
indicator value after it. -/
theorem C74_restarts (P : Params T) (base : List Nat) (dim : Nat) (hP : Spec.Setup P base dim) (t0 : T) (h : List Op)
    (hl : Spec.Legal P.mode dim h) (hci : P.ci = true) :
    ∃ s, run P dim (init t0 base dim) h = .ok s ∧
      Spec.IsRdat P (Spec.sols dim h) (Spec.restarts dim h).1 s.ind.rdat := by
  obtain ⟨s, e, iv⟩ := run_inv hP t0 h hl
  exact ⟨s, e, (iv.ind hci).rdat⟩

/-- **C74** (targets). The dat file has a line for every evaluation at which the target trigger fires; it is
consulted with the value after each accepted solution and after an infeasible first evaluation. -/
theorem C74_dat (P : Params T) (base : List Nat) (dim : Nat) (hP : Spec.Setup P base dim) (t0 : T) (h : List Op)
    (hl : Spec.Legal P.mode dim h) (hci : P.ci = true) :
    ∃ s, run P dim (init t0 base dim) h = .ok s ∧ Spec.IsDat P t0 (Spec.sols dim h) s.ind.dat s.ind.targets := by
  obtain ⟨s, e, iv⟩ := run_inv hP t0 h hl
  exact ⟨s, e, (iv.ind hci).dat⟩

/-- **C74** (last lines). After the problem is freed, the last lines of the dat and tdat files show the number
of evaluations and the final indicator value; at most one line was added to each. -/
theorem C74_last (P : Params T) (base : List Nat) (dim : Nat) (hP : Spec.Setup P base dim) (t0 : T) (h : List Op)
    (hl : Spec.Legal P.mode dim h) (hci : P.ci = true) :
    ∃ s s' v t, run P dim (init t0 base dim) h = .ok s ∧ finish P s = .ok s' ∧ Spec.IsValue P (Spec.sols dim h) v ∧
      s'.ind.dat.getLast? = some (Spec.lastEv (Spec.sols dim h), v, t) ∧
      s'.ind.tdat.getLast? = some (Spec.lastEv (Spec.sols dim h), v) ∧
      (s'.ind.dat = s.ind.dat ∨ ∃ ln, s'.ind.dat = s.ind.dat ++ [ln]) ∧
      (s'.ind.tdat = s.ind.tdat ∨ ∃ ln, s'.ind.tdat = s.ind.tdat ++ [ln]) := by
  obtain ⟨s, e, iv⟩ := run_inv hP t0 h hl
  have ii := iv.ind hci
  have hv := ii.value.isValue iv.content (iv.hyp hci)
  -- the archive file does not matter
  obtain ⟨s1, e1, hi1, he1⟩ : ∃ s1, (if P.mode = .final then
      (resort s.arch.archive.items Avl.empty).bind fun t =>
      (treeOutput s.arch t.items).bind fun ls => Res.ok { s with adat := s.adat ++ ls }
    else .ok s) = .ok s1 ∧ s1.ind = s.ind ∧ s1.evals = s.evals := by
    by_cases hm : P.mode = .final
    · obtain ⟨t, e1, inv1, m1⟩ := resort_spec s.arch.archive.items Avl.empty ⟨trivial, rfl, List.Pairwise.nil⟩
        iv.content.trees.evs (by intro it _ q hq; simp [Avl.empty] at hq)
      have hout := treeOutput_eq s.arch t.items (fun it hit => by
        rcases (m1 it).1 hit with h | h
        · exact h
        · simp [Avl.empty] at h)
      rw [if_pos hm, e1, Res.ok_bind, hout, Res.ok_bind]
      exact ⟨_, rfl, rfl, rfl⟩
    · rw [if_neg hm]
      exact ⟨s, rfl, rfl, rfl⟩
  refine ⟨s, ?_⟩
  unfold finish
  rw [e1, Res.ok_bind, if_pos hci]
  refine ⟨_, s.ind.overall, P.last s.ind.targets, e, rfl, hv, ?_⟩
  simp only [hi1, he1]
  rw [← iv.evals]
  have k1 := ii.lastDat
  have k2 := ii.lastTdat
  rw [← iv.evals] at k1 k2
  cases g1 : s.ind.targetHit <;> cases g2 : s.ind.evaluationLogged <;> simp_all

/-! ### A case that meets the hypotheses -/

/-- Example parameters. -/
noncomputable def exampleParams (mode : Mode) : Params Unit :=
  ⟨mode, true, 0, 0, 10, 10, 1, fun _ _ => (false, ()), fun _ => 0⟩

/-- Five evaluations (the first infeasible) with a restart, for the modes other than `read`. -/
def exampleCalls : List Op :=
  [.evaluate [0] 1 1 [1], .evaluate [1] 8 8 [], .restart, .evaluate [2] 2 6 [0], .evaluate [3] 6 6 [-1],
    .recommend [2] 2 6 [], .evaluate [4] 20 1 []]

/-- Three fed solutions, for the mode `read`. -/
def exampleFeeds : List Op := [.feed 3 8 8, .restart, .feed 7 2 6, .feed 8 6 6]

theorem exampleSetup (mode : Mode) : Spec.Setup (exampleParams mode) [1, 2, 5] 3 :=
  ⟨by norm_num [exampleParams], by norm_num [exampleParams], ⟨by simp, by decide, by decide, by decide⟩, by decide⟩

theorem exampleLegal (mode : Mode) (dim : Nat) : Spec.Legal mode dim exampleCalls := by
  intro h1 ev y1 y2 h2 h
  have : Op.feed ev y1 y2 ∈ exampleCalls := by rw [h]; simp
  simp [exampleCalls] at this

theorem exampleLegalFeeds : Spec.Legal .read 1 exampleFeeds := by
  intro h1 ev y1 y2 h2 h
  refine ⟨rfl, ?_⟩
  unfold exampleFeeds at h
  rcases h1 with _ | ⟨a, _ | ⟨b, _ | ⟨c, _ | ⟨d, h1⟩⟩⟩⟩
  · cases h; decide
  · cases h
  · cases h; decide
  · cases h; decide
  · simp at h

/-- The solutions of the example: the first is infeasible; the third dominates the second and the fourth. -/
example : (Spec.sols 3 exampleCalls).map (fun s => (s.ev, s.feasible)) =
    [(1, false), (2, true), (3, true), (4, true), (5, true)] := by decide +kernel

example : (Spec.sols 3 exampleCalls).map (Spec.point (exampleParams .all)) =
    [(1/10, 1/10), (8/10, 8/10), (2/10, 6/10), (6/10, 6/10), (2, 1/10)] := by
  simp only [exampleParams]
  decide +kernel

example : Spec.restarts 3 exampleCalls = ([3], false) := by decide +kernel

example : ∃ s, run (exampleParams .all) 3 (init () [1, 2, 5] 3) exampleCalls = .ok s ∧
    (s.arch.cur : ℝ) = Spec.hypervolume (exampleParams .all) (Spec.sols 3 exampleCalls) :=
  C38_hypervolume _ _ _ (exampleSetup _) _ _ (exampleLegal _ _) rfl

example : ∃ s, run (exampleParams .read) 1 (init () [1, 2, 5] 1) exampleFeeds = .ok s ∧
    Spec.IsTdat (exampleParams .read) [1, 2, 5] 1 (Spec.sols 1 exampleFeeds) s.ind.tdat :=
  C39_tdat _ _ _ ⟨(exampleSetup .read).roi1, (exampleSetup .read).roi2, (exampleSetup .read).base, le_rfl⟩ _ _
    exampleLegalFeeds (by intro _ x y1 y2 cons h; simp [exampleFeeds] at h) rfl

end LoggerBiobj
