import Verif.Model.LoggerBiobj
import Verif.Props.Archive
import Mathlib.Data.List.TakeWhile

/-!
The archive part of the bi-objective logger: the trees and the incrementally maintained hypervolume.
-/

namespace LoggerBiobj
open MO Front
open Archive (Normal)

/-- The normalised objective vector of an item. -/
def vec (it : Item) : ℚ × ℚ := (it.n1, it.n2)

/-! ### Comparison functions -/

/-- Exact comparison of the second objective. -/
def cmpExact (a b : Item) : Int := if a.n2 = b.n2 then 0 else if a.n2 < b.n2 then -1 else 1

theorem cmpExact_compares : Avl.Spec.Compares cmpExact Item.n2 := by
  constructor <;> intro a b <;> unfold cmpExact <;> rcases lt_trichotomy a.n2 b.n2 with h | h | h
  · simp [h, ne_of_lt h]
  · simp [h]
  · simp [ne_of_gt h, not_lt.2 h.le]
  · simp [h, ne_of_lt h, h.le]
  · simp [h]
  · simp [h, ne_of_gt h, not_lt.2 h.le]

theorem cmp_agree {a b : Item} (ha : MO.Spec.OnGrid a.n2) (hb : MO.Spec.OnGrid b.n2) : cmpObj a b = cmpExact a b := by
  unfold cmpObj cmpExact
  rw [almostEqual_grid ha hb]
  simp

theorem cmpEv_compares : Avl.Spec.Compares cmpEv Item.ev := by
  constructor <;> intro a b <;> unfold cmpEv <;> rcases lt_trichotomy a.ev b.ev with h | h | h
  · simp [h]
  · simp [h]
  · simp [h, not_lt.2 h.le]
  · simp [h, h.le]
  · simp [h]
  · simp [h, not_lt.2 h.le]

/-! ### Contributions -/

/-- The first coordinate up to which the step after an item reaches. -/
def nextRef (it : Item) : ℚ := if it.within then it.n1 else 1

/-- The area of the step of an item. -/
def stepArea (x : ℚ) (it : Item) : ℚ := if it.within then (x - it.n1) * (1 - it.n2) else 0

/-- The contributions of consecutive items are the areas of their steps. -/
def Contrib (x : ℚ) (c : Nat → ℚ) : List Item → Prop
  | [] => True
  | it :: l => c it.ev = stepArea x it ∧ Contrib (nextRef it) c l

/-- The reference coordinate after a list of items. -/
def refOf (x : ℚ) : List Item → ℚ
  | [] => x
  | it :: l => refOf (nextRef it) l

/-- The sum of the contributions. -/
def sumC (c : Nat → ℚ) (l : List Item) : ℚ := (l.map fun it => c it.ev).sum

theorem sumC_append (c : Nat → ℚ) (a b : List Item) : sumC c (a ++ b) = sumC c a + sumC c b := by
  simp [sumC]

theorem sumC_cons (c : Nat → ℚ) (a : Item) (b : List Item) : sumC c (a :: b) = c a.ev + sumC c b := by
  simp [sumC]

theorem contrib_append (x : ℚ) (c : Nat → ℚ) (a b : List Item) :
    Contrib x c (a ++ b) ↔ Contrib x c a ∧ Contrib (refOf x a) c b := by
  induction a generalizing x with
  | nil => simp [Contrib, refOf]
  | cons it a ih => simp only [List.cons_append, Contrib, refOf, ih, and_assoc]

theorem refOf_append (x : ℚ) (a b : List Item) : refOf x (a ++ b) = refOf (refOf x a) b := by
  induction a generalizing x with
  | nil => rfl
  | cons it a ih => simp only [List.cons_append, refOf, ih]

theorem contrib_congr {x : ℚ} {c c' : Nat → ℚ} {l : List Item} (h : ∀ it ∈ l, c it.ev = c' it.ev) :
    Contrib x c l ↔ Contrib x c' l := by
  induction l generalizing x with
  | nil => rfl
  | cons it l ih =>
    simp only [Contrib]
    rw [h it (by simp), ih fun q hq => h q (by simp [hq])]

theorem sumC_congr {c c' : Nat → ℚ} {l : List Item} (h : ∀ it ∈ l, c it.ev = c' it.ev) : sumC c l = sumC c' l := by
  unfold sumC
  rw [List.map_congr_left h]

theorem contrib_head_out {x y : ℚ} {c : Nat → ℚ} {l : List Item} (h : ∀ it, l.head? = some it → it.within = false)
    (hc : Contrib x c l) : Contrib y c l := by
  cases l with
  | nil => trivial
  | cons it l =>
    have := h it rfl
    simp only [Contrib, stepArea, this, Bool.false_eq_true, if_false] at hc ⊢
    exact hc

/-- An item with consistent fields. -/
structure ItemOk (it : Item) : Prop where
  normal : Normal (vec it)
  within : it.within = true ↔ it.n1 ≤ 1 ∧ it.n2 ≤ 1

theorem ItemOk.out {it : Item} (h : ItemOk it) : it.within = false ↔ 1 < it.n1 ∨ 1 < it.n2 := by
  rw [← Bool.not_eq_true, h.within, not_and_or, not_le, not_le]

theorem out_of_weakly {p q : Item} (hp : ItemOk p) (hq : ItemOk q) (hw : Weakly (vec p) (vec q))
    (h : p.within = false) : q.within = false := by
  rw [hp.out] at h
  rw [hq.out]
  rcases h with h | h
  · exact .inl (lt_of_lt_of_le h hw.1)
  · exact .inr (lt_of_lt_of_le h hw.2)

/-- The sum of the contributions is the area of the staircase of the items within the region of interest. -/
theorem sumC_area {l : List Item} {x : ℚ} {c : Nat → ℚ} (hs : Stair vec l) (hok : ∀ it ∈ l, ItemOk it)
    (hx : x = 1 ∨ (x ≤ 1 ∧ ∀ it ∈ l, it.n1 < x)) (hc : Contrib x c l) :
    sumC c l = stairArea x ((l.filter (·.within)).map vec) := by
  induction l generalizing x with
  | nil => rfl
  | cons it l ih =>
    unfold Stair at hs ih
    rw [List.pairwise_cons] at hs
    obtain ⟨h1, h2⟩ := hc
    have ih' := fun x hx hc => ih (x := x) hs.2 (fun q hq => hok q (by simp [hq])) hx hc
    rw [sumC_cons, h1]
    cases hw : it.within with
    | true =>
      have hle := ((hok it (by simp)).within.1 hw)
      rw [List.filter_cons_of_pos (by simpa using hw), List.map_cons, stairArea]
      have hn : nextRef it = it.n1 := by simp [nextRef, hw]
      rw [hn] at h2
      rw [ih' it.n1 (.inr ⟨hle.1, fun q hq => (hs.1 q hq).2⟩) h2]
      simp [stepArea, hw, vec]
    | false =>
      rw [List.filter_cons_of_neg (by simp [hw])]
      have hn : nextRef it = 1 := by simp [nextRef, hw]
      rw [hn] at h2
      simp only [stepArea, hw, Bool.false_eq_true, if_false, zero_add]
      rcases hx with rfl | ⟨hx, hlt⟩
      · exact ih' 1 (.inl rfl) h2
      · have hout := (hok it (by simp)).out.1 hw
        have hl := hlt it (by simp)
        have h3 : 1 < it.n2 := by
          rcases hout with h | h
          · linarith
          · exact h
        have hall : l.filter (·.within) = [] := by
          rw [List.filter_eq_nil_iff]
          intro q hq hqw
          have := ((hok q (by simp [hq])).within.1 hqw).2
          have := (hs.1 q hq).1
          simp only [vec] at this
          linarith
        rw [hall, ih' 1 (.inl rfl) h2, hall]
        rfl

/-! ### The trees -/

/-- What holds of the trees between evaluations. -/
structure Trees (s : Arch) : Prop where
  inv : Avl.Spec.Inv Item.n2 s.archive
  stair : Stair vec s.archive.items
  ok : ∀ it ∈ s.archive.items, ItemOk it
  evs : (s.archive.items.map Item.ev).Nodup
  binv : Avl.Spec.Inv Item.ev s.buffer
  bsub : ∀ it ∈ s.buffer.items, it ∈ s.archive.items

/-- The incremental hypervolume is right. -/
structure Hyp (s : Arch) : Prop where
  contrib : Contrib 1 s.contrib s.archive.items
  sum : s.cur = sumC s.contrib s.archive.items

theorem ev_inj {l : List Item} (h : (l.map Item.ev).Nodup) {a b : Item} (ha : a ∈ l) (hb : b ∈ l)
    (e : a.ev = b.ev) : a = b := List.inj_on_of_nodup_map h ha hb e

/-- Removing from the buffer. -/
theorem bufferDelete (B : Avl.Avl Item) (hB : Avl.Spec.Inv Item.ev B) (n : Item)
    (h : ∀ y ∈ B.items, y.ev = n.ev → y = n) :
    ∃ B' o, Avl.itemDelete cmpEv B n = .ok (B', o) ∧ Avl.Spec.Inv Item.ev B' ∧
      ∀ q, q ∈ B'.items ↔ q ∈ B.items ∧ q ≠ n := by
  rcases Avl.itemDelete_spec cmpEv_compares B hB n with ⟨e, hn⟩ | ⟨B', y, a, b, e, inv, hk, e2, e3⟩
  · refine ⟨B, none, e, hB, ?_⟩
    intro q
    constructor
    · intro hq
      refine ⟨hq, ?_⟩
      rintro rfl
      exact hn q hq rfl
    · exact fun h => h.1
  · refine ⟨B', some y, e, inv, ?_⟩
    have hy : y = n := h y (by rw [e2]; simp) hk
    subst hy
    have hnd := Avl.increasing_nodup hB.increasing
    intro q
    rw [e3, e2]
    rw [e2, List.nodup_append, List.nodup_cons] at hnd
    simp only [List.mem_append, List.mem_cons]
    constructor
    · rintro (hq | hq)
      · refine ⟨.inl hq, ?_⟩
        rintro rfl
        exact hnd.2.2 q hq q (by simp) rfl
      · refine ⟨.inr (.inr hq), ?_⟩
        rintro rfl
        exact hnd.2.1.1 hq
    · rintro ⟨hq | hq | hq, hne⟩
      · exact .inl hq
      · exact absurd hq hne
      · exact .inr hq

theorem bufferInsert (B : Avl.Avl Item) (hB : Avl.Spec.Inv Item.ev B) (n : Item) (h : ∀ y ∈ B.items, y.ev ≠ n.ev) :
    ∃ B', Avl.itemInsert cmpEv B n = .ok (B', true) ∧ Avl.Spec.Inv Item.ev B' ∧
      ∀ q, q ∈ B'.items ↔ q = n ∨ q ∈ B.items := by
  rcases Avl.itemInsert_spec cmpEv_compares B hB n with ⟨-, y, hy, hk⟩ | ⟨B', a, b, e, inv, e2, e3, -, -⟩
  · exact absurd hk (h y hy)
  · refine ⟨B', e, inv, ?_⟩
    intro q
    rw [e3, e2]
    simp only [List.mem_append, List.mem_cons]
    tauto

theorem removeNode_spec (ci : Bool) (s : Arch) (t : Trees s) (n : Item) (a b : List Item)
    (e : s.archive.items = a ++ n :: b) :
    ∃ A B, removeNode ci s n =
        .ok { s with archive := A, buffer := B, cur := if ci then s.cur - s.contrib n.ev else s.cur } ∧
      A.items = a ++ b ∧ Trees { s with archive := A, buffer := B } ∧
      ∀ q, q ∈ B.items ↔ q ∈ s.buffer.items ∧ q ≠ n := by
  have hm : n ∈ s.archive.items := by rw [e]; simp
  obtain ⟨A, e1, inv, e2⟩ := Avl.itemDelete_mem (cmp := cmpObj) cmpExact_compares s.archive t.inv n
    (fun y hy => cmp_agree (t.ok n hm).normal.grid.2 (t.ok y hy).normal.grid.2) a b e
  obtain ⟨B, o, e3, binv, hB⟩ := bufferDelete s.buffer t.binv n (fun y hy he => ev_inj t.evs (t.bsub y hy) hm he)
  have hsub : (a ++ b).Sublist (a ++ n :: b) := List.Sublist.append_left (List.sublist_cons_self n b) a
  refine ⟨A, B, ?_, e2, ?_, hB⟩
  · unfold removeNode
    simp only [e3, Res.ok_bind, e1]
  · refine ⟨inv, ?_, ?_, ?_, binv, ?_⟩
    · simp only [e2]
      have := t.stair
      rw [e] at this
      exact this.sublist hsub
    · simp only [e2]
      intro it hit
      apply t.ok
      rw [e]
      exact hsub.subset hit
    · simp only [e2]
      have := t.evs
      rw [e] at this
      exact this.sublist (hsub.map _)
    · simp only [e2]
      intro it hit
      obtain ⟨h1, h2⟩ := (hB it).1 hit
      have := t.bsub it h1
      rw [e] at this
      simp only [List.mem_append, List.mem_cons] at this ⊢
      tauto

/-- What the following items must satisfy for a new item to be inserted before them. -/
def NextOk (it : Item) (c : Nat → ℚ) (b : List Item) : Prop :=
  ∃ x, Contrib x c b ∧ (it.within = false → x = 1)

theorem nextOk_tail {it n : Item} {c : Nat → ℚ} {b : List Item} (hi : ItemOk it) (hn : ItemOk n)
    (hw : Weakly (vec it) (vec n)) (h : NextOk it c (n :: b)) : NextOk it c b := by
  obtain ⟨x, hx, -⟩ := h
  refine ⟨nextRef n, hx.2, ?_⟩
  intro ho
  simp [nextRef, out_of_weakly hi hn hw ho]

/-- The invariants used during an update. -/
structure During (ci : Bool) (it : Item) (a b : List Item) (s : Arch) : Prop where
  before : ci = true → Contrib 1 s.contrib a
  next : ci = true → NextOk it s.contrib b
  sum : ci = true → s.cur = sumC s.contrib (a ++ b)

theorem removeLoop_spec (ci : Bool) (it : Item) (hi : ItemOk it) (ns a : List Item) (s : Arch) (t : Trees s)
    (e : s.archive.items = a ++ ns) (hlt : ∀ n ∈ ns, it.n2 < n.n2) :
    ∃ A B cur, removeLoop ci it ns s = .ok { s with archive := A, buffer := B, cur := cur } ∧
      A.items = a ++ ns.dropWhile (fun q => decide ((vec it).1 ≤ (vec q).1)) ∧
      Trees { s with archive := A, buffer := B } ∧
      (∀ q, q ∈ B.items ↔ q ∈ s.buffer.items ∧ q ∉ ns.takeWhile (fun q => decide ((vec it).1 ≤ (vec q).1))) ∧
      (During ci it a ns s → During ci it a (ns.dropWhile (fun q => decide ((vec it).1 ≤ (vec q).1)))
        { s with archive := A, buffer := B, cur := cur }) := by
  induction ns generalizing s with
  | nil => exact ⟨s.archive, s.buffer, s.cur, rfl, by simpa using e, t, by simp, fun h => h⟩
  | cons n ns ih =>
    have hm : n ∈ s.archive.items := by rw [e]; simp
    have hn := t.ok n hm
    obtain ⟨d1, d2, d3⟩ := dominance_pair (vec it) (vec n) hi.normal.grid hn.normal.grid
    have hl := hlt n (by simp)
    by_cases hw : it.n1 ≤ n.n1
    · have hW : Weakly (vec it) (vec n) := ⟨hw, hl.le⟩
      have hne : vec it ≠ vec n := by
        intro h; have := congrArg Prod.snd h; exact absurd this (ne_of_lt hl)
      have hd : dominance [it.n1, it.n2] [n.n1, n.n2] = .ok 1 := d1 hW hne
      obtain ⟨A, B, e1, e2, t1, hB⟩ := removeNode_spec ci s t n a ns e
      obtain ⟨A', B', cur, e3, e4, t2, hB', hdur⟩ := ih
        { s with archive := A, buffer := B, cur := if ci then s.cur - s.contrib n.ev else s.cur }
        ⟨t1.inv, t1.stair, t1.ok, t1.evs, t1.binv, t1.bsub⟩ e2 (fun m hm => hlt m (by simp [hm]))
      refine ⟨A', B', cur, ?_, ?_, ⟨t2.inv, t2.stair, t2.ok, t2.evs, t2.binv, t2.bsub⟩, ?_, ?_⟩
      · rw [removeLoop, hd, Res.ok_bind, if_pos rfl, e1, Res.ok_bind, e3]
      · rw [e4, List.dropWhile_cons_of_pos (by simp [vec, hw])]
      · intro q
        rw [hB' q, List.takeWhile_cons_of_pos (by simp [vec, hw])]
        simp only [hB q, List.mem_cons, not_or, and_assoc]
      · intro h
        rw [List.dropWhile_cons_of_pos (by simp [vec, hw])]
        refine hdur ⟨h.before, fun hc => nextOk_tail hi hn hW (h.next hc), ?_⟩
        intro hc
        have := h.sum hc
        simp only [hc, if_true]
        rw [this, sumC_append, sumC_append, sumC_cons]
        ring
    · have hd : dominance [it.n1, it.n2] [n.n1, n.n2] = .ok 0 := d3 (fun h => hw h.1) (fun h => absurd h.2 (not_le.2 hl))
      have hneg : ¬ (fun q => decide ((vec it).1 ≤ (vec q).1)) n = true := fun h => hw (of_decide_eq_true h)
      refine ⟨s.archive, s.buffer, s.cur, ?_, ?_, t, ?_, ?_⟩
      · rw [removeLoop, hd, Res.ok_bind, if_neg (by norm_num)]
      · rw [e, List.dropWhile_cons_of_neg (p := fun q => decide ((vec it).1 ≤ (vec q).1)) hneg]
      · intro q
        rw [List.takeWhile_cons_of_neg (p := fun q => decide ((vec it).1 ≤ (vec q).1)) hneg]
        simp
      · rw [List.dropWhile_cons_of_neg (p := fun q => decide ((vec it).1 ≤ (vec q).1)) hneg]
        exact fun h => h

theorem refOf_last (a : List Item) : refOf 1 a = match a.getLast? with | none => 1 | some p => nextRef p := by
  rcases List.eq_nil_or_concat a with rfl | ⟨a', p, rfl⟩
  · rfl
  · rw [List.concat_eq_append, refOf_append]
    simp [refOf]

/-- The insertion proper, between `a` and `b`. -/
theorem insert_contrib (it : Item) (hi : ItemOk it) (a b : List Item) (s : Arch)
    (e : s.archive.items = a ++ it :: b) (hst : Stair vec (a ++ it :: b)) (hok : ∀ q ∈ a ++ b, ItemOk q)
    (hev : ((a ++ it :: b).map Item.ev).Nodup) (hw : it.within = true) :
    ∃ cur c, ((updateNext s it).bind fun s => updateNew s it) = .ok { s with cur := cur, contrib := c } ∧
      (During true it a b s → Contrib 1 c (a ++ it :: b) ∧ cur = sumC c (a ++ it :: b)) := by
  have hnd : (a ++ it :: b).Nodup := List.Nodup.of_map _ hev
  have hle := hi.within.1 hw
  -- the new item
  have hnew : ∀ s' : Arch, s'.archive = s.archive →
      updateNew s' it = .ok { s' with cur := s'.cur + stepArea (refOf 1 a) it,
                                      contrib := Function.update s'.contrib it.ev (stepArea (refOf 1 a) it) } := by
    intro s' hs'
    have hp : Avl.prevOf s'.archive.items it = a.getLast? := by
      rw [hs', e]; exact Avl.prevOf_eq a it b hnd
    have hc : newContribution s'.archive.items it = stepArea (refOf 1 a) it := by
      unfold newContribution
      rw [hp, refOf_last]
      cases hl : a.getLast? with
      | none => simp [stepArea, hw]
      | some p => cases hpw : p.within <;> simp [stepArea, hw, nextRef, hpw]
    have hnn : stepArea (refOf 1 a) it ≥ 0 := by
      unfold stepArea
      rw [if_pos hw]
      apply mul_nonneg
      · rw [refOf_last]
        cases hl : a.getLast? with
        | none => simp only; linarith [hle.1]
        | some p =>
          have hpa := List.mem_of_getLast? hl
          unfold Stair at hst
          rw [List.pairwise_append] at hst
          have := (hst.2.2 p hpa it (by simp)).2
          simp only [vec] at this
          show 0 ≤ nextRef p - it.n1
          unfold nextRef
          cases p.within
          · simp only [Bool.false_eq_true, if_false]; linarith [hle.1]
          · simp only [if_true]; linarith
      · linarith [hle.2]
    unfold updateNew
    simp only [hc]
    rw [decide_eq_true hnn]
    rfl
  have hnx : Avl.nextOf s.archive.items it = b.head? := by rw [e]; exact Avl.nextOf_eq a it b hnd
  have hev' := hev
  rw [List.map_append, List.map_cons, List.nodup_append, List.nodup_cons] at hev'
  obtain ⟨ea, ⟨eb1, eb2⟩, eab⟩ := hev'
  have hne_a : ∀ q ∈ a, q.ev ≠ it.ev := fun q hq =>
    eab q.ev (List.mem_map.2 ⟨q, hq, rfl⟩) it.ev (by simp)
  have hne_b : ∀ q ∈ b, q.ev ≠ it.ev := fun q hq h => eb1 (by rw [← h]; exact List.mem_map.2 ⟨q, hq, rfl⟩)
  unfold updateNext
  rw [hnx]
  cases b with
  | nil =>
    simp only [List.head?_nil, Res.ok_bind]
    rw [hnew s rfl]
    refine ⟨_, _, rfl, ?_⟩
    intro h
    constructor
    · rw [contrib_append]
      refine ⟨(contrib_congr fun q hq => ?_).1 (h.before rfl), ?_, trivial⟩
      · rw [Function.update_of_ne (hne_a q hq)]
      · simp
    · rw [h.sum rfl, List.append_nil, sumC_append, sumC_cons, Function.update_self]
      rw [sumC_congr (c' := s.contrib) (l := a) fun q hq => Function.update_of_ne (hne_a q hq) _ _]
      simp [sumC]
  | cons n b =>
    simp only [List.head?_cons]
    have hlt : (vec it).2 < (vec n).2 ∧ (vec n).1 < (vec it).1 := by
      unfold Stair at hst
      rw [List.pairwise_append, List.pairwise_cons] at hst
      exact hst.2.1.1 n (by simp)
    cases hnw : n.within with
    | false =>
      simp only [Bool.false_eq_true, if_false, Res.ok_bind]
      rw [hnew s rfl]
      refine ⟨_, _, rfl, ?_⟩
      intro h
      constructor
      · rw [contrib_append]
        refine ⟨(contrib_congr fun q hq => ?_).1 (h.before rfl), ?_, ?_⟩
        · rw [Function.update_of_ne (hne_a q hq)]
        · simp
        · obtain ⟨x, hx, -⟩ := h.next rfl
          refine (contrib_congr fun q hq => ?_).1 (contrib_head_out (y := nextRef it) ?_ hx)
          · rw [Function.update_of_ne (hne_b q hq)]
          · intro q hq
            simp only [List.head?_cons, Option.some.injEq] at hq
            rw [← hq]; exact hnw
      · rw [h.sum rfl, sumC_append, sumC_append, sumC_cons (a := it), Function.update_self]
        rw [sumC_congr (c' := s.contrib) (l := a) fun q hq => Function.update_of_ne (hne_a q hq) _ _]
        rw [sumC_congr (c' := s.contrib) (l := n :: b) fun q hq => Function.update_of_ne (hne_b q hq) _ _]
        ring
    | true =>
      have hnle := (hok n (by simp)).within.1 hnw
      have hnn : (it.n1 - n.n1) * (1 - n.n2) ≥ 0 := by
        apply mul_nonneg
        · have := hlt.2; simp only [vec] at this; linarith
        · linarith [hnle.2]
      simp only [if_true]
      rw [decide_eq_true hnn]
      simp only [Res.assert, if_true, Res.ok_bind]
      rw [hnew { s with cur := s.cur - s.contrib n.ev + (it.n1 - n.n1) * (1 - n.n2),
                        contrib := Function.update s.contrib n.ev ((it.n1 - n.n1) * (1 - n.n2)) } rfl]
      refine ⟨_, _, rfl, ?_⟩
      intro h
      have hn_it : n.ev ≠ it.ev := hne_b n (by simp)
      have hn_b : ∀ q ∈ b, q.ev ≠ n.ev := by
        intro q hq hqe
        rw [List.map_cons, List.nodup_cons] at eb2
        exact eb2.1 (by rw [← hqe]; exact List.mem_map.2 ⟨q, hq, rfl⟩)
      have hn_a : ∀ q ∈ a, q.ev ≠ n.ev := fun q hq =>
        eab q.ev (List.mem_map.2 ⟨q, hq, rfl⟩) n.ev (by simp)
      simp only
      have ha' : ∀ q ∈ a, s.contrib q.ev = Function.update (Function.update s.contrib n.ev ((it.n1 - n.n1) * (1 - n.n2)))
          it.ev (stepArea (refOf 1 a) it) q.ev := by
        intro q hq
        rw [Function.update_of_ne (hne_a q hq), Function.update_of_ne (hn_a q hq)]
      have hb' : ∀ q ∈ b, s.contrib q.ev = Function.update (Function.update s.contrib n.ev ((it.n1 - n.n1) * (1 - n.n2)))
          it.ev (stepArea (refOf 1 a) it) q.ev := by
        intro q hq
        rw [Function.update_of_ne (hne_b q (by simp [hq])), Function.update_of_ne (hn_b q hq)]
      have hnval : Function.update (Function.update s.contrib n.ev ((it.n1 - n.n1) * (1 - n.n2)))
          it.ev (stepArea (refOf 1 a) it) n.ev = (it.n1 - n.n1) * (1 - n.n2) := by
        rw [Function.update_of_ne hn_it, Function.update_self]
      constructor
      · rw [contrib_append]
        refine ⟨(contrib_congr ha').1 (h.before rfl), by simp, ?_⟩
        obtain ⟨x, hx, -⟩ := h.next rfl
        refine ⟨?_, (contrib_congr hb').1 hx.2⟩
        rw [hnval]
        simp [stepArea, hnw, nextRef, hw]
      · rw [h.sum rfl, sumC_append, sumC_append, sumC_cons (a := it), sumC_cons, sumC_cons, ← sumC_congr ha',
          ← sumC_congr hb', hnval, Function.update_self]
        ring

theorem insertNew_spec (ci : Bool) (it : Item) (hi : ItemOk it) (a b : List Item) (s : Arch) (t : Trees s)
    (e : s.archive.items = a ++ b) (ha : ∀ q ∈ a, (vec q).2 < (vec it).2 ∧ (vec it).1 < (vec q).1)
    (hb : ∀ q ∈ b, it.n2 < q.n2) (hev : ∀ q ∈ s.archive.items, q.ev ≠ it.ev) (h0 : s.contrib it.ev = 0) :
    ∃ s', insertNew ci it b s = .ok s' ∧ Trees s' ∧
      s'.archive.items = a ++ it :: b.filter (fun q => !decide (Weakly (vec it) (vec q))) ∧
      (∀ q, q ∈ s'.buffer.items ↔ q = it ∨ (q ∈ s.buffer.items ∧ ¬ (q ∈ b ∧ Weakly (vec it) (vec q)))) ∧
      (ci = true → During ci it a b s → Hyp s') := by
  obtain ⟨A, B, cur, e1, e2, t1, hB, hdur⟩ := removeLoop_spec ci it hi b a s t e hb
  have hst := t.stair
  rw [e] at hst
  have hsb : Stair vec b := by
    unfold Stair at hst ⊢
    rw [List.pairwise_append] at hst
    exact hst.2.1
  have hdw := dropWhile_high vec (p := vec it) hsb
  have hiffw : ∀ q ∈ b, ((vec it).1 ≤ (vec q).1 ↔ Weakly (vec it) (vec q)) := fun q hq =>
    ⟨fun h => ⟨h, (hb q hq).le⟩, fun h => h.1⟩
  have hfb : b.filter (fun q => !decide ((vec it).1 ≤ (vec q).1)) =
      b.filter (fun q => !decide (Weakly (vec it) (vec q))) := by
    apply List.filter_congr
    intro q hq
    simp only [hiffw q hq]
  rw [hdw, hfb] at e2 hdur
  have htw : ∀ q, q ∈ b.takeWhile (fun q => decide ((vec it).1 ≤ (vec q).1)) ↔ q ∈ b ∧ Weakly (vec it) (vec q) := by
    intro q
    constructor
    · intro hq
      have h1 := List.takeWhile_subset _ hq
      have h2 := List.mem_takeWhile_imp hq
      exact ⟨h1, (hiffw q h1).1 (by simpa using h2)⟩
    · rintro ⟨h1, h2⟩
      have : q ∈ b.takeWhile (fun q => decide ((vec it).1 ≤ (vec q).1)) ++
          b.dropWhile (fun q => decide ((vec it).1 ≤ (vec q).1)) := by
        rw [List.takeWhile_append_dropWhile]; exact h1
      rcases List.mem_append.1 this with h | h
      · exact h
      · rw [hdw, hfb, List.mem_filter] at h
        simp [h2] at h
  have hsubl : (a ++ b.filter (fun q => !decide (Weakly (vec it) (vec q)))).Sublist s.archive.items := by
    rw [e]; exact List.Sublist.append_left List.filter_sublist a
  obtain ⟨A', e3, inv3, e4⟩ := Avl.itemInsert_new (cmp := cmpObj) cmpExact_compares A t1.inv it
    (by
      intro y hy
      exact cmp_agree hi.normal.grid.2 (t1.ok y hy).normal.grid.2)
    a _ e2 (fun y hy => (ha y hy).1) (fun y hy => hb y (List.mem_filter.1 hy).1)
  obtain ⟨B', e5, inv5, hB'⟩ := bufferInsert B t1.binv it (by
    intro y hy
    apply hev
    exact t.bsub y ((hB y).1 hy).1)
  have hst' : Stair vec (a ++ it :: b.filter (fun q => !decide (Weakly (vec it) (vec q)))) := by
    have hst2 := hst.sublist (List.Sublist.append_left
      (List.filter_sublist (p := fun q => !decide (Weakly (vec it) (vec q))) (l := b)) a)
    unfold Stair at hst2 ⊢
    rw [List.pairwise_append] at hst2
    rw [List.pairwise_append, List.pairwise_cons]
    refine ⟨hst2.1, ⟨?_, hst2.2.1⟩, ?_⟩
    · intro q hq
      have hq' := List.mem_filter.1 hq
      refine ⟨hb q hq'.1, ?_⟩
      have hlt := hb q hq'.1
      by_contra hc
      have : Weakly (vec it) (vec q) := ⟨not_lt.1 hc, hlt.le⟩
      simp [this] at hq'
    · intro q hq r hr
      rcases List.mem_cons.1 hr with rfl | hr
      · exact ha q hq
      · exact hst2.2.2 q hq r hr
  have hmem : ∀ q, q ∈ a ++ it :: b.filter (fun q => !decide (Weakly (vec it) (vec q))) →
      q = it ∨ q ∈ s.archive.items := by
    intro q hq
    simp only [List.mem_append, List.mem_cons] at hq
    rcases hq with hq | hq | hq
    · exact .inr (hsubl.subset (by simp only [List.mem_append]; exact .inl hq))
    · exact .inl hq
    · exact .inr (hsubl.subset (by simp only [List.mem_append]; exact .inr hq))
  have hevs : ((a ++ it :: b.filter (fun q => !decide (Weakly (vec it) (vec q)))).map Item.ev).Nodup := by
    have h1 := t.evs.sublist (hsubl.map Item.ev)
    have hperm : ((a ++ it :: b.filter (fun q => !decide (Weakly (vec it) (vec q)))).map Item.ev).Perm
        (it.ev :: (a ++ b.filter (fun q => !decide (Weakly (vec it) (vec q)))).map Item.ev) := by
      rw [← List.map_cons]
      exact List.perm_middle.map _
    rw [hperm.nodup_iff, List.nodup_cons]
    refine ⟨?_, h1⟩
    intro hm
    obtain ⟨q, hq, hqe⟩ := List.mem_map.1 hm
    exact hev q (hsubl.subset hq) hqe
  have hok' : ∀ q ∈ a ++ b.filter (fun q => !decide (Weakly (vec it) (vec q))), ItemOk q :=
    fun q hq => t.ok q (hsubl.subset hq)
  have hbuf : ∀ q, q ∈ B'.items ↔ q = it ∨ (q ∈ s.buffer.items ∧ ¬ (q ∈ b ∧ Weakly (vec it) (vec q))) := by
    intro q
    rw [hB' q, hB q, htw q]
  have trees : ∀ c cur, Trees ⟨A', B', cur, c⟩ := by
    intro c cur
    refine ⟨inv3, by rw [e4]; exact hst', ?_, by rw [e4]; exact hevs, inv5, ?_⟩
    · intro q hq
      rw [e4] at hq
      rcases hmem q hq with rfl | hq
      · exact hi
      · exact t.ok q hq
    · intro q hq
      rw [e4]
      rcases (hbuf q).1 hq with rfl | ⟨h1, h2⟩
      · simp
      · have := t.bsub q h1
        rw [e] at this
        simp only [List.mem_append, List.mem_cons, List.mem_filter, Bool.not_eq_true', decide_eq_false_iff_not] at this ⊢
        tauto
  unfold insertNew
  rw [e1, Res.ok_bind]
  simp only [e3, Res.ok_bind, Res.assert, if_true, e5]
  by_cases hc : (ci && it.within) = true
  · rw [if_pos hc]
    have hc' : ci = true ∧ it.within = true := by simpa using hc
    obtain ⟨cur', c', e6, h6⟩ := insert_contrib it hi a _ ⟨A', B', cur, s.contrib⟩ e4 hst' hok' hevs hc'.2
    refine ⟨_, e6, trees _ _, e4, hbuf, ?_⟩
    intro _ hd
    rw [hc'.1] at hd hdur
    have := hdur hd
    obtain ⟨k1, k2⟩ := h6 ⟨this.before, this.next, this.sum⟩
    exact ⟨by simp only [e4]; exact k1, by simp only [e4]; exact k2⟩
  · rw [if_neg hc]
    refine ⟨_, rfl, trees _ _, e4, hbuf, ?_⟩
    intro hci hd
    have hw : it.within = false := by
      cases h : it.within
      · rfl
      · simp [hci, h] at hc
    have hd' := hdur hd
    obtain ⟨x, hx, hx1⟩ := hd'.next hci
    have hs := hd'.sum hci
    simp only at hs hx
    refine ⟨?_, ?_⟩
    · simp only [e4]
      rw [contrib_append]
      refine ⟨hd'.before hci, ?_, ?_⟩
      · simp only [h0, stepArea, hw, Bool.false_eq_true, if_false]
      · simp only [nextRef, hw, Bool.false_eq_true, if_false]
        rw [← hx1 hw]; exact hx
    · simp only [e4]
      rw [hs, sumC_append, sumC_append, sumC_cons, h0, zero_add]

theorem after_eq (n : Item) (a b : List Item) (h : (a ++ n :: b).Nodup) : after n (a ++ n :: b) = b := by
  induction a with
  | nil => simp [after]
  | cons c a ih =>
    rw [List.cons_append, List.nodup_cons] at h
    rw [List.cons_append, after, if_neg, ih h.2]
    rintro rfl
    exact h.1 (by simp)

/-- The following items satisfy `NextOk` before the update. -/
theorem nextOk_split {it : Item} {c : Nat → ℚ} {a b : List Item} (hi : ItemOk it) (hok : ∀ q ∈ a ++ b, ItemOk q)
    (hb : ∀ q ∈ b, it.n2 < q.n2) (ha : ∀ q, a.getLast? = some q → it.n1 < q.n1)
    (h : Contrib 1 c (a ++ b)) : NextOk it c b := by
  rw [contrib_append] at h
  cases hw : it.within with
  | true => exact ⟨_, h.2, by simp [hw]⟩
  | false =>
    refine ⟨1, ?_, fun _ => rfl⟩
    have h2 := h.2
    rw [refOf_last] at h2
    cases hl : a.getLast? with
    | none => rw [hl] at h2; exact h2
    | some p =>
      rw [hl] at h2
      simp only at h2
      cases hpw : p.within with
      | false => simpa [nextRef, hpw] using h2
      | true =>
        have hp := (hok p (List.mem_append_left _ (List.mem_of_getLast? hl))).within.1 hpw
        have hlt := ha p hl
        have hn2 : 1 < it.n2 := by
          rcases hi.out.1 hw with h | h
          · linarith [hp.1]
          · exact h
        refine contrib_head_out ?_ h2
        intro q hq
        have hqb : q ∈ b := List.mem_of_mem_head? hq
        rw [(hok q (List.mem_append_right _ hqb)).out]
        exact .inr (lt_trans hn2 (hb q hqb))

/-- What an evaluated feasible solution does to the archive. -/
theorem treeUpdate_spec (ci : Bool) (s : Arch) (t : Trees s) (it : Item) (hi : ItemOk it) (hf : it.feasible = true)
    (hev : ∀ q ∈ s.archive.items, q.ev ≠ it.ev) :
    ((∃ q ∈ s.archive.items, Weakly (vec q) (vec it)) ∧
      treeUpdate ci s it = .ok ({ s with contrib := Function.update s.contrib it.ev 0 }, false, none)) ∨
    ((∀ q ∈ s.archive.items, ¬ Weakly (vec q) (vec it)) ∧
      ∃ s' a b, treeUpdate ci s it = .ok (s', true, some it) ∧ Trees s' ∧
        s.archive.items.filter (fun q => !decide (Weakly (vec it) (vec q))) = a ++ b ∧
        s'.archive.items = a ++ it :: b ∧
        (∀ q, q ∈ s'.buffer.items ↔ q = it ∨ (q ∈ s.buffer.items ∧ ¬ Weakly (vec it) (vec q))) ∧
        (ci = true → Hyp s → Hyp s')) := by
  unfold treeUpdate
  simp only [hf, Bool.not_true, Bool.false_eq_true, if_false]
  -- the state with the contribution of the new item initialised
  obtain ⟨s0, hs0⟩ : ∃ s0, s0 = { s with contrib := Function.update s.contrib it.ev 0 } := ⟨_, rfl⟩
  have ea : s.archive = s0.archive := by rw [hs0]
  have eb : s.buffer = s0.buffer := by rw [hs0]
  rw [← hs0]
  have t0 : Trees s0 := by rw [hs0]; exact ⟨t.inv, t.stair, t.ok, t.evs, t.binv, t.bsub⟩
  have h0 : s0.contrib it.ev = 0 := by rw [hs0]; simp
  have hyp0 : Hyp s → Hyp s0 := by
    intro h
    have hcg : ∀ q ∈ s.archive.items, s.contrib q.ev = s0.contrib q.ev := by
      intro q hq
      rw [hs0]
      simp only
      rw [Function.update_of_ne (hev q hq)]
    refine ⟨?_, ?_⟩
    · rw [← ea]; exact (contrib_congr hcg).1 h.contrib
    · rw [← ea, ← sumC_congr hcg, ← h.sum, hs0]
  rw [ea] at hev
  rw [ea, eb]
  obtain ⟨a, b, e, ha, hb, hs⟩ := Avl.searchRight_spec (cmp := cmpObj) cmpExact_compares s0.archive t0.inv it
    (fun y hy => cmp_agree hi.normal.grid.2 (t0.ok y hy).normal.grid.2)
  rw [hs]
  have hst := t0.stair
  rw [e] at hst
  have hnd : (a ++ b).Nodup := by rw [← e]; exact Avl.increasing_nodup t0.inv.increasing
  -- `b` determines membership
  have hnotb : ∀ q ∈ a, q ∉ b := by
    intro q hq hqb
    rw [List.nodup_append] at hnd
    exact hnd.2.2 q hq q hqb rfl
  rcases List.eq_nil_or_concat a with rfl | ⟨a', n, rfl⟩
  · right
    rw [List.nil_append] at e
    constructor
    · intro q hq
      rw [e] at hq
      exact fun h => absurd h.2 (not_le.2 (hb q hq))
    · obtain ⟨s', f1, f2, f3, f4, f5⟩ := insertNew_spec ci it hi [] b s0 t0 e (by simp) hb hev h0
      refine ⟨s', [], _, ?_, f2, by rw [e]; rfl, f3, ?_, ?_⟩
      · simp only [List.getLast?_nil]
        rw [e, f1]
        rfl
      · intro q
        rw [f4 q]
        constructor
        · rintro (h | ⟨h1, h2⟩)
          · exact .inl h
          · exact .inr ⟨h1, fun hw => h2 ⟨by rw [← e]; exact t0.bsub q h1, hw⟩⟩
        · rintro (h | ⟨h1, h2⟩)
          · exact .inl h
          · exact .inr ⟨h1, fun hw => h2 hw.2⟩
      · intro hci h
        have h := hyp0 h
        refine f5 hci ⟨fun _ => trivial, ?_, ?_⟩
        · intro _
          refine nextOk_split (a := []) hi (fun q hq => t0.ok q (by rw [e]; exact hq)) hb (by simp) ?_
          rw [List.nil_append, ← e]; exact h.contrib
        · intro _
          rw [List.nil_append, ← e]; exact h.sum
  · rw [List.concat_eq_append] at *
    have hmem : n ∈ s0.archive.items := by rw [e]; simp
    have hna : n ∈ a' ++ [n] := by simp
    simp only [List.getLast?_concat]
    have hrej := reject_iff vec (p := vec it) (n := n) hst (by simp) ha hb
    obtain ⟨d1, d2, d3⟩ := dominance_pair (vec it) (vec n) hi.normal.grid (t0.ok n hmem).normal.grid
    have hdv : dominance [it.n1, it.n2] [n.n1, n.n2] =
      dominance [(vec it).1, (vec it).2] [(vec n).1, (vec n).2] := rfl
    rw [hdv]
    by_cases hle : (vec n).1 ≤ (vec it).1
    · left
      obtain ⟨q, hq, hw⟩ := hrej.2 hle
      refine ⟨⟨q, by rw [e]; exact hq, hw⟩, ?_⟩
      obtain ⟨d, hd, hd'⟩ := d2 ⟨hle, ha n hna⟩
      rw [hd, Res.ok_bind, if_neg (by omega)]
    · right
      have hgt : (vec it).1 < (vec n).1 := not_le.1 hle
      have hno : ∀ q ∈ s0.archive.items, ¬ Weakly (vec q) (vec it) := by
        intro q hq hw
        rw [e] at hq
        exact hle (hrej.1 ⟨q, hq, hw⟩)
      refine ⟨hno, ?_⟩
      have haft : after n s0.archive.items = b := by
        rw [e, List.append_assoc, List.singleton_append]
        apply after_eq
        rw [← List.singleton_append, ← List.append_assoc]; exact hnd
      have hfl := filter_low vec (p := vec it) hst ha a' n rfl hgt
      have hsa : ∀ q ∈ a', (vec q).2 < (vec n).2 ∧ (vec n).1 < (vec q).1 := by
        intro q hq
        unfold Stair at hst
        rw [List.pairwise_append, List.pairwise_append] at hst
        exact hst.1.2.2 q hq n (by simp)
      have hnext : Hyp s0 → NextOk it s0.contrib b := by
        intro h
        refine nextOk_split (a := a' ++ [n]) hi (fun q hq => t0.ok q (by rw [e]; exact hq)) hb ?_ ?_
        · intro q hq
          rw [List.getLast?_concat, Option.some.injEq] at hq
          rw [← hq]; exact hgt
        · rw [← e]; exact h.contrib
      by_cases heq : (vec n).2 = (vec it).2
      · rw [if_pos heq] at hfl
        have hW : Weakly (vec it) (vec n) := ⟨hgt.le, heq.ge⟩
        have hne : vec it ≠ vec n := by
          intro h; rw [h] at hgt; exact lt_irrefl _ hgt
        have hd := d1 hW hne
        rw [hd, Res.ok_bind, if_pos (by norm_num), if_pos rfl]
        obtain ⟨A, B, e1, e2, t1, hB⟩ := removeNode_spec ci s0 t0 n a' b (by simp [e])
        rw [e1, Res.ok_bind, haft]
        obtain ⟨s', f1, f2, f3, f4, f5⟩ := insertNew_spec ci it hi a' b
          { s0 with archive := A, buffer := B, cur := if ci then s0.cur - s0.contrib n.ev else s0.cur }
          ⟨t1.inv, t1.stair, t1.ok, t1.evs, t1.binv, t1.bsub⟩ e2
          (fun q hq => ⟨lt_of_lt_of_le (hsa q hq).1 heq.le, lt_trans hgt (hsa q hq).2⟩) hb
          (by
            intro q hq
            apply hev
            rw [e]
            simp only [e2] at hq
            simp only [List.mem_append, List.mem_cons, List.not_mem_nil, or_false] at hq ⊢
            tauto) h0
        refine ⟨s', a', _, by rw [f1]; rfl, f2, ?_, f3, ?_, ?_⟩
        · rw [e, List.filter_append, hfl]
        · intro q
          rw [f4 q]
          simp only [hB q]
          constructor
          · rintro (h | ⟨⟨h1, h2⟩, h3⟩)
            · exact .inl h
            · refine .inr ⟨h1, fun hw => ?_⟩
              have hq := t0.bsub q h1
              rw [e, List.mem_append, List.mem_append, List.mem_singleton] at hq
              rcases hq with (hq | hq) | hq
              · exact absurd hw.2 (not_le.2 (lt_of_lt_of_le (hsa q hq).1 heq.le))
              · exact h2 hq
              · exact h3 ⟨hq, hw⟩
          · rintro (h | ⟨h1, h2⟩)
            · exact .inl h
            · exact .inr ⟨⟨h1, fun h => h2 (by rw [h]; exact hW)⟩, fun h => h2 h.2⟩
        · intro hci h
          have h := hyp0 h
          have hcon := h.contrib
          rw [e, contrib_append, contrib_append] at hcon
          refine f5 hci ⟨fun _ => hcon.1.1, fun _ => hnext h, ?_⟩
          intro hc
          have := h.sum
          rw [e, sumC_append, sumC_append] at this
          simp only [hc, if_true]
          rw [this, sumC_append]
          simp only [sumC, List.map_cons, List.map_nil, List.sum_cons, List.sum_nil]
          ring
      · rw [if_neg heq] at hfl
        have hlt2 : (vec n).2 < (vec it).2 := lt_of_le_of_ne (ha n hna) heq
        have hd := d3 (fun h => absurd h.2 (not_le.2 hlt2)) (fun h => hle h.1)
        rw [hd, Res.ok_bind, if_pos (by norm_num), if_neg (by norm_num), haft]
        have hall : ∀ q ∈ a' ++ [n], (vec q).2 < (vec it).2 ∧ (vec it).1 < (vec q).1 := by
          intro q hq
          rcases List.mem_append.1 hq with hq | hq
          · exact ⟨lt_trans (hsa q hq).1 hlt2, lt_trans hgt (hsa q hq).2⟩
          · rw [List.mem_singleton] at hq; rw [hq]; exact ⟨hlt2, hgt⟩
        obtain ⟨s', f1, f2, f3, f4, f5⟩ := insertNew_spec ci it hi (a' ++ [n]) b s0 t0 e hall hb hev h0
        refine ⟨s', a' ++ [n], _, by rw [f1]; rfl, f2, ?_, f3, ?_, ?_⟩
        · rw [e, List.filter_append, hfl]
        · intro q
          rw [f4 q]
          constructor
          · rintro (h | ⟨h1, h3⟩)
            · exact .inl h
            · refine .inr ⟨h1, fun hw => ?_⟩
              have hq := t0.bsub q h1
              rw [e, List.mem_append] at hq
              rcases hq with hq | hq
              · exact absurd hw.2 (not_le.2 (hall q hq).1)
              · exact h3 ⟨hq, hw⟩
          · rintro (h | ⟨h1, h2⟩)
            · exact .inl h
            · exact .inr ⟨h1, fun h => h2 h.2⟩
        · intro hci h
          have h := hyp0 h
          have hcon := h.contrib
          rw [e, contrib_append] at hcon
          refine f5 hci ⟨fun _ => hcon.1, fun _ => hnext h, ?_⟩
          intro _
          rw [← e]; exact h.sum

end LoggerBiobj
