import Verif.Props.Avl

/-!
The AVL tree for comparison functions that agree with a total preorder on the items in use.
-/

set_option linter.unusedSectionVars false

namespace Avl

variable {α κ : Type} [LinearOrder κ] [DecidableEq α]

theorem insert_congr {cmp cmp' : α → α → Int} (x : α) (t : Tree α) (h : ∀ y ∈ inorder t, cmp x y = cmp' x y) :
    insert cmp x t = insert cmp' x t := by
  induction t with
  | nil => rfl
  | node l y c d r ihl ihr =>
    unfold insert
    rw [h y (by simp [inorder]), ihl fun z hz => h z (by simp [inorder, hz]),
      ihr fun z hz => h z (by simp [inorder, hz])]

theorem delete_congr {cmp cmp' : α → α → Int} (x : α) (t : Tree α) (h : ∀ y ∈ inorder t, cmp x y = cmp' x y) :
    delete cmp x t = delete cmp' x t := by
  induction t with
  | nil => rfl
  | node l y c d r ihl ihr =>
    unfold delete
    rw [h y (by simp [inorder]), ihl fun z hz => h z (by simp [inorder, hz]),
      ihr fun z hz => h z (by simp [inorder, hz])]

theorem searchRightish_congr {cmp cmp' : α → α → Int} (items : List α) (x : α) (t : Tree α)
    (h : ∀ y ∈ inorder t, cmp x y = cmp' x y) : searchRightish cmp items x t = searchRightish cmp' items x t := by
  induction t with
  | nil => rfl
  | node l y c d r ihl ihr =>
    unfold searchRightish
    rw [h y (by simp [inorder]), ihl fun z hz => h z (by simp [inorder, hz]),
      ihr fun z hz => h z (by simp [inorder, hz])]

theorem rightmostLoop_congr {cmp cmp' : α → α → Int} (x : α) (b : Bool) (t : Tree α) (best : α)
    (h : ∀ y ∈ inorder t, cmp x y = cmp' x y) : rightmostLoop cmp x b t best = rightmostLoop cmp' x b t best := by
  induction t generalizing b best with
  | nil => cases b <;> rfl
  | node l y c d r ihl ihr =>
    have hl := fun b best => ihl b best fun z hz => h z (by simp [inorder, hz])
    have hr := fun b best => ihr b best fun z hz => h z (by simp [inorder, hz])
    cases b <;> unfold rightmostLoop <;> rw [h y (by simp [inorder])] <;> simp only [hl, hr]

theorem exactRight_congr {cmp cmp' : α → α → Int} (x : α) (t : Tree α)
    (h : ∀ y ∈ inorder t, cmp x y = cmp' x y) : exactRight cmp x t = exactRight cmp' x t := by
  induction t with
  | nil => rfl
  | node l y c d r ihl ihr =>
    unfold exactRight
    rw [h y (by simp [inorder]), ihl fun z hz => h z (by simp [inorder, hz]),
      ihr fun z hz => h z (by simp [inorder, hz])]

theorem searchRight_congr {cmp cmp' : α → α → Int} (items : List α) (x : α) (t : Tree α)
    (h : ∀ y ∈ inorder t, cmp x y = cmp' x y) : searchRight cmp items x t = searchRight cmp' items x t := by
  unfold searchRight
  rw [searchRightish_congr items x t h, exactRight_congr x t h]
  have : ∀ y, rightmostLoop cmp x true (exactRight cmp' x t) y = rightmostLoop cmp' x true (exactRight cmp' x t) y := by
    intro y
    apply rightmostLoop_congr
    intro z hz
    exact h z ((exactRight_mem (cmp := cmp') x t).subset hz)
  simp only [this]

/-- The result of `avl_item_search_right` in an ordered tree. -/
theorem searchRight_spec {cmp cmp' : α → α → Int} {key : α → κ} (hc : Spec.Compares cmp' key) (s : Avl α)
    (h : Spec.Inv key s) (x : α) (ha : ∀ y ∈ s.items, cmp x y = cmp' x y) :
    ∃ a b, s.items = a ++ b ∧ (∀ y ∈ a, key y ≤ key x) ∧ (∀ y ∈ b, key x < key y) ∧
      (searchRight cmp s.items x s.tree).1 = a.getLast? := by
  have hst : Spec.Increasing key (inorder s.tree) := by rw [h.inorder_eq]; exact h.increasing
  rw [searchRight_congr s.items x s.tree (by rw [h.inorder_eq]; exact ha)]
  unfold searchRight
  by_cases hn : s.tree = .nil
  · have he : s.items = [] := by rw [← h.inorder_eq, hn]; rfl
    rw [hn, he]
    exact ⟨[], [], rfl, by simp, by simp, rfl⟩
  · rcases searchRightish_spec hc s.items x s.tree [] [] (by rw [h.inorder_eq]; simp) h.increasing hn with
      ⟨y, hy, hk, f⟩ | ⟨a, b, e1, ha, hb', f⟩
    · rw [f]
      simp only
      rw [rightmostLoop_spec hc x true _ y (exactRight_gt hc x s.tree hst)]
      rw [h.inorder_eq] at hy
      obtain ⟨a, b, e⟩ := List.append_of_mem hy
      have hi := h.increasing
      rw [e] at hi
      unfold Spec.Increasing at hi
      rw [List.pairwise_append, List.pairwise_cons] at hi
      refine ⟨a ++ [y], b, by rw [e]; simp, ?_, ?_, by simp⟩
      · intro z hz
        rcases List.mem_append.1 hz with hz | hz
        · rw [← hk]; exact (hi.2.2 z hz y (by simp)).le
        · rw [List.mem_singleton] at hz; rw [hz, hk]
      · intro z hz
        rw [← hk]; exact hi.2.1.1 z hz
    · rw [f, List.nil_append]
      exact ⟨a, b, by rw [← h.inorder_eq, e1], fun y hy => (ha y hy).le, hb', by cases a.getLast? <;> rfl⟩

/-- The result of deleting a stored item. -/
theorem itemDelete_mem {cmp cmp' : α → α → Int} {key : α → κ} (hc : Spec.Compares cmp' key) (s : Avl α)
    (h : Spec.Inv key s) (x : α) (ha : ∀ y ∈ s.items, cmp x y = cmp' x y) (a b : List α)
    (e : s.items = a ++ x :: b) :
    ∃ s', itemDelete cmp s x = .ok (s', some x) ∧ Spec.Inv key s' ∧ s'.items = a ++ b := by
  have e0 : itemDelete cmp s x = itemDelete cmp' s x := by
    unfold itemDelete
    rw [delete_congr x s.tree (by rw [h.inorder_eq]; exact ha)]
  rw [e0]
  have hi := h.increasing
  rw [e] at hi
  unfold Spec.Increasing at hi
  rw [List.pairwise_append, List.pairwise_cons] at hi
  rcases itemDelete_spec hc s h x with ⟨-, hn⟩ | ⟨s', y, a', b', e1, inv, hk, e2, e3⟩
  · exact absurd rfl (hn x (by rw [e]; simp))
  · have hy : y = x := by
      have : y ∈ a ++ x :: b := by rw [← e, e2]; simp
      simp only [List.mem_append, List.mem_cons] at this
      rcases this with hm | hm | hm
      · exact absurd hk (ne_of_lt (hi.2.2 y hm x (by simp)))
      · exact hm
      · exact absurd hk (ne_of_gt (hi.2.1.1 y hm))
    subst hy
    have hnd := increasing_nodup h.increasing
    have : a = a' ∧ b = b' := by
      rw [e] at e2 hnd
      have h1 : y ∉ a := by
        rw [List.nodup_append] at hnd
        exact fun hm => hnd.2.2 y hm y (by simp) rfl
      have h2 : y ∉ a' := by
        rw [e2, List.nodup_append] at hnd
        exact fun hm => hnd.2.2 y hm y (by simp) rfl
      have := congrArg (List.takeWhile (fun z => decide (z ≠ y))) e2
      rw [List.takeWhile_append_of_pos (by intro z hz; simp; rintro rfl; exact h1 hz),
        List.takeWhile_append_of_pos (by intro z hz; simp; rintro rfl; exact h2 hz)] at this
      simp only [ne_eq, not_true_eq_false, decide_false, Bool.false_eq_true, not_false_eq_true,
        List.takeWhile_cons_of_neg, List.append_nil] at this
      subst this
      simpa using e2
    exact ⟨s', e1, inv, by rw [e3, this.1, this.2]⟩

/-- The result of inserting an item with a new key. -/
theorem itemInsert_new {cmp cmp' : α → α → Int} {key : α → κ} (hc : Spec.Compares cmp' key) (s : Avl α)
    (h : Spec.Inv key s) (x : α) (ha : ∀ y ∈ s.items, cmp x y = cmp' x y) (a b : List α)
    (e : s.items = a ++ b) (h1 : ∀ y ∈ a, key y < key x) (h2 : ∀ y ∈ b, key x < key y) :
    ∃ s', itemInsert cmp s x = .ok (s', true) ∧ Spec.Inv key s' ∧ s'.items = a ++ x :: b := by
  have e0 : itemInsert cmp s x = itemInsert cmp' s x := by
    unfold itemInsert
    rw [insert_congr x s.tree (by rw [h.inorder_eq]; exact ha),
      searchRightish_congr s.items x s.tree (by rw [h.inorder_eq]; exact ha)]
  rw [e0]
  rcases itemInsert_spec hc s h x with ⟨-, y, hy, hk⟩ | ⟨s', a', b', e1, inv, e2, e3, h3, h4⟩
  · exfalso
    rw [e, List.mem_append] at hy
    rcases hy with hy | hy
    · exact absurd hk (ne_of_lt (h1 y hy))
    · exact absurd hk (ne_of_gt (h2 y hy))
  · obtain ⟨rfl, rfl⟩ := split_unique (e.symm.trans e2) h1 h2 h3 h4
    exact ⟨s', e1, inv, e3⟩

theorem nextOf_eq (pre : List α) (y : α) (rest : List α) (h : (pre ++ y :: rest).Nodup) :
    nextOf (pre ++ y :: rest) y = rest.head? := by
  induction pre with
  | nil => cases rest with
    | nil => rfl
    | cons b rest => simp [nextOf]
  | cons a pre ih =>
    rw [List.cons_append, List.nodup_cons] at h
    have ha : a ≠ y := by rintro rfl; exact h.1 (by simp)
    cases pre with
    | nil => simp only [List.nil_append, List.cons_append] at ih ⊢; rw [nextOf, if_neg ha, ih h.2]
    | cons b pre => simp only [List.cons_append] at ih ⊢; rw [nextOf, if_neg ha, ih h.2]

end Avl
