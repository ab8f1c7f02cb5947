import Verif.Model.Avl
import Mathlib.Order.Defs.LinearOrder
import Mathlib.Data.Set.Insert
import Mathlib.Data.List.Induction
set_option linter.unusedSectionVars false

/-!
Properties C33 and C34: the AVL tree of `/repo/src/mo_avl_tree.c` is an ordered set.
-/

namespace Avl

variable {α κ : Type} [LinearOrder κ] [DecidableEq α]

/-! ### Specification -/

/-- The C comparison function agrees with the order of the keys: every total preorder on the items is of
this form. -/
structure Spec.Compares (cmp : α → α → Int) (key : α → κ) : Prop where
  lt : ∀ a b, cmp a b < 0 ↔ key a < key b
  gt : ∀ a b, cmp a b > 0 ↔ key b < key a

/-- The items from left to right. -/
def inorder : Tree α → List α
  | .nil => []
  | .node l x _ _ r => inorder l ++ x :: inorder r

/-- The height of a tree. -/
def height : Tree α → Nat
  | .nil => 0
  | .node l _ _ _ r => max (height l) (height r) + 1

/-- Counts and depths are correct and the heights of the subtrees of every node differ by at most one. -/
def Spec.Balanced : Tree α → Prop
  | .nil => True
  | .node l x c d r => c = (inorder (.node l x c d r)).length ∧ d = max (height l) (height r) + 1 ∧
      height l ≤ height r + 1 ∧ height r ≤ height l + 1 ∧ Spec.Balanced l ∧ Spec.Balanced r

/-- Strictly increasing keys. -/
def Spec.Increasing (key : α → κ) (s : List α) : Prop := s.Pairwise fun a b => key a < key b

/-- The set after a sequence of operations (the last one at the end of the list is the first argument of the
recursion, i.e. the operations are given in reverse order): inserting an item has no effect if an item with
the same key is present; deleting removes the items with the same key. -/
def Spec.contents (key : α → κ) : List (Op α) → Set α
  | [] => ∅
  | .insert x :: ops =>
    {y | y ∈ Spec.contents key ops ∨ (y = x ∧ ∀ z ∈ Spec.contents key ops, key z ≠ key x)}
  | .delete x :: ops => {y | y ∈ Spec.contents key ops ∧ key y ≠ key x}

/-! ### Balancing -/

theorem count_eq {t : Tree α} (h : Spec.Balanced t) : t.count = (inorder t).length := by
  cases t with
  | nil => rfl
  | node l x c d r => exact h.1

theorem depth_eq {t : Tree α} (h : Spec.Balanced t) : t.depth = height t := by
  cases t with
  | nil => rfl
  | node l x c d r => exact h.2.1

theorem inorder_mk (l : Tree α) (x : α) (r : Tree α) : inorder (mk l x r) = inorder l ++ x :: inorder r := rfl

theorem height_mk (l : Tree α) (x : α) (r : Tree α) : height (mk l x r) = max (height l) (height r) + 1 := rfl

theorem balanced_mk {l : Tree α} {x : α} {r : Tree α} (hl : Spec.Balanced l) (hr : Spec.Balanced r)
    (h1 : height l ≤ height r + 1) (h2 : height r ≤ height l + 1) : Spec.Balanced (mk l x r) := by
  refine ⟨?_, ?_, h1, h2, hl, hr⟩
  · rw [count_eq hl, count_eq hr]; simp [inorder]; omega
  · rw [depth_eq hl, depth_eq hr]
    split <;> omega

theorem balance_spec (l : Tree α) (x : α) (r : Tree α) (hl : Spec.Balanced l) (hr : Spec.Balanced r)
    (h1 : height l ≤ height r + 2) (h2 : height r ≤ height l + 2) :
    ∃ t, balance l x r = .ok t ∧ Spec.Balanced t ∧ inorder t = inorder l ++ x :: inorder r ∧
      (height t = max (height l) (height r) + 1 ∨
        (height t = max (height l) (height r) ∧ (height l = height r + 2 ∨ height r = height l + 2))) := by
  unfold balance checkBalance
  rw [depth_eq hl, depth_eq hr]
  by_cases c1 : (height r : Int) - (height l : Int) < -1
  · have e : height l = height r + 2 := by omega
    simp only [c1, if_true]
    cases l with
    | nil => simp [height] at e
    | node ll lx c d lr =>
      obtain ⟨-, -, b1, b2, bl, br⟩ := hl
      simp only [height] at e
      by_cases c2 : ll.depth ≥ lr.depth
      · simp only [c2, if_true]
        rw [depth_eq bl, depth_eq br] at c2
        have m := balanced_mk (x := x) br hr (by omega) (by omega)
        have hm := height_mk lr x r
        refine ⟨_, rfl, balanced_mk bl m (by omega) (by omega), by simp [inorder_mk, inorder], ?_⟩
        rw [height_mk, hm]; simp only [height]; omega
      · simp only [c2, if_false]
        rw [depth_eq bl, depth_eq br] at c2
        cases lr with
        | nil => simp [height] at c2
        | node gl gx c' d' gr =>
          obtain ⟨-, -, g1, g2, gbl, gbr⟩ := br
          simp only [height] at e c2 b1 b2
          have ma := balanced_mk (x := lx) bl gbl (by omega) (by omega)
          have mb := balanced_mk (x := x) gbr hr (by omega) (by omega)
          refine ⟨_, rfl, balanced_mk ma mb (by simp only [height_mk]; omega) (by simp only [height_mk]; omega),
            by simp [inorder_mk, inorder], ?_⟩
          simp only [height_mk, height]; omega
  · by_cases c3 : (height r : Int) - (height l : Int) > 1
    · have e : height r = height l + 2 := by omega
      simp only [c1, if_false, c3, if_true]
      rw [if_neg (by decide)]
      cases r with
      | nil => simp [height] at e
      | node rl rx c d rr =>
        obtain ⟨-, -, b1, b2, bl, br⟩ := hr
        simp only [height] at e
        by_cases c2 : rr.depth ≥ rl.depth
        · simp only [c2, if_true]
          rw [depth_eq bl, depth_eq br] at c2
          have m := balanced_mk (x := x) hl bl (by omega) (by omega)
          have hm := height_mk l x rl
          refine ⟨_, rfl, balanced_mk m br (by omega) (by omega), by simp [inorder_mk, inorder], ?_⟩
          rw [height_mk, hm]; simp only [height]; omega
        · simp only [c2, if_false]
          rw [depth_eq bl, depth_eq br] at c2
          cases rl with
          | nil => simp [height] at c2
          | node gl gx c' d' gr =>
            obtain ⟨-, -, g1, g2, gbl, gbr⟩ := bl
            simp only [height] at e c2 b1 b2
            have ma := balanced_mk (x := x) hl gbl (by omega) (by omega)
            have mb := balanced_mk (x := rx) gbr br (by omega) (by omega)
            refine ⟨_, rfl, balanced_mk ma mb (by simp only [height_mk]; omega) (by simp only [height_mk]; omega),
              by simp [inorder_mk, inorder], ?_⟩
            simp only [height_mk, height]; omega
    · simp only [c1, c3, if_false]
      rw [if_neg (by decide), if_neg (by decide)]
      exact ⟨_, rfl, balanced_mk hl hr (by omega) (by omega), rfl, .inl (height_mk _ _ _)⟩

/-! ### Insertion and deletion in the tree -/

theorem insert_spec {cmp : α → α → Int} {key : α → κ} (hc : Spec.Compares cmp key) (x : α) (t : Tree α)
    (hb : Spec.Balanced t) (hs : Spec.Increasing key (inorder t)) :
    (insert cmp x t = .ok none ∧ ∃ y ∈ inorder t, key y = key x) ∨
    (∃ t', insert cmp x t = .ok (some t') ∧ Spec.Balanced t' ∧
      (height t' = height t ∨ height t' = height t + 1) ∧
      ∃ a b, inorder t = a ++ b ∧ inorder t' = a ++ x :: b ∧ (∀ y ∈ a, key y < key x) ∧
        ∀ y ∈ b, key x < key y) := by
  induction t with
  | nil =>
    right
    refine ⟨_, rfl, ⟨rfl, rfl, by simp, by simp, trivial, trivial⟩, .inr rfl, [], [], rfl, rfl, by simp, by simp⟩
  | node l y c d r ihl ihr =>
    obtain ⟨-, -, b1, b2, bl, br⟩ := hb
    simp only [inorder, Spec.Increasing] at hs
    rw [List.pairwise_append, List.pairwise_cons] at hs
    obtain ⟨sl, ⟨hyr, sr⟩, hlr⟩ := hs
    rw [insert]
    by_cases c1 : cmp x y < 0
    · have k1 := (hc.lt x y).1 c1
      rw [if_pos c1]
      rcases ihl bl sl with ⟨e, z, hz, hk⟩ | ⟨l', e, bl', hh, a, b, e1, e2, ha, hb⟩
      · left
        rw [e]
        exact ⟨rfl, z, by simp [inorder, hz], hk⟩
      · right
        obtain ⟨t', et, bt, it, ht⟩ := balance_spec l' y r bl' br (by omega) (by omega)
        refine ⟨t', by rw [e, Res.ok_bind]; simp only [et]; rfl, bt, ?_, a, b ++ y :: inorder r, ?_, ?_, ha, ?_⟩
        · simp only [height]; omega
        · simp [inorder, e1]
        · rw [it, e2]; simp
        · intro z hz
          simp only [List.mem_append, List.mem_cons] at hz
          rcases hz with hz | rfl | hz
          · exact hb z hz
          · exact k1
          · exact lt_trans k1 (hyr z hz)
    · rw [if_neg c1]
      by_cases c2 : cmp x y > 0
      · have k1 := (hc.gt x y).1 c2
        rw [if_pos c2]
        rcases ihr br sr with ⟨e, z, hz, hk⟩ | ⟨r', e, br', hh, a, b, e1, e2, ha, hb⟩
        · left
          rw [e]
          exact ⟨rfl, z, by simp [inorder, hz], hk⟩
        · right
          obtain ⟨t', et, bt, it, ht⟩ := balance_spec l y r' bl br' (by omega) (by omega)
          refine ⟨t', by rw [e, Res.ok_bind]; simp only [et]; rfl, bt, ?_, inorder l ++ y :: a, b, ?_, ?_, ?_, hb⟩
          · simp only [height]; omega
          · simp [inorder, e1]
          · rw [it, e2]; simp
          · intro z hz
            simp only [List.mem_append, List.mem_cons] at hz
            rcases hz with hz | rfl | hz
            · exact lt_trans (hlr z hz y (by simp)) k1
            · exact k1
            · exact ha z hz
      · rw [if_neg c2]
        left
        refine ⟨rfl, y, by simp [inorder], ?_⟩
        have n1 : ¬ key x < key y := fun h => c1 ((hc.lt x y).2 h)
        have n2 : ¬ key y < key x := fun h => c2 ((hc.gt x y).2 h)
        exact le_antisymm (not_lt.1 n1) (not_lt.1 n2)

theorem deleteMax_spec (t : Tree α) (hb : Spec.Balanced t) (hne : t ≠ .nil) :
    ∃ m t', deleteMax t = .ok (m, t') ∧ Spec.Balanced t' ∧
      (height t' = height t ∨ height t' + 1 = height t) ∧ inorder t = inorder t' ++ [m] := by
  induction t with
  | nil => exact absurd rfl hne
  | node l x c d r ihl ihr =>
    obtain ⟨-, -, b1, b2, bl, br⟩ := hb
    cases r with
    | nil =>
      refine ⟨x, l, rfl, bl, ?_, by simp [inorder]⟩
      simp only [height]; omega
    | node rl rx rc rd rr =>
      obtain ⟨m, r', e, br', hh, ir⟩ := ihr br (by simp)
      obtain ⟨t', et, bt, it, ht⟩ := balance_spec l x r' bl br' (by omega) (by omega)
      refine ⟨m, t', ?_, bt, ?_, ?_⟩
      · rw [deleteMax, e, Res.ok_bind]
        simp only [et]
        rfl
      · have : height (Tree.node l x c d (Tree.node rl rx rc rd rr))
            = max (height l) (height (Tree.node rl rx rc rd rr)) + 1 := rfl
        omega
      · rw [it, inorder, ir]; simp

theorem delete_spec {cmp : α → α → Int} {key : α → κ} (hc : Spec.Compares cmp key) (x : α) (t : Tree α)
    (hb : Spec.Balanced t) (hs : Spec.Increasing key (inorder t)) :
    (delete cmp x t = .ok none ∧ ∀ y ∈ inorder t, key y ≠ key x) ∨
    (∃ y t', delete cmp x t = .ok (some (y, t')) ∧ Spec.Balanced t' ∧
      (height t' = height t ∨ height t' + 1 = height t) ∧ key y = key x ∧
      ∃ a b, inorder t = a ++ y :: b ∧ inorder t' = a ++ b) := by
  induction t with
  | nil => left; exact ⟨rfl, by simp [inorder]⟩
  | node l y c d r ihl ihr =>
    obtain ⟨-, -, b1, b2, bl, br⟩ := hb
    simp only [inorder, Spec.Increasing] at hs
    rw [List.pairwise_append, List.pairwise_cons] at hs
    obtain ⟨sl, ⟨hyr, sr⟩, hlr⟩ := hs
    unfold delete
    by_cases c1 : cmp x y < 0
    · have k1 := (hc.lt x y).1 c1
      rw [if_pos c1]
      rcases ihl bl sl with ⟨e, hz⟩ | ⟨z, l', e, bl', hh, hk, a, b, e1, e2⟩
      · left
        rw [e]
        refine ⟨rfl, ?_⟩
        intro z hz'
        simp only [inorder, List.mem_append, List.mem_cons] at hz'
        rcases hz' with hz' | rfl | hz'
        · exact hz z hz'
        · exact ne_of_gt k1
        · exact ne_of_gt (lt_trans k1 (hyr z hz'))
      · right
        obtain ⟨t', et, bt, it, ht⟩ := balance_spec l' y r bl' br (by omega) (by omega)
        refine ⟨z, t', ?_, bt, ?_, hk, a, b ++ y :: inorder r, ?_, ?_⟩
        · rw [e, Res.ok_bind]; simp only [et]; rfl
        · simp only [height]; omega
        · simp [inorder, e1]
        · rw [it, e2]; simp
    · rw [if_neg c1]
      by_cases c2 : cmp x y > 0
      · have k1 := (hc.gt x y).1 c2
        rw [if_pos c2]
        rcases ihr br sr with ⟨e, hz⟩ | ⟨z, r', e, br', hh, hk, a, b, e1, e2⟩
        · left
          rw [e]
          refine ⟨rfl, ?_⟩
          intro z hz'
          simp only [inorder, List.mem_append, List.mem_cons] at hz'
          rcases hz' with hz' | rfl | hz'
          · exact ne_of_lt (lt_trans (hlr z hz' y (by simp)) k1)
          · exact ne_of_lt k1
          · exact hz z hz'
        · right
          obtain ⟨t', et, bt, it, ht⟩ := balance_spec l y r' bl br' (by omega) (by omega)
          refine ⟨z, t', ?_, bt, ?_, hk, inorder l ++ y :: a, b, ?_, ?_⟩
          · rw [e, Res.ok_bind]; simp only [et]; rfl
          · simp only [height]; omega
          · simp [inorder, e1]
          · rw [it, e2]; simp
      · rw [if_neg c2]
        right
        have n1 : ¬ key x < key y := fun h => c1 ((hc.lt x y).2 h)
        have n2 : ¬ key y < key x := fun h => c2 ((hc.gt x y).2 h)
        have hk : key y = key x := le_antisymm (not_lt.1 n1) (not_lt.1 n2)
        cases l with
        | nil =>
          refine ⟨y, r, rfl, br, ?_, hk, [], inorder r, rfl, rfl⟩
          simp only [height] at b1 b2 ⊢; omega
        | node ll lx lc ld lr =>
          cases r with
          | nil =>
            refine ⟨y, _, rfl, bl, ?_, hk, inorder (.node ll lx lc ld lr), [], by simp [inorder], by simp⟩
            simp only [height] at b1 b2 ⊢; omega
          | node rl rx rc rd rr =>
            obtain ⟨m, l', e, bl', hh, il⟩ := deleteMax_spec _ bl (by simp)
            obtain ⟨t', et, bt, it, ht⟩ := balance_spec l' m _ bl' br (by omega) (by omega)
            refine ⟨y, t', ?_, bt, ?_, hk, inorder (.node ll lx lc ld lr), inorder (.node rl rx rc rd rr), rfl, ?_⟩
            · simp only [e, Res.ok_bind, et]
            · have : height (Tree.node (Tree.node ll lx lc ld lr) y c d (Tree.node rl rx rc rd rr))
                = max (height (Tree.node ll lx lc ld lr)) (height (Tree.node rl rx rc rd rr)) + 1 := rfl
              omega
            · rw [it, il]; simp

/-! ### The threaded list -/

theorem increasing_nodup {key : α → κ} {s : List α} (h : Spec.Increasing key s) : s.Nodup :=
  h.imp fun hab e => by rw [e] at hab; exact lt_irrefl _ hab

theorem prevOf_eq (pre : List α) (y : α) (rest : List α) (h : (pre ++ y :: rest).Nodup) :
    prevOf (pre ++ y :: rest) y = pre.getLast? := by
  induction pre with
  | nil =>
    have : ∀ (l : List α), y ∉ l → ∀ z, prevOf (z :: l) y = none := by
      intro l
      induction l with
      | nil => intro _ z; rfl
      | cons w l ih =>
        intro hw z
        rw [prevOf, if_neg (by intro e; exact hw (by simp [e])), ih (fun h => hw (by simp [h]))]
    simp only [List.nil_append, List.nodup_cons] at h ⊢
    exact this rest h.1 y
  | cons a pre ih =>
    rw [List.cons_append, List.nodup_cons] at h
    cases pre with
    | nil => simp [prevOf]
    | cons b pre =>
      have hb : b ≠ y := by
        have := h.2
        rw [List.cons_append, List.nodup_cons] at this
        intro e; exact this.1 (by simp [e])
      simp only [List.cons_append] at ih ⊢
      rw [prevOf, if_neg hb, ih h.2]
      simp [List.getLast?_cons_cons]

theorem linkAfter_eq (a b : List α) (x : α) (h : (a ++ b).Nodup) :
    linkAfter a.getLast? x (a ++ b) = a ++ x :: b := by
  induction a with
  | nil => cases b <;> rfl
  | cons c a ih =>
    rw [List.cons_append, List.nodup_cons] at h
    cases a with
    | nil => simp [linkAfter]
    | cons d a =>
      have hl : ∃ p, (d :: a).getLast? = some p ∧ p ∈ d :: a :=
        ⟨(d :: a).getLast (by simp), List.getLast?_eq_some_getLast (by simp), List.getLast_mem _⟩
      obtain ⟨p, hp, hm⟩ := hl
      have ih' := ih h.2
      rw [List.getLast?_cons_cons, hp] at *
      rw [List.cons_append, linkAfter, if_neg, ih']
      · rfl
      · rintro rfl
        exact h.1 (by simp only [List.mem_append]; exact .inl hm)

theorem searchRightish_spec {cmp : α → α → Int} {key : α → κ} (hc : Spec.Compares cmp key) (items : List α)
    (x : α) (t : Tree α) (pre post : List α) (hi : items = pre ++ inorder t ++ post)
    (hs : Spec.Increasing key items) (hne : t ≠ .nil) :
    (∃ y ∈ inorder t, key y = key x ∧ searchRightish cmp items x t = (some y, true)) ∨
    (∃ a b, inorder t = a ++ b ∧ (∀ y ∈ a, key y < key x) ∧ (∀ y ∈ b, key x < key y) ∧
      searchRightish cmp items x t = ((pre ++ a).getLast?, false)) := by
  induction t generalizing pre post with
  | nil => exact absurd rfl hne
  | node l y c d r ihl ihr =>
    have hst : Spec.Increasing key (inorder l ++ y :: inorder r) := by
      rw [hi] at hs
      unfold Spec.Increasing at hs ⊢
      rw [List.pairwise_append, List.pairwise_append] at hs
      exact hs.1.2.1
    unfold Spec.Increasing at hst
    rw [List.pairwise_append, List.pairwise_cons] at hst
    obtain ⟨sl, ⟨hyr, sr⟩, hlr⟩ := hst
    unfold searchRightish
    by_cases c1 : cmp x y < 0
    · have k1 := (hc.lt x y).1 c1
      rw [if_pos c1]
      have hb : ∀ z ∈ y :: inorder r, key x < key z := by
        intro z hz
        rcases List.mem_cons.1 hz with rfl | hz
        · exact k1
        · exact lt_trans k1 (hyr z hz)
      cases l with
      | nil =>
        right
        refine ⟨[], y :: inorder r, by simp [inorder], by simp, hb, ?_⟩
        have e : items = pre ++ y :: (inorder r ++ post) := by rw [hi]; simp [inorder]
        simp only [List.append_nil]
        rw [e, prevOf_eq]
        rw [← e]; exact increasing_nodup hs
      | node ll lx lc ld lr =>
        rcases ihl pre (y :: inorder r ++ post) (by rw [hi]; simp [inorder]) (by simp) with
          ⟨z, hz, hk, e⟩ | ⟨a, b, e1, ha, hb', e⟩
        · left; exact ⟨z, by rw [inorder]; simp [hz], hk, e⟩
        · right
          refine ⟨a, b ++ y :: inorder r, by rw [inorder, e1]; simp, ha, ?_, e⟩
          intro z hz
          rcases List.mem_append.1 hz with hz | hz
          · exact hb' z hz
          · exact hb z hz
    · rw [if_neg c1]
      by_cases c2 : cmp x y > 0
      · have k1 := (hc.gt x y).1 c2
        rw [if_pos c2]
        have hb : ∀ z ∈ inorder l ++ [y], key z < key x := by
          intro z hz
          rcases List.mem_append.1 hz with hz | hz
          · exact lt_trans (hlr z hz y (by simp)) k1
          · rw [List.mem_singleton] at hz; rw [hz]; exact k1
        cases r with
        | nil =>
          right
          refine ⟨inorder l ++ [y], [], by simp [inorder], hb, by simp, ?_⟩
          rw [← List.append_assoc, List.getLast?_concat]
        | node rl rx rc rd rr =>
          rcases ihr (pre ++ (inorder l ++ [y])) post (by rw [hi]; simp [inorder]) (by simp) with
            ⟨z, hz, hk, e⟩ | ⟨a, b, e1, ha, hb', e⟩
          · left; exact ⟨z, by rw [inorder]; simp [hz], hk, e⟩
          · right
            refine ⟨inorder l ++ [y] ++ a, b, by rw [inorder, e1]; simp, ?_, hb', ?_⟩
            · intro z hz
              rcases List.mem_append.1 hz with hz | hz
              · exact hb z hz
              · exact ha z hz
            · simp only [e]; simp
      · rw [if_neg c2]
        left
        have n1 : ¬ key x < key y := fun h => c1 ((hc.lt x y).2 h)
        have n2 : ¬ key y < key x := fun h => c2 ((hc.gt x y).2 h)
        exact ⟨y, by simp [inorder], le_antisymm (not_lt.1 n1) (not_lt.1 n2), rfl⟩

/-- The splitting of an increasing list at a key is unique. -/
theorem split_unique {key : α → κ} {a b a' b' : List α} {k : κ} (h : a ++ b = a' ++ b')
    (h1 : ∀ y ∈ a, key y < k) (h2 : ∀ y ∈ b, k < key y) (h3 : ∀ y ∈ a', key y < k) (h4 : ∀ y ∈ b', k < key y) :
    a = a' ∧ b = b' := by
  induction a generalizing a' with
  | nil =>
    cases a' with
    | nil => exact ⟨rfl, by simpa using h⟩
    | cons c a' =>
      simp only [List.nil_append, List.cons_append] at h
      have := h2 c (by rw [h]; simp)
      exact absurd (h3 c (by simp)) (not_lt.2 this.le)
  | cons c a ih =>
    cases a' with
    | nil =>
      simp only [List.nil_append, List.cons_append] at h
      have := h4 c (by rw [← h]; simp)
      exact absurd (h1 c (by simp)) (not_lt.2 this.le)
    | cons d a' =>
      simp only [List.cons_append, List.cons.injEq] at h
      obtain ⟨rfl, h⟩ := h
      obtain ⟨e1, e2⟩ := ih h (fun y hy => h1 y (by simp [hy])) (fun y hy => h3 y (by simp [hy]))
      exact ⟨by rw [e1], e2⟩

/-! ### C33 -/

/-- The invariant: a balanced tree with correct counts and depths, the threaded list is the in-order
sequence, keys strictly increase. -/
structure Spec.Inv (key : α → κ) (a : Avl α) : Prop where
  balanced : Spec.Balanced a.tree
  inorder_eq : inorder a.tree = a.items
  increasing : Spec.Increasing key a.items

theorem itemInsert_spec {cmp : α → α → Int} {key : α → κ} (hc : Spec.Compares cmp key) (s : Avl α)
    (h : Spec.Inv key s) (x : α) :
    (itemInsert cmp s x = .ok (s, false) ∧ ∃ y ∈ s.items, key y = key x) ∨
    (∃ s' a b, itemInsert cmp s x = .ok (s', true) ∧ Spec.Inv key s' ∧ s.items = a ++ b ∧
      s'.items = a ++ x :: b ∧ (∀ y ∈ a, key y < key x) ∧ ∀ y ∈ b, key x < key y) := by
  have hs : Spec.Increasing key (inorder s.tree) := by rw [h.inorder_eq]; exact h.increasing
  unfold itemInsert
  rcases insert_spec hc x s.tree h.balanced hs with ⟨e, y, hy, hk⟩ | ⟨t', e, bt, hh, a, b, e1, e2, ha, hb⟩
  · left
    rw [e]
    exact ⟨rfl, y, by rw [← h.inorder_eq]; exact hy, hk⟩
  · right
    have hl : linkAfter (searchRightish cmp s.items x s.tree).1 x s.items = a ++ x :: b := by
      have hnd := increasing_nodup h.increasing
      by_cases hn : s.tree = .nil
      · have : a ++ b = [] := by rw [← e1, hn]; rfl
        have hi : s.items = [] := by rw [← h.inorder_eq, hn]; rfl
        rw [List.append_eq_nil_iff] at this
        rw [hi, this.1, this.2]
        rfl
      · rcases searchRightish_spec hc s.items x s.tree [] [] (by rw [h.inorder_eq]; simp) h.increasing hn with
          ⟨y, hy, hk, _⟩ | ⟨a', b', f1, ha', hb', f⟩
        · exfalso
          rw [e1] at hy
          rcases List.mem_append.1 hy with hy | hy
          · exact absurd hk (ne_of_lt (ha y hy))
          · exact absurd hk (ne_of_gt (hb y hy))
        · obtain ⟨rfl, rfl⟩ := split_unique (e1.symm.trans f1) ha hb ha' hb'
          rw [f, List.nil_append, ← h.inorder_eq, e1]
          apply linkAfter_eq
          rw [← e1, h.inorder_eq]; exact hnd
    rw [e, Res.ok_bind, hl]
    refine ⟨⟨t', a ++ x :: b⟩, a, b, rfl, ⟨bt, e2, ?_⟩, by rw [← h.inorder_eq, e1], rfl, ha, hb⟩
    rw [e1] at hs
    unfold Spec.Increasing at hs ⊢
    rw [List.pairwise_append] at hs
    rw [List.pairwise_append, List.pairwise_cons]
    refine ⟨hs.1, ⟨hb, hs.2.1⟩, ?_⟩
    intro u hu v hv
    rcases List.mem_cons.1 hv with rfl | hv
    · exact ha u hu
    · exact hs.2.2 u hu v hv

theorem itemDelete_spec {cmp : α → α → Int} {key : α → κ} (hc : Spec.Compares cmp key) (s : Avl α)
    (h : Spec.Inv key s) (x : α) :
    (itemDelete cmp s x = .ok (s, none) ∧ ∀ y ∈ s.items, key y ≠ key x) ∨
    (∃ s' y a b, itemDelete cmp s x = .ok (s', some y) ∧ Spec.Inv key s' ∧ key y = key x ∧
      s.items = a ++ y :: b ∧ s'.items = a ++ b) := by
  have hs : Spec.Increasing key (inorder s.tree) := by rw [h.inorder_eq]; exact h.increasing
  unfold itemDelete
  rcases delete_spec hc x s.tree h.balanced hs with ⟨e, hy⟩ | ⟨y, t', e, bt, hh, hk, a, b, e1, e2⟩
  · left
    rw [e]
    refine ⟨rfl, ?_⟩
    intro y hy'
    rw [← h.inorder_eq] at hy'
    exact hy y hy'
  · right
    have hnd := increasing_nodup h.increasing
    have hi : s.items = a ++ y :: b := by rw [← h.inorder_eq, e1]
    have her : s.items.erase y = a ++ b := by
      rw [hi] at hnd ⊢
      rw [List.erase_append_right _ (by
        intro hy
        rw [List.nodup_append] at hnd
        exact hnd.2.2 y hy y (by simp) rfl)]
      simp
    rw [e, Res.ok_bind]
    refine ⟨⟨t', a ++ b⟩, y, a, b, by simp only [her], ⟨bt, e2, ?_⟩, hk, hi, rfl⟩
    have := h.increasing
    rw [hi] at this
    unfold Spec.Increasing at this ⊢
    exact this.sublist (List.Sublist.append_left (List.sublist_cons_self _ _) _)

/-- Whether an operation changes the set. -/
def Spec.changes (key : α → κ) (before : Set α) : Op α → Prop
  | .insert x => ∀ y ∈ before, key y ≠ key x
  | .delete x => ∃ y ∈ before, key y = key x

theorem run_append (cmp : α → α → Int) (s : Avl α) (ops ops' : List (Op α)) :
    run cmp s (ops ++ ops') =
      (run cmp s ops).bind fun (f, bs) => (run cmp f ops').bind fun (g, cs) => .ok (g, bs ++ cs) := by
  induction ops generalizing s with
  | nil =>
    simp only [List.nil_append, run, Res.ok_bind]
    cases run cmp s ops' <;> rfl
  | cons op ops ih =>
    cases op with
    | insert x =>
      simp only [List.cons_append, run, ih]
      cases itemInsert cmp s x with
      | ok p =>
        simp only [Res.ok_bind]
        cases run cmp p.1 ops with
        | ok q => simp only [Res.ok_bind]; cases run cmp q.1 ops' <;> rfl
        | _ => rfl
      | _ => rfl
    | delete x =>
      simp only [List.cons_append, run, ih]
      cases itemDelete cmp s x with
      | ok p =>
        simp only [Res.ok_bind]
        cases run cmp p.1 ops with
        | ok q => simp only [Res.ok_bind]; cases run cmp q.1 ops' <;> rfl
        | _ => rfl
      | _ => rfl

/-- **C33.** After any sequence of insertions and deletions from the empty tree, for every comparison
function that is a total preorder: no NULL pointer was followed; the tree is balanced with correct counts
and depths; its in-order sequence and the threaded list are the same list, with strictly increasing keys,
and consist of exactly the items inserted and not deleted. The reported count is its length. -/
theorem C33_ordered_set {cmp : α → α → Int} {key : α → κ} (hc : Spec.Compares cmp key) (ops : List (Op α)) :
    ∃ s bs, run cmp empty ops = .ok (s, bs) ∧ Spec.Balanced s.tree ∧ inorder s.tree = s.items ∧
      s.items.Pairwise (fun a b => key a < key b) ∧ (∀ y, y ∈ s.items ↔ y ∈ Spec.contents key ops.reverse) ∧
      count s = s.items.length := by
  suffices h : ∃ s bs, run cmp empty ops = .ok (s, bs) ∧ Spec.Inv key s ∧
      (∀ y, y ∈ s.items ↔ y ∈ Spec.contents key ops.reverse) by
    obtain ⟨s, bs, e, inv, hm⟩ := h
    exact ⟨s, bs, e, inv.balanced, inv.inorder_eq, inv.increasing, hm, by
      rw [count, count_eq inv.balanced, inv.inorder_eq]⟩
  induction ops using List.reverseRecOn with
  | nil => exact ⟨empty, [], rfl, ⟨trivial, rfl, List.Pairwise.nil⟩, by simp [empty, Spec.contents]⟩
  | append_singleton ops op ih =>
    obtain ⟨s, bs, e, inv, hm⟩ := ih
    rw [run_append, e, Res.ok_bind, List.reverse_append, List.reverse_singleton, List.singleton_append]
    cases op with
    | insert x =>
      rcases itemInsert_spec hc s inv x with ⟨e', y, hy, hk⟩ | ⟨s', a, b, e', inv', e1, e2, ha, hb⟩
      · refine ⟨s, bs ++ [false], by simp only [run, e']; rfl, inv, ?_⟩
        intro z
        rw [hm z]
        simp only [Spec.contents, Set.mem_ofPred_eq]
        constructor
        · exact .inl
        · rintro (h | ⟨_, h⟩)
          · exact h
          · exact absurd hk (h y ((hm y).1 hy))
      · refine ⟨s', bs ++ [true], by simp only [run, e']; rfl, inv', ?_⟩
        intro z
        simp only [Spec.contents, Set.mem_ofPred_eq, ← hm, e2, e1, List.mem_append, List.mem_cons]
        constructor
        · rintro (h | rfl | h)
          · exact .inl (.inl h)
          · refine .inr ⟨rfl, ?_⟩
            rintro w (hw | hw)
            · exact ne_of_lt (ha w hw)
            · exact ne_of_gt (hb w hw)
          · exact .inl (.inr h)
        · rintro ((h | h) | ⟨rfl, _⟩)
          · exact .inl h
          · exact .inr (.inr h)
          · exact .inr (.inl rfl)
    | delete x =>
      rcases itemDelete_spec hc s inv x with ⟨e', hy⟩ | ⟨s', y, a, b, e', inv', hk, e1, e2⟩
      · refine ⟨s, bs ++ [false], by simp only [run, e']; rfl, inv, ?_⟩
        intro z
        simp only [Spec.contents, Set.mem_ofPred_eq, ← hm]
        exact ⟨fun h => ⟨h, hy z h⟩, fun h => h.1⟩
      · refine ⟨s', bs ++ [true], by simp only [run, e']; rfl, inv', ?_⟩
        intro z
        have hinc := inv.increasing
        rw [e1] at hinc
        unfold Spec.Increasing at hinc
        rw [List.pairwise_append, List.pairwise_cons] at hinc
        simp only [Spec.contents, Set.mem_ofPred_eq, ← hm, e2, e1, List.mem_append, List.mem_cons]
        constructor
        · rintro (h | h)
          · exact ⟨.inl h, by rw [← hk]; exact ne_of_lt (hinc.2.2 z h y (by simp))⟩
          · exact ⟨.inr (.inr h), by rw [← hk]; exact ne_of_gt (hinc.2.1.1 z h)⟩
        · rintro ⟨h | rfl | h, hne⟩
          · exact .inl h
          · exact absurd hk hne
          · exact .inr h

/-- **C33** (reports). The last operation of a sequence reports a change exactly if it changes the set: an
insertion if no item with the same key is present, a deletion if there is one. Inserting an item with the
key of a stored one leaves the structure as it is. -/
theorem C33_reports {cmp : α → α → Int} {key : α → κ} (hc : Spec.Compares cmp key) (ops : List (Op α)) (op : Op α) :
    ∃ s s' bs b, run cmp empty ops = .ok (s, bs) ∧ run cmp empty (ops ++ [op]) = .ok (s', bs ++ [b]) ∧
      (b = true ↔ Spec.changes key (Spec.contents key ops.reverse) op) ∧ (b = false → s' = s) := by
  obtain ⟨s, bs, e, hb, hi, hs, hm, -⟩ := C33_ordered_set hc ops
  have inv : Spec.Inv key s := ⟨hb, hi, hs⟩
  rw [run_append, e]
  cases op with
  | insert x =>
    rcases itemInsert_spec hc s inv x with ⟨e', y, hy, hk⟩ | ⟨s', a, b, e', inv', e1, e2, ha, hb⟩
    · refine ⟨s, s, bs, false, rfl, by simp only [Res.ok_bind, run, e'], ?_, fun _ => rfl⟩
      simp only [Bool.false_eq_true, false_iff, Spec.changes]
      exact fun h => h y ((hm y).1 hy) hk
    · refine ⟨s, s', bs, true, rfl, by simp only [Res.ok_bind, run, e'], ?_, by simp⟩
      simp only [true_iff, Spec.changes]
      intro y hy
      rw [← hm, e1, List.mem_append] at hy
      rcases hy with hy | hy
      · exact ne_of_lt (ha y hy)
      · exact ne_of_gt (hb y hy)
  | delete x =>
    rcases itemDelete_spec hc s inv x with ⟨e', hy⟩ | ⟨s', y, a, b, e', inv', hk, e1, e2⟩
    · refine ⟨s, s, bs, false, rfl, by simp only [Res.ok_bind, run, e']; rfl, ?_, fun _ => rfl⟩
      simp only [Bool.false_eq_true, false_iff, Spec.changes]
      rintro ⟨y, h1, h2⟩
      exact hy y ((hm y).2 h1) h2
    · refine ⟨s, s', bs, true, rfl, by simp only [Res.ok_bind, run, e']; rfl, ?_, by simp⟩
      simp only [true_iff, Spec.changes]
      exact ⟨y, (hm y).1 (by rw [e1]; simp), hk⟩

/-- Comparison of integers as `AVL_CMP`, `/repo/src/mo_avl_tree.c` line 60. -/
def intCmp (a b : Int) : Int := if a < b then -1 else if a ≠ b then 1 else 0

theorem intCmp_compares : Spec.Compares intCmp (fun x : Int => x) := by
  constructor
  · intro a b; unfold intCmp; split
    · simp_all
    · split <;> simp_all
  · intro a b; unfold intCmp
    by_cases h : a < b
    · rw [if_pos h]; constructor
      · intro h'; exact absurd h' (by decide)
      · intro h'; omega
    · rw [if_neg h]
      by_cases h2 : a = b
      · rw [if_neg (by simp [h2])]; constructor
        · intro h'; exact absurd h' (by decide)
        · intro h'; omega
      · rw [if_pos h2]; constructor
        · intro _; omega
        · intro _; decide

example : (run intCmp empty [.insert 3, .insert 2, .insert 1, .insert 5, .insert 4, .insert 2, .delete 3, .delete 7]).bind
    (fun r => .ok (r.1.tree, r.1.items, r.2)) =
    .ok (.node (.node .nil 1 1 1 .nil) 2 4 3 (.node .nil 4 2 2 (.node .nil 5 1 1 .nil)), [1, 2, 4, 5],
      [true, true, true, true, true, false, true, false]) := by decide

/-- **C33** (depth). With fewer than 2^64 items the depth is at most 129, so that it fits the
`unsigned char` in which it is stored. -/
theorem C33_depth_fits (t : Tree α) (h : Spec.Balanced t) (hn : (inorder t).length < 2 ^ 64) :
    t.depth ≤ 129 := by
  have key : ∀ n, ∀ t : Tree α, height t = n → Spec.Balanced t → 2 ^ (n / 2) ≤ (inorder t).length + 1 := by
    intro n
    induction n using Nat.strong_induction_on with
    | _ n ih =>
      intro t ht hb
      cases t with
      | nil => subst ht; simp [height, inorder]
      | node l x c d r =>
        obtain ⟨-, -, b1, b2, bl, br⟩ := hb
        simp only [height] at ht
        by_cases hn : n < 2
        · have : n / 2 = 0 := by omega
          rw [this]; simp
        · have e : n / 2 = (n - 2) / 2 + 1 := by omega
          have hl := ih (height l) (by omega) l rfl bl
          have hr := ih (height r) (by omega) r rfl br
          have pl : 2 ^ ((n - 2) / 2) ≤ 2 ^ (height l / 2) := Nat.pow_le_pow_right (by omega) (by omega)
          have pr : 2 ^ ((n - 2) / 2) ≤ 2 ^ (height r / 2) := Nat.pow_le_pow_right (by omega) (by omega)
          rw [e, Nat.pow_succ]
          simp only [inorder, List.length_append, List.length_cons]
          omega
  rw [depth_eq h]
  by_contra hc
  have h1 := key _ t rfl h
  have h2 : 2 ^ 64 ≤ 2 ^ (height t / 2) := Nat.pow_le_pow_right (by omega) (by omega)
  have h3 : 2 ^ (height t / 2) ≤ 2 ^ 64 := by omega
  have h4 : height t / 2 ≤ 64 := by
    by_contra hc'
    have : 2 ^ 65 ≤ 2 ^ (height t / 2) := Nat.pow_le_pow_right (by omega) (by omega)
    omega
  omega

/-! ### C34 -/

theorem rightmostLoop_spec {cmp : α → α → Int} {key : α → κ} (hc : Spec.Compares cmp key) (x : α) (b : Bool)
    (t : Tree α) (y : α) (h : ∀ z ∈ inorder t, key z ≠ key x) : rightmostLoop cmp x b t y = y := by
  have hz : ∀ z, key z ≠ key x → cmp x z ≠ 0 := by
    intro z hz e
    rcases lt_or_gt_of_ne hz with h | h
    · have := (hc.gt x z).2 h; omega
    · have := (hc.lt x z).2 h; omega
  induction t generalizing b with
  | nil => cases b <;> rfl
  | node l z c d r ihl ihr =>
    have h1 := hz z (h z (by simp [inorder]))
    cases b
    · rw [rightmostLoop, if_neg h1]
      exact ihl _ (fun w hw => h w (by simp [inorder, hw]))
    · rw [rightmostLoop, if_pos h1]
      exact ihl _ (fun w hw => h w (by simp [inorder, hw]))

theorem exactRight_mem {cmp : α → α → Int} (x : α) (t : Tree α) : (inorder (exactRight cmp x t)).Sublist (inorder t) := by
  induction t with
  | nil => exact List.Sublist.refl _
  | node l y c d r ihl ihr =>
    rw [exactRight]
    simp only [inorder]
    split
    · exact ihl.trans (List.sublist_append_left _ _)
    · split
      · exact (ihr.trans (List.sublist_cons_self _ _)).trans (List.sublist_append_right _ _)
      · exact (List.sublist_cons_self _ _).trans (List.sublist_append_right _ _)

theorem exactRight_gt {cmp : α → α → Int} {key : α → κ} (hc : Spec.Compares cmp key) (x : α) (t : Tree α)
    (hs : Spec.Increasing key (inorder t)) : ∀ z ∈ inorder (exactRight cmp x t), key z ≠ key x := by
  induction t with
  | nil => simp [exactRight, inorder]
  | node l y c d r ihl ihr =>
    simp only [inorder, Spec.Increasing] at hs
    rw [List.pairwise_append, List.pairwise_cons] at hs
    obtain ⟨sl, ⟨hyr, sr⟩, hlr⟩ := hs
    rw [exactRight]
    split
    · exact ihl sl
    · rename_i n1
      split
      · exact ihr sr
      · rename_i n2
        intro z hz e
        have := hyr z hz
        rw [e] at this
        exact n2 ((hc.gt x y).2 this)

/-- **C34.** After any sequence of insertions and deletions, `avl_item_search_right` returns the stored item
with the largest key not above that of the given item, with the exact flag telling whether the keys are
equal, and nothing if all stored keys are larger. `avl_item_search` returns the stored item with the same
key, if any. -/
theorem C34_search {cmp : α → α → Int} {key : α → κ} (hc : Spec.Compares cmp key) (ops : List (Op α)) (x : α) :
    ∃ s bs, run cmp empty ops = .ok (s, bs) ∧
      ((∃ y, searchRight cmp s.items x s.tree = (some y, decide (key y = key x)) ∧
          y ∈ Spec.contents key ops.reverse ∧ key y ≤ key x ∧
          ∀ z ∈ Spec.contents key ops.reverse, key z ≤ key x → key z ≤ key y) ∨
       (searchRight cmp s.items x s.tree = (none, false) ∧ ∀ z ∈ Spec.contents key ops.reverse, key x < key z)) ∧
      ((∃ y, search cmp s.items x s.tree = some y ∧ y ∈ Spec.contents key ops.reverse ∧ key y = key x) ∨
       (search cmp s.items x s.tree = none ∧ ∀ z ∈ Spec.contents key ops.reverse, key z ≠ key x)) := by
  obtain ⟨s, bs, e, hb, hi, hs, hm, -⟩ := C33_ordered_set hc ops
  refine ⟨s, bs, e, ?_⟩
  have hst : Spec.Increasing key (inorder s.tree) := by rw [hi]; exact hs
  simp only [← hm]
  unfold searchRight search
  by_cases hn : s.tree = .nil
  · have he : s.items = [] := by rw [← hi, hn]; rfl
    rw [hn, he]
    exact ⟨.inr ⟨rfl, by simp⟩, .inr ⟨rfl, by simp⟩⟩
  · rcases searchRightish_spec hc s.items x s.tree [] [] (by rw [hi]; simp) hs hn with
      ⟨y, hy, hk, f⟩ | ⟨a, b, e1, ha, hb', f⟩
    · rw [f]
      simp only
      rw [rightmostLoop_spec hc x true _ y (exactRight_gt hc x s.tree hst)]
      rw [hi] at hy
      refine ⟨.inl ⟨y, by simp [hk], hy, hk.le, fun z _ hz => by rw [hk]; exact hz⟩, .inl ⟨y, rfl, hy, hk⟩⟩
    · rw [hi] at e1
      have hne : ∀ z ∈ s.items, key z ≠ key x := by
        intro z hz
        rw [e1, List.mem_append] at hz
        rcases hz with hz | hz
        · exact ne_of_lt (ha z hz)
        · exact ne_of_gt (hb' z hz)
      rw [f, List.nil_append]
      simp only
      refine ⟨?_, .inr ⟨trivial, hne⟩⟩
      rcases List.eq_nil_or_concat a with rfl | ⟨a', y, rfl⟩
      · right
        refine ⟨rfl, ?_⟩
        intro z hz
        rw [e1] at hz
        exact hb' z (by simpa using hz)
      · left
        rw [List.concat_eq_append] at *
        rw [List.getLast?_concat]
        have hy : y ∈ s.items := by rw [e1]; simp
        refine ⟨y, by simp [hne y hy], hy, (ha y (by simp)).le, ?_⟩
        intro z hz hzx
        rw [e1] at hz
        rcases List.mem_append.1 hz with hz | hz
        · rcases List.mem_append.1 hz with hz' | hz'
          · rw [e1] at hs
            rw [List.pairwise_append, List.pairwise_append] at hs
            exact (hs.1.2.2 z hz' y (by simp)).le
          · rw [List.mem_singleton] at hz'; rw [hz']
        · exact absurd hzx (not_le.2 (hb' z hz))

example : (run intCmp empty [.insert 30, .insert 20, .insert 10, .insert 50, .delete 20]).bind
    (fun r => .ok [searchRight intCmp r.1.items 40 r.1.tree, searchRight intCmp r.1.items 10 r.1.tree,
      searchRight intCmp r.1.items 5 r.1.tree]) = .ok [(some 30, false), (some 10, true), (none, false)] := by decide

end Avl
