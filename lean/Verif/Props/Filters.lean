import Verif.Props.Construct

/-!
Property C66: the suite options select exactly the listed functions, dimensions and instances
(`/repo/src/coco_suite.c`, constructor `coco_suite`, together with the option parser).
-/

namespace Construct
open CStr Str Options

/-- An option string: each item is a key, a colon and a body (numbers, commas, hyphens, blanks). -/
def Spec.optionText : List (List Char × List Char) → List Char
  | [] => []
  | it :: items => it.1 ++ (':' :: (it.2 ++ Spec.optionText items))

/-- Keys start with a letter and contain no colon; bodies contain no letter. -/
def Spec.WellFormed (items : List (List Char × List Char)) : Prop :=
  ∀ it ∈ items, (∃ c, it.1.head? = some c ∧ isAlpha c = true) ∧ ':' ∉ it.1 ∧ ∀ c ∈ it.2, isAlpha c = false

theorem occursAt_get {s k : List Char} {p : Nat} (h : Str.Spec.OccursAt s k p) (j : Nat) (hj : j < k.length) :
    s[p + j]? = k[j]? := by
  obtain ⟨pre, post, rfl, rfl⟩ := h
  rw [List.append_assoc, List.getElem?_append_right (by omega), List.getElem?_append_left (by omega)]
  congr 1
  omega

theorem occursAt_of_get {s k : List Char} {p : Nat} (hp : p ≤ s.length)
    (h : ∀ j, j < k.length → s[p + j]? = k[j]?) : Str.Spec.OccursAt s k p := by
  have e : (s.drop p).take k.length = k := by
    apply List.ext_getElem?
    intro j
    by_cases hj : j < k.length
    · rw [List.getElem?_take_of_lt hj, List.getElem?_drop, h j hj]
    · rw [List.getElem?_eq_none (by rw [List.length_take]; omega), List.getElem?_eq_none (by omega)]
  refine ⟨s.take p, s.drop (p + k.length), ?_, by rw [List.length_take]; omega⟩
  rw [List.append_assoc]
  have h1 : s = s.take p ++ s.drop p := (List.take_append_drop p s).symm
  have h2 : s.drop p = k ++ s.drop (p + k.length) := by
    have := (List.take_append_drop k.length (s.drop p)).symm
    rwa [e, List.drop_drop] at this
  rw [← h2]
  exact h1

theorem occursAt_bound {s k : List Char} {p : Nat} (h : Str.Spec.OccursAt s k p) : p + k.length ≤ s.length := by
  obtain ⟨pre, post, rfl, rfl⟩ := h
  simp only [List.length_append]; omega

/-- An occurrence that starts in one item lies in the key of that item. -/
theorem occurs_in_item {w body rest k : List Char} {p : Nat} {c : Char} (hc : k.head? = some c)
    (hca : isAlpha c = true) (hk : ':' ∉ k) (hb : ∀ c ∈ body, isAlpha c = false)
    (h : Str.Spec.OccursAt (w ++ (':' :: (body ++ rest))) k p) (hp : p < w.length + 1 + body.length) :
    Str.Spec.OccursAt w k p := by
  have hkpos : 0 < k.length := by cases k with | nil => simp at hc | cons => simp
  have h0 := occursAt_get h 0 hkpos
  rw [Nat.add_zero, ← List.head?_eq_getElem?, hc] at h0
  have hpw : p < w.length := by
    apply Classical.byContradiction
    intro hge
    rw [List.getElem?_append_right (by omega)] at h0
    cases hd : p - w.length with
    | zero =>
      rw [hd] at h0
      simp at h0
      subst h0
      revert hca; decide
    | succ q =>
      rw [hd, List.getElem?_cons_succ, List.getElem?_append_left (by omega)] at h0
      have := hb c (List.mem_of_getElem? h0)
      rw [hca] at this; exact absurd this (by decide)
  have hfit : p + k.length ≤ w.length := by
    apply Classical.byContradiction
    intro hgt
    have hj := occursAt_get h (w.length - p) (by omega)
    rw [show p + (w.length - p) = w.length by omega, List.getElem?_append_right (Nat.le_refl _)] at hj
    simp at hj
    exact hk (List.mem_of_getElem? hj.symm)
  apply occursAt_of_get (by omega)
  intro j hj
  rw [← occursAt_get h j hj, List.getElem?_append_left (by omega)]

theorem occurs_in_rest {a b k : List Char} {p : Nat} (h : Str.Spec.OccursAt (a ++ b) k p) (hp : a.length ≤ p) :
    Str.Spec.OccursAt b k (p - a.length) := by
  have hb := occursAt_bound h
  rw [List.length_append] at hb
  apply occursAt_of_get (by omega)
  intro j hj
  rw [← occursAt_get h j hj, List.getElem?_append_right (by omega)]
  congr 1
  omega

theorem optionText_append (a b : List (List Char × List Char)) :
    Spec.optionText (a ++ b) = Spec.optionText a ++ Spec.optionText b := by
  induction a with
  | nil => rfl
  | cons it a ih => simp [Spec.optionText, ih]

/-- An occurrence that starts in the text of `items` lies in one of their keys. -/
theorem occurs_in_items {items : List (List Char × List Char)} (hw : Spec.WellFormed items)
    {k rest : List Char} {c : Char} (hc : k.head? = some c) (hca : isAlpha c = true) (hk : ':' ∉ k) :
    ∀ p, Str.Spec.OccursAt (Spec.optionText items ++ rest) k p → p < (Spec.optionText items).length →
      ∃ it ∈ items, ∃ q, Str.Spec.OccursAt it.1 k q := by
  induction items with
  | nil => intro p _ hp; simp [Spec.optionText] at hp
  | cons it items ih =>
    intro p h hp
    have e : Spec.optionText (it :: items) ++ rest
        = it.1 ++ (':' :: (it.2 ++ (Spec.optionText items ++ rest))) := by simp [Spec.optionText]
    by_cases hlt : p < it.1.length + 1 + it.2.length
    · rw [e] at h
      exact ⟨it, by simp, p, occurs_in_item hc hca hk (hw it (by simp)).2.2 h hlt⟩
    · have e2 : Spec.optionText (it :: items) ++ rest
          = (it.1 ++ (':' :: it.2)) ++ (Spec.optionText items ++ rest) := by simp [Spec.optionText]
      rw [e2] at h
      have hlen : (it.1 ++ (':' :: it.2)).length = it.1.length + 1 + it.2.length := by simp; omega
      have h2 := occurs_in_rest h (by omega)
      have hl2 : (Spec.optionText (it :: items)).length
          = it.1.length + 1 + it.2.length + (Spec.optionText items).length := by
        simp [Spec.optionText]; omega
      obtain ⟨it', hm, q, hq⟩ := ih (fun it h => hw it (by simp [h])) _ h2 (by omega)
      exact ⟨it', by simp [hm], q, hq⟩

/-- **C66** (reading). In a well-formed option string the value list of a key is the body of its item
without white space, provided the key is not part of an earlier key. -/
theorem C66_read_values (before after : List (List Char × List Char)) (k body : List Char) (cap : Nat)
    (hw : Spec.WellFormed (before ++ (k, body) :: after))
    (hl : (Spec.optionText (before ++ (k, body) :: after)).length ≤ 1000000000)
    (hb : ∀ it ∈ before, ∀ q, ¬ Str.Spec.OccursAt it.1 k q)
    (hcap : (body.filter fun c => !isSpace c).length < cap) :
    readValues (Spec.optionText (before ++ (k, body) :: after)) k cap
      = .ok (((body.filter fun c => !isSpace c).length : Int), some (body.filter fun c => !isSpace c)) := by
  obtain ⟨⟨c, hc, hca⟩, hcol, hbody⟩ := hw (k, body) (by simp)
  have hwb : Spec.WellFormed before := fun it h => hw it (by simp [h])
  have hk : k ≠ [] := by rintro rfl; simp at hc
  have e : Spec.optionText (before ++ (k, body) :: after)
      = Spec.optionText before ++ (k ++ ([] ++ (':' :: ([] ++ (body ++ Spec.optionText after))))) := by
    rw [optionText_append]; simp [Spec.optionText]
  have hent : Options.Spec.Entry (Spec.optionText (before ++ (k, body) :: after)) (Spec.optionText before) k []
      [] (body ++ Spec.optionText after) := by
    refine ⟨e, hk, hcol, by simp, by simp, ?_, hl⟩
    intro p hp ho
    rw [e] at ho
    obtain ⟨it, hm, q, hq⟩ := occurs_in_items hwb hc hca hcol p ho hp
    exact hb it hm q hq
  apply C12_read_values cap hent hbody
  · intro d hd
    cases after with
    | nil => simp [Spec.optionText] at hd
    | cons it after =>
      obtain ⟨⟨x, hx, hxa⟩, _⟩ := hw it (by simp)
      have : (Spec.optionText (it :: after)).head? = it.1.head? := by
        cases hit : it.1 with
        | nil => rw [hit] at hx; simp at hx
        | cons y ys => simp [Spec.optionText, hit]
      rw [this, hx] at hd
      simp at hd; subst hd; exact hxa
  · exact hcap

theorem not_occurs_items {items : List (List Char × List Char)} (hw : Spec.WellFormed items) {k : List Char}
    {c : Char} (hc : k.head? = some c) (hca : isAlpha c = true) (hk : ':' ∉ k)
    (h : ∀ it ∈ items, ∀ q, ¬ Str.Spec.OccursAt it.1 k q) (p : Nat) :
    ¬ Str.Spec.OccursAt (Spec.optionText items) k p := by
  intro ho
  have hb := occursAt_bound ho
  have hkpos : 0 < k.length := by cases k with | nil => simp at hc | cons => simp
  obtain ⟨it, hm, q, hq⟩ := occurs_in_items (rest := []) hw hc hca hk p (by simpa using ho) (by omega)
  exact h it hm q hq

/-- **C66** (absent keys). A key that is not part of any key of the string is not found. -/
theorem C66_read_absent (items : List (List Char × List Char)) (hw : Spec.WellFormed items) (k : List Char)
    (c : Char) (hc : k.head? = some c) (hca : isAlpha c = true) (hk : ':' ∉ k) (cap : Nat)
    (hl : (Spec.optionText items).length ≤ 1000000000) (h : ∀ it ∈ items, ∀ q, ¬ Str.Spec.OccursAt it.1 k q) :
    readValues (Spec.optionText items) k cap = .ok (0, none) :=
  (C12_absent _ k cap (by rintro rfl; simp at hc) hl (not_occurs_items hw hc hca hk h)).2.1

/-! ### The three index filters -/

/-- Decidable form of "k does not occur in s", for concrete keys. -/
theorem not_occurs_of_check {s k : List Char}
    (h : ∀ q, q < s.length + 1 → (s.drop q).take k.length ≠ k) (q : Nat) : ¬ Str.Spec.OccursAt s k q := by
  rintro ⟨pre, post, rfl, rfl⟩
  apply h pre.length (by simp only [List.length_append]; omega)
  rw [List.append_assoc, List.drop_left, List.take_left]

/-- A list of ranges written in an option. -/
structure Spec.Listed (body : List Char) (items : List Str.Spec.Item) : Prop where
  ne : items ≠ []
  ok : ∀ it ∈ items, it.Ok
  text : (body.filter fun c => !isSpace c) = List.intercalate [','] (items.map Str.Spec.Item.text)

theorem parse_listed {body : List Char} {items : List Str.Spec.Item} (h : Spec.Listed body items) (n : Nat)
    (hn : 1 ≤ n) (hne : Str.Spec.expected 1 n items ≠ []) (hlen : (Str.Spec.expected 1 n items).length < maxInstances) :
    parseRanges (body.filter fun c => !isSpace c) 1 n maxInstances = .ok (some (Str.Spec.expected 1 n items)) := by
  rw [h.text, C10_parse_ranges 1 n maxInstances (by decide) (Or.inr hn) items h.ne h.ok]
  rw [if_neg hne, List.take_of_length_le (by omega)]

theorem filter_listed_pos {body : List Char} {items : List Str.Spec.Item} (h : Spec.Listed body items) :
    0 < (body.filter fun c => !isSpace c).length := by
  have hne := h.ne
  rw [h.text]
  cases items with
  | nil => exact absurd rfl hne
  | cons it items =>
    have ht := (text_ok it (h.ok it (by simp))).1
    cases htx : it.text with
    | nil => exact absurd htx ht
    | cons c cs =>
      cases items with
      | nil => simp [List.intercalate, htx]
      | cons it2 items => simp [List.intercalate, htx]

theorem listed_no_alpha {body : List Char} {items : List Str.Spec.Item} (h : Spec.Listed body items) :
    ∀ c ∈ body, isAlpha c = false := by
  intro c hc
  by_cases hs : isSpace c = true
  · simp only [isSpace, Bool.or_eq_true, beq_iff_eq] at hs
    rcases hs with ((((rfl | rfl) | rfl) | rfl) | rfl) | rfl <;> decide
  · have hm : c ∈ body.filter fun c => !isSpace c := List.mem_filter.2 ⟨hc, by simpa using hs⟩
    rw [h.text] at hm
    rcases mem_intercalate hm with rfl | ⟨t, ht, hct⟩
    · decide
    · rw [List.mem_map] at ht
      obtain ⟨it, hit, rfl⟩ := ht
      rcases (text_ok it (h.ok it hit)).2.2 c hct with rfl | hd
      · decide
      · simp only [isDigit, Bool.and_eq_true, decide_eq_true_eq, Char.le_def, UInt32.le_iff_toNat_le] at hd
        have h9 : ('9' : Char).val.toNat = 57 := by decide
        have hA : ('A' : Char).val.toNat = 65 := by decide
        have ha : ('a' : Char).val.toNat = 97 := by decide
        simp only [isAlpha, Bool.or_eq_false_iff, Bool.and_eq_false_iff, decide_eq_false_iff_not, Char.le_def,
          UInt32.le_iff_toNat_le]
        omega

/-- The option keys that select by (1-based) position. -/
def Spec.indexKeys : List (List Char) :=
  ["function_indices".toList, "dimension_indices".toList, "instance_indices".toList]

/-- What a user expects of a selection: without selection everything is kept, otherwise the entry at
(1-based) position `j` is kept iff `j` is listed; 0 marks a removed entry. -/
def Spec.keep (l : List Nat) (o : Option (List Nat)) : List Nat :=
  match o with
  | none => l
  | some idx => l.mapIdx fun j v => if j + 1 ∈ idx then v else 0

/-- The selection a key makes among `n` entries. -/
def Spec.choice (items : List (List Char × List Char)) (ranges : List Char → List Str.Spec.Item)
    (k : List Char) (n : Nat) : Option (List Nat) :=
  if k ∈ items.map Prod.fst then some (Str.Spec.expected 1 n (ranges k)) else none

/-- Option strings made of items with keys among the index keys, in any order, each at most once, whose
bodies list `ranges key`. -/
structure Spec.Selection (pathMax : Nat) (items : List (List Char × List Char))
    (ranges : List Char → List Str.Spec.Item) : Prop where
  ne : items ≠ []
  keys : ∀ it ∈ items, it.1 ∈ Spec.indexKeys
  nodup : (items.map Prod.fst).Nodup
  listed : ∀ it ∈ items, Spec.Listed it.2 (ranges it.1)
  cap : ∀ it ∈ items, it.2.length ≤ pathMax
  len : (Spec.optionText items).length ≤ 1000000000

theorem keys_apart : ∀ k ∈ ("dimensions".toList :: Spec.indexKeys), ∀ k' ∈ Spec.indexKeys, k ≠ k' →
    ∀ q, ¬ Str.Spec.OccursAt k' k q := by
  have h : ∀ k ∈ ("dimensions".toList :: Spec.indexKeys), ∀ k' ∈ Spec.indexKeys, k ≠ k' →
      ∀ q, q < k'.length + 1 → (k'.drop q).take k.length ≠ k := by decide +kernel
  intro k hk k' hk' hne q
  exact not_occurs_of_check (h k hk k' hk' hne) q

theorem keys_shape : ∀ k ∈ ("dimensions".toList :: Spec.indexKeys),
    (∃ c, k.head? = some c ∧ isAlpha c = true) ∧ ':' ∉ k := by
  intro k hk
  simp only [Spec.indexKeys, List.mem_cons, List.not_mem_nil, or_false] at hk
  rcases hk with rfl | rfl | rfl | rfl
  · exact ⟨⟨'d', by decide, by decide⟩, by decide⟩
  · exact ⟨⟨'f', by decide, by decide⟩, by decide⟩
  · exact ⟨⟨'d', by decide, by decide⟩, by decide⟩
  · exact ⟨⟨'i', by decide, by decide⟩, by decide⟩

theorem Spec.Selection.wellFormed {pathMax : Nat} {items : List (List Char × List Char)}
    {ranges : List Char → List Str.Spec.Item} (h : Spec.Selection pathMax items ranges) :
    Spec.WellFormed items := by
  intro it hit
  have := keys_shape it.1 (by simp [h.keys it hit])
  exact ⟨this.1, this.2, listed_no_alpha (h.listed it hit)⟩

theorem filterNumbers_choice {pathMax : Nat} {items : List (List Char × List Char)}
    {ranges : List Char → List Str.Spec.Item} (h : Spec.Selection pathMax items ranges)
    (k : List Char) (hk : k ∈ Spec.indexKeys) (n : Nat) (hn : 1 ≤ n)
    (hsel : k ∈ items.map Prod.fst → Str.Spec.expected 1 n (ranges k) ≠ [] ∧
      (Str.Spec.expected 1 n (ranges k)).length < maxInstances) :
    filterNumbers pathMax (Spec.optionText items) k 1 n = .ok (Spec.choice items ranges k n) := by
  obtain ⟨⟨c, hc, hca⟩, hcol⟩ := keys_shape k (by simp [hk])
  unfold filterNumbers
  by_cases hm : k ∈ items.map Prod.fst
  · obtain ⟨⟨k', body⟩, hit, rfl⟩ := List.mem_map.1 hm
    obtain ⟨before, after, rfl⟩ := List.append_of_mem hit
    have hL := h.listed _ hit
    have hb : ∀ it ∈ before, ∀ q, ¬ Str.Spec.OccursAt it.1 k' q := by
      intro it hit'
      apply keys_apart k' (by simp [hk]) it.1 (h.keys it (by simp [hit']))
      rintro rfl
      have := h.nodup
      rw [List.map_append, List.nodup_append] at this
      exact this.2.2 it.1 (List.mem_map_of_mem hit') it.1 (by simp) rfl
    have hcap : (body.filter fun c => !isSpace c).length < pathMax + 1 := by
      have h1 := h.cap _ hit
      have h2 := List.length_filter_le (fun c => !isSpace c) body
      simp only at h1
      omega
    rw [C66_read_values before after k' body (pathMax + 1) h.wellFormed h.len hb hcap, Res.ok_bind]
    have hpos := filter_listed_pos hL
    have hgt : ((body.filter fun c => !isSpace c).length : Int) > 0 := by
      simp only at hpos
      omega
    simp only [hgt, if_true, Option.getD_some]
    rw [parse_listed hL n hn (hsel hm).1 (hsel hm).2]
    unfold Spec.choice
    simp only [hm, if_true]
  · have habs : ∀ it ∈ items, ∀ q, ¬ Str.Spec.OccursAt it.1 k q := by
      intro it hit
      apply keys_apart k (by simp [hk]) it.1 (h.keys it hit)
      rintro rfl
      exact hm (List.mem_map_of_mem hit)
    rw [C66_read_absent items h.wellFormed k c hc hca hcol _ h.len habs]
    simp [Spec.choice, hm]

theorem expected_bounds (n : Nat) (hn : 1 ≤ n) (items : List Str.Spec.Item) :
    ∀ x ∈ Str.Spec.expected 1 n items, 1 ≤ x ∧ x ≤ n := by
  induction items with
  | nil => simp [Str.Spec.expected]
  | cons it items ih =>
    intro x hx
    unfold Str.Spec.expected at hx
    split at hx
    · simp at hx
    · rw [List.mem_append] at hx
      rcases hx with hx | hx
      · have hclip : ∀ lo hi, x ∈ Str.Spec.clipped 1 n lo hi → 1 ≤ x ∧ x ≤ n := by
          intro lo hi hx
          simp only [Str.Spec.clipped, List.mem_filter, decide_eq_true_eq] at hx
          omega
        cases it with
        | num a => exact hclip _ _ hx
        | range a b => exact hclip _ _ hx
        | upTo b =>
          simp only [Str.Spec.Item.numbers] at hx
          split at hx
          · simp at hx
          · exact hclip _ _ hx
        | fromOn a =>
          simp only [Str.Spec.Item.numbers] at hx
          split at hx
          · simp at hx
          · exact hclip _ _ hx
        | any =>
          simp only [Str.Spec.Item.numbers] at hx
          split at hx
          · simp at hx
          · exact hclip _ _ hx
      · exact ih x hx

theorem filterIndices_keep (l idx : List Nat) : Suite.filterIndices l idx = Spec.keep l (some idx) := by
  apply List.ext_getElem?
  intro j
  rw [Suite.C06_filter_indices]
  simp [Spec.keep]

theorem applyIndices_choice {items : List (List Char × List Char)}
    {ranges : List Char → List Str.Spec.Item} (k : List Char) (l : List Nat) (hn : 1 ≤ l.length)
    (hsel : k ∈ items.map Prod.fst → Str.Spec.expected 1 l.length (ranges k) ≠ [] ∧
      (Str.Spec.expected 1 l.length (ranges k)).length < maxInstances) :
    applyIndices l (Spec.choice items ranges k l.length)
      = .ok (Spec.keep l (Spec.choice items ranges k l.length)) := by
  unfold Spec.choice
  by_cases hm : k ∈ items.map Prod.fst
  · simp only [hm, if_true, applyIndices]
    have hc : countNumbers (Str.Spec.expected 1 l.length (ranges k) ++ [0]) maxInstances
        = .ok (Str.Spec.expected 1 l.length (ranges k)).length := by
      rw [(C15_count_numbers _ _ _).1]
      refine ⟨(hsel hm).2, by simp, ?_⟩
      intro j hj
      rw [List.getElem?_append_left hj, List.getElem?_eq_getElem hj]
      refine ⟨_, rfl, ?_⟩
      have := expected_bounds l.length hn (ranges k) _ (List.getElem_mem hj)
      omega
    rw [hc, Res.ok_bind, List.take_length, filterIndices_keep]
  · simp [hm, applyIndices, Spec.keep]

theorem keep_nonempty {items : List (List Char × List Char)}
    {ranges : List Char → List Str.Spec.Item} (k : List Char) (l : List Nat) (hn : 1 ≤ l.length)
    (hl : ∀ v ∈ l, v ≠ 0)
    (hsel : k ∈ items.map Prod.fst → Str.Spec.expected 1 l.length (ranges k) ≠ []) :
    ∃ v ∈ Spec.keep l (Spec.choice items ranges k l.length), v ≠ 0 := by
  unfold Spec.choice
  by_cases hm : k ∈ items.map Prod.fst
  · simp only [hm, if_true, Spec.keep]
    obtain ⟨x, hx⟩ := List.exists_mem_of_ne_nil _ (hsel hm)
    have hb := expected_bounds l.length hn (ranges k) x hx
    have hj : x - 1 < l.length := by omega
    refine ⟨l[x - 1], ?_, hl _ (List.getElem_mem hj)⟩
    apply List.mem_of_getElem? (i := x - 1)
    rw [List.getElem?_mapIdx, List.getElem?_eq_getElem hj]
    have : x - 1 + 1 = x := by omega
    simp [this, hx]
  · simp only [hm, if_false, Spec.keep]
    have : 0 < l.length := hn
    exact ⟨l[0], List.getElem_mem this, hl _ (List.getElem_mem this)⟩

theorem keep_length (l : List Nat) (o : Option (List Nat)) : (Spec.keep l o).length = l.length := by
  cases o <;> simp [Spec.keep]

/-- The state before filtering is the same whatever the options are. -/
theorem suite_base {pathMax : Nat} {name : String} {si : List Char} {s0 : Suite.State}
    (h : suite pathMax name si [] = .ok (some s0)) :
    ∃ s, Suite.Spec.Unstarted s ∧ (1 ≤ s.functions.length ∧ ∀ v ∈ s.functions, v ≠ 0) ∧
      (1 ≤ s.dimensions.length ∧ ∀ v ∈ s.dimensions, v ≠ 0) ∧
      (1 ≤ s.instances.length ∧ ∀ v ∈ s.instances, v ≠ 0) ∧
      (s0.functions = s.functions ∧ s0.dimensions = s.dimensions ∧ s0.instances = s.instances) ∧
      ∀ so, so ≠ [] → suite pathMax name si so = (applyFilters pathMax so s).bind fun
        | none => .ok none
        | some s => Suite.finishConstruction s := by
  unfold suite at h ⊢
  cases hi : suiteInit name with
  | error => simp [hi] at h
  | assertFail => simp [hi] at h
  | ub => simp [hi] at h
  | ok ini =>
    simp only [hi, Res.ok_bind] at h ⊢
    have hdims : 1 ≤ ini.dims.length ∧ (∀ v ∈ ini.dims, v ≠ 0) ∧ 1 ≤ ini.numFunctions := by
      unfold suiteInit at hi
      repeat' split at hi
      all_goals first
        | (simp only [reduceCtorEq] at hi; done)
        | (simp only [Res.ok.injEq] at hi; subst hi; decide)
    cases ha : Suite.allocate ini.noisy ini.numFunctions ini.dims with
    | error => simp [ha] at h
    | assertFail => simp [ha] at h
    | ub => simp [ha] at h
    | ok sa =>
      simp only [ha, Res.ok_bind] at h ⊢
      have hsa : sa = { functions := (List.range ini.numFunctions).map fun i =>
                          if ini.noisy then i + 1 + 100 else i + 1
                        dimensions := ini.dims, instances := []
                        curFunction := -1, curDimension := -1, curInstance := -1 } := by
        unfold Suite.allocate at ha
        have h1 : decide (ini.dims.length > 0) = true := by simp; omega
        have h2 : decide (ini.numFunctions > 0) = true := by simp; omega
        rw [h1, h2] at ha
        simp only [Res.assert, if_true] at ha
        exact (Res.ok.inj ha).symm
      generalize hinst : (if si = [] then getInstanceIndices name ini.defaultInstances
        else (getInstanceIndices name si).bind fun
          | none => getInstanceIndices name ini.defaultInstances
          | some l => .ok (some l)) = ri at h ⊢
      cases ri with
      | error => simp at h
      | assertFail => simp at h
      | ub => simp at h
      | ok inst =>
        simp only [Res.ok_bind] at h ⊢
        cases hset : setInstance sa inst with
        | error => simp [hset] at h
        | assertFail => simp [hset] at h
        | ub => simp [hset] at h
        | ok s =>
          simp only [hset, Res.ok_bind, if_true] at h ⊢
          obtain ⟨l, n, hn0, hcount, hs⟩ : ∃ l n, n ≠ 0 ∧ countNumbers (l ++ [0]) maxInstances = .ok n ∧
              s = { sa with instances := l.take n } := by
            unfold setInstance at hset
            cases inst with
            | none => simp at hset
            | some l =>
              simp only at hset
              cases hc : countNumbers (l ++ [0]) maxInstances with
              | error => simp [hc] at hset
              | assertFail => simp [hc] at hset
              | ub => simp [hc] at hset
              | ok n =>
                simp only [hc, Res.ok_bind] at hset
                by_cases h0 : n = 0
                · simp [h0] at hset
                · simp only [h0, if_false, Res.ok.injEq] at hset
                  exact ⟨l, n, h0, hc, hset.symm⟩
          rw [(C15_count_numbers _ _ _).1] at hcount
          obtain ⟨_, _, hnz⟩ := hcount
          have hnl : n ≤ l.length := by
            obtain ⟨v, hv, hv0⟩ := hnz (n - 1) (by omega)
            apply Classical.byContradiction
            intro hgt
            have : (l ++ [0])[n - 1]? = none ∨ (l ++ [0])[n - 1]? = some 0 := by
              by_cases he : n - 1 = l.length
              · right; rw [he]; simp
              · left; rw [List.getElem?_eq_none]; simp; omega
            rcases this with hx | hx <;> rw [hx] at hv
            · simp at hv
            · simp at hv; omega
          have hunst : Suite.Spec.Unstarted s := by rw [hs, hsa]; exact ⟨rfl, rfl, rfl⟩
          have hF : 1 ≤ s.functions.length ∧ ∀ v ∈ s.functions, v ≠ 0 := by
            rw [hs, hsa]
            simp only [List.length_map, List.length_range, List.mem_map, forall_exists_index, and_imp]
            refine ⟨hdims.2.2, ?_⟩
            rintro v i _ rfl
            split <;> omega
          have hD : 1 ≤ s.dimensions.length ∧ ∀ v ∈ s.dimensions, v ≠ 0 := by
            rw [hs, hsa]; exact ⟨hdims.1, hdims.2.1⟩
          have hI : 1 ≤ s.instances.length ∧ ∀ v ∈ s.instances, v ≠ 0 := by
            rw [hs]
            simp only [List.length_take]
            refine ⟨by omega, ?_⟩
            intro v hv
            obtain ⟨j, hj, e⟩ := List.getElem_of_mem hv
            rw [List.length_take] at hj
            rw [List.getElem_take] at e
            obtain ⟨w, hw, hw0⟩ := hnz j (by omega)
            rw [List.getElem?_append_left (by omega), List.getElem?_eq_getElem (by omega), e] at hw
            simp at hw; omega
          refine ⟨s, hunst, hF, hD, hI, ?_, ?_⟩
          · have pos : ∀ l : List Nat, 1 ≤ l.length → (∀ v ∈ l, v ≠ 0) → ∃ v ∈ l, v ≠ 0 := by
              intro l h1 h2
              exact ⟨l[0], List.getElem_mem h1, h2 _ (List.getElem_mem h1)⟩
            obtain ⟨f0, postF, hF0⟩ := Suite.exists_activePos_cons (pos _ hF.1 hF.2)
            obtain ⟨d0, postD, hD0⟩ := Suite.exists_activePos_cons (pos _ hD.1 hD.2)
            obtain ⟨i0, postI, hI0⟩ := Suite.exists_activePos_cons (pos _ hI.1 hI.2)
            rw [Suite.finishConstruction_eq hunst hI0 hF0 hD0] at h
            simp only [Res.ok.injEq, Option.some.injEq] at h
            rw [← h]
            exact ⟨rfl, rfl, rfl⟩
          · intro so hso
            simp only [hso, if_false]
            cases applyFilters pathMax so s with
            | ok o => cases o <;> rfl
            | error => rfl
            | assertFail => rfl
            | ub => rfl

/-- **C66.** A suite constructed with index options (in any order, each at most once) contains exactly the
listed functions, dimensions and instances of the suite constructed without options, and iterating it
returns exactly the problems of these, in order, and then NULL. -/
theorem C66_options_select (pathMax : Nat) (name : String) (si : List Char) (s0 : Suite.State)
    (h0 : suite pathMax name si [] = .ok (some s0))
    (items : List (List Char × List Char)) (ranges : List Char → List Str.Spec.Item)
    (h : Spec.Selection pathMax items ranges)
    (hF : "function_indices".toList ∈ items.map Prod.fst →
      Str.Spec.expected 1 s0.functions.length (ranges "function_indices".toList) ≠ [] ∧
      (Str.Spec.expected 1 s0.functions.length (ranges "function_indices".toList)).length < 1000)
    (hD : "dimension_indices".toList ∈ items.map Prod.fst →
      Str.Spec.expected 1 s0.dimensions.length (ranges "dimension_indices".toList) ≠ [] ∧
      (Str.Spec.expected 1 s0.dimensions.length (ranges "dimension_indices".toList)).length < 1000)
    (hI : "instance_indices".toList ∈ items.map Prod.fst →
      Str.Spec.expected 1 s0.instances.length (ranges "instance_indices".toList) ≠ [] ∧
      (Str.Spec.expected 1 s0.instances.length (ranges "instance_indices".toList)).length < 1000) :
    ∃ s1 s2, suite pathMax name si (Spec.optionText items) = .ok (some s1) ∧
      s1.functions = Spec.keep s0.functions
        (Spec.choice items ranges "function_indices".toList s0.functions.length) ∧
      s1.dimensions = Spec.keep s0.dimensions
        (Spec.choice items ranges "dimension_indices".toList s0.dimensions.length) ∧
      s1.instances = Spec.keep s0.instances
        (Spec.choice items ranges "instance_indices".toList s0.instances.length) ∧
      Suite.runN ((Suite.Spec.problems s1).length + 1) s1
        = .ok ((Suite.Spec.problems s1).map some ++ [none], s2) := by
  obtain ⟨s, hu, bF, bD, bI, ⟨eF, eD, eI⟩, hsuite⟩ := suite_base h0
  rw [eF] at hF ⊢
  rw [eD] at hD ⊢
  rw [eI] at hI ⊢
  have hso : Spec.optionText items ≠ [] := by
    have hne := h.ne
    cases items with
    | nil => exact absurd rfl hne
    | cons it items => simp [Spec.optionText]
  rw [hsuite _ hso]
  have hdimabs : strfind (Spec.optionText items) "dimensions".toList = .ok (-1) := by
    apply strfind_absent (by decide) h.len
    apply not_occurs_items h.wellFormed (c := 'd') (by decide) (by decide) (by decide)
    intro it hit
    apply keys_apart _ (by simp) it.1 (h.keys it hit)
    intro e
    have := h.keys it hit
    rw [← e] at this
    revert this; decide
  have hdimidx : ∃ v, strfind (Spec.optionText items) "dimension_indices".toList = .ok v ∧
      (v < 0 → "dimension_indices".toList ∉ items.map Prod.fst) := by
    rcases C13_strfind (Spec.optionText items) "dimension_indices".toList (by decide) h.len with
      ⟨e, hno⟩ | ⟨k, e, _, _⟩
    · refine ⟨_, e, fun _ hm => ?_⟩
      obtain ⟨⟨k', body⟩, hit, hk'⟩ := List.mem_map.1 hm
      simp only at hk'
      obtain ⟨before, after, rfl⟩ := List.append_of_mem hit
      apply hno (Spec.optionText before).length
      rw [optionText_append]
      refine ⟨Spec.optionText before, ':' :: (body ++ Spec.optionText after), ?_, rfl⟩
      simp only [Spec.optionText, hk', List.append_assoc]
    · exact ⟨_, e, fun hv => by omega⟩
  obtain ⟨v, hv, hvneg⟩ := hdimidx
  have happly : applyFilters pathMax (Spec.optionText items) s = .ok (some { s with
      functions := Spec.keep s.functions (Spec.choice items ranges "function_indices".toList s.functions.length)
      instances := Spec.keep s.instances (Spec.choice items ranges "instance_indices".toList s.instances.length)
      dimensions := Spec.keep s.dimensions
        (Spec.choice items ranges "dimension_indices".toList s.dimensions.length) }) := by
    unfold applyFilters
    rw [filterNumbers_choice h _ (by simp [Spec.indexKeys]) _ bF.1 hF, Res.ok_bind,
      applyIndices_choice _ _ bF.1 hF, Res.ok_bind,
      filterNumbers_choice h _ (by simp [Spec.indexKeys]) _ bI.1 hI, Res.ok_bind,
      applyIndices_choice _ _ bI.1 hI, Res.ok_bind, hdimabs, Res.ok_bind, hv, Res.ok_bind]
    have c1 : ¬ ((-1 : Int) > 0 ∧ v > 0) := by omega
    have c2 : ¬ ((-1 : Int) ≥ 0) := by omega
    simp only [c1, c2, decide_false, Bool.false_and, Bool.not_false, and_true, if_false, Res.ok_bind]
    by_cases hvp : v ≥ 0
    · simp only [hvp, if_true]
      rw [filterNumbers_choice h _ (by simp [Spec.indexKeys]) _ bD.1 hD, Res.ok_bind,
        applyIndices_choice _ _ bD.1 hD, Res.ok_bind]
      try simp only [Res.ok_bind]
    · simp only [hvp, if_false, Res.ok_bind]
      have : Spec.choice items ranges "dimension_indices".toList s.dimensions.length = none := by
        unfold Spec.choice
        rw [if_neg (hvneg (by omega))]
      rw [this]
      rfl
  rw [happly, Res.ok_bind]
  simp only
  generalize hs' : ({ s with
      functions := Spec.keep s.functions (Spec.choice items ranges "function_indices".toList s.functions.length)
      instances := Spec.keep s.instances (Spec.choice items ranges "instance_indices".toList s.instances.length)
      dimensions := Spec.keep s.dimensions
        (Spec.choice items ranges "dimension_indices".toList s.dimensions.length) } : Suite.State) = s'
  have hu' : Suite.Spec.Unstarted s' := by rw [← hs']; exact hu
  have hne' : Suite.Spec.NonEmpty s' := by
    rw [← hs']
    exact ⟨keep_nonempty _ _ bF.1 bF.2 (fun hm => (hF hm).1), keep_nonempty _ _ bD.1 bD.2 (fun hm => (hD hm).1),
      keep_nonempty _ _ bI.1 bI.2 (fun hm => (hI hm).1)⟩
  obtain ⟨f0, postF, hF0⟩ := Suite.exists_activePos_cons hne'.1
  obtain ⟨d0, postD, hD0⟩ := Suite.exists_activePos_cons hne'.2.1
  obtain ⟨i0, postI, hI0⟩ := Suite.exists_activePos_cons hne'.2.2
  obtain ⟨t0, t1, e1, e2⟩ := Suite.C01_iteration_complete s' hu' hne'
  have e3 := Suite.finishConstruction_eq hu' hI0 hF0 hD0
  rw [e1] at e3
  simp only [Res.ok.injEq, Option.some.injEq] at e3
  refine ⟨t0, t1, e1, ?_, ?_, ?_, ?_⟩
  · rw [e3, ← hs']
  · rw [e3, ← hs']
  · rw [e3, ← hs']
  · have : Suite.Spec.problems t0 = Suite.Spec.problems s' := by rw [e3]; rfl
    rw [this]; exact e2

/-! ### C67 -/

/-- The documented content of the supported suites: name, function numbers, dimensions and instances when
no instances and no options are given. -/
def Spec.documented : List (String × List Nat × List Nat × List Nat) :=
  [("toy", List.range' 1 6, [2, 3, 5, 10, 20], [1]),
   ("bbob", List.range' 1 24, [2, 3, 5, 10, 20, 40], [1, 2, 3, 4, 5] ++ List.range' 71 10),
   ("bbob-boxed", List.range' 1 24, [2, 3, 5, 10, 20, 40], [1, 2, 3, 4, 5] ++ List.range' 101 10),
   ("bbob-biobj", List.range' 1 55, [2, 3, 5, 10, 20, 40], List.range' 1 15),
   ("bbob-biobj-ext", List.range' 1 92, [2, 3, 5, 10, 20, 40], List.range' 1 15),
   ("bbob-largescale", List.range' 1 24, [20, 40, 80, 160, 320, 640], List.range' 1 15),
   ("bbob-constrained", List.range' 1 54, [2, 3, 5, 10, 20, 40], List.range' 1 15),
   ("bbob-mixint", List.range' 1 24, [5, 10, 20, 40, 80, 160], List.range' 1 15),
   ("bbob-biobj-mixint", List.range' 1 92, [5, 10, 20, 40, 80, 160], List.range' 1 15),
   ("bbob-noisy", List.range' 101 30, [2, 3, 5, 10, 20, 40], List.range' 1 15)]

/-- **C67.** Each supported suite can be constructed without instances and options; it then contains
exactly the documented functions, dimensions and instances and iterates over all their combinations. -/
theorem C67_default_suites (pathMax : Nat) :
    ∀ e ∈ Spec.documented, ∃ s1 s2, suite pathMax e.1 [] [] = .ok (some s1) ∧ s1.functions = e.2.1 ∧
      s1.dimensions = e.2.2.1 ∧ s1.instances = e.2.2.2 ∧
      (Suite.Spec.problems s1).length = e.2.1.length * e.2.2.1.length * e.2.2.2.length ∧
      Suite.runN ((Suite.Spec.problems s1).length + 1) s1
        = .ok ((Suite.Spec.problems s1).map some ++ [none], s2) := by
  have step : ∀ e ∈ Spec.documented, ∃ ini, suiteInit e.1 = .ok ini ∧
      Suite.allocate ini.noisy ini.numFunctions ini.dims = .ok ⟨e.2.1, e.2.2.1, [], -1, -1, -1⟩ ∧
      (getInstanceIndices e.1 ini.defaultInstances).bind
        (setInstance ⟨e.2.1, e.2.2.1, [], -1, -1, -1⟩) = .ok ⟨e.2.1, e.2.2.1, e.2.2.2, -1, -1, -1⟩ ∧
      Suite.Spec.NonEmpty ⟨e.2.1, e.2.2.1, e.2.2.2, -1, -1, -1⟩ ∧
      (Suite.Spec.problems ⟨e.2.1, e.2.2.1, e.2.2.2, -1, -1, -1⟩).length
        = e.2.1.length * e.2.2.1.length * e.2.2.2.length := by
    have hall : ∀ e ∈ Spec.documented,
        (match suiteInit e.1 with
          | .ok ini => decide (
            Suite.allocate ini.noisy ini.numFunctions ini.dims = .ok ⟨e.2.1, e.2.2.1, [], -1, -1, -1⟩ ∧
            (getInstanceIndices e.1 ini.defaultInstances).bind
              (setInstance ⟨e.2.1, e.2.2.1, [], -1, -1, -1⟩) = .ok ⟨e.2.1, e.2.2.1, e.2.2.2, -1, -1, -1⟩ ∧
            ((∃ v ∈ e.2.1, v ≠ 0) ∧ (∃ v ∈ e.2.2.1, v ≠ 0) ∧ (∃ v ∈ e.2.2.2, v ≠ 0)) ∧
            (Suite.Spec.problems ⟨e.2.1, e.2.2.1, e.2.2.2, -1, -1, -1⟩).length
              = e.2.1.length * e.2.2.1.length * e.2.2.2.length)
          | _ => false) = true := by decide +kernel
    intro e he
    have := hall e he
    split at this
    · rename_i ini hini
      rw [decide_eq_true_eq] at this
      exact ⟨ini, hini, this.1, this.2.1, this.2.2.1, this.2.2.2⟩
    · exact absurd this (by decide)
  intro e he
  obtain ⟨ini, h1, h2, h3, h4, h5⟩ := step e he
  have hu : Suite.Spec.Unstarted ⟨e.2.1, e.2.2.1, e.2.2.2, -1, -1, -1⟩ := ⟨rfl, rfl, rfl⟩
  obtain ⟨f0, postF, hF0⟩ := Suite.exists_activePos_cons h4.1
  obtain ⟨d0, postD, hD0⟩ := Suite.exists_activePos_cons h4.2.1
  obtain ⟨i0, postI, hI0⟩ := Suite.exists_activePos_cons h4.2.2
  obtain ⟨t0, t1, e1, e2⟩ := Suite.C01_iteration_complete _ hu h4
  have e3 := Suite.finishConstruction_eq hu hI0 hF0 hD0
  rw [e1] at e3
  simp only [Res.ok.injEq, Option.some.injEq] at e3
  have hp : Suite.Spec.problems t0 = Suite.Spec.problems ⟨e.2.1, e.2.2.1, e.2.2.2, -1, -1, -1⟩ := by
    rw [e3]; rfl
  refine ⟨t0, t1, ?_, by rw [e3], by rw [e3], by rw [e3], by rw [hp]; exact h5, by rw [hp]; exact e2⟩
  unfold suite
  simp only [h1, h2, Res.ok_bind, if_true]
  cases hg : getInstanceIndices e.1 ini.defaultInstances with
  | ok o =>
    rw [hg, Res.ok_bind] at h3
    rw [Res.ok_bind, h3, Res.ok_bind]
    exact e1
  | error => rw [hg] at h3; simp at h3
  | assertFail => rw [hg] at h3; simp at h3
  | ub => rw [hg] at h3; simp at h3

/-- The ranges of the example below. -/
def exRanges (k : List Char) : List Str.Spec.Item :=
  if k = "function_indices".toList then [.num ['2'], .range ['2', '0'] ['3', '0']] else [.num ['1']]

/-- The option string of the example below is a selection. -/
theorem exSelection : Spec.Selection 4096
    [("function_indices".toList, " 2, 20-30 ".toList), ("dimension_indices".toList, "1".toList)] exRanges := by
  have e1 : exRanges "function_indices".toList = [.num ['2'], .range ['2', '0'] ['3', '0']] := if_pos rfl
  have e2 : exRanges "dimension_indices".toList = [.num ['1']] := if_neg (by decide +kernel)
  refine ⟨by simp, by decide +kernel, by decide +kernel, ?_, by decide +kernel, by decide +kernel⟩
  intro it hit
  rcases List.mem_cons.1 hit with rfl | hit
  · show Spec.Listed " 2, 20-30 ".toList (exRanges "function_indices".toList)
    rw [e1]
    refine ⟨by simp, ?_, by decide +kernel⟩
    intro it hit
    rcases List.mem_cons.1 hit with rfl | hit
    · exact ⟨by decide, by decide, by decide⟩
    · rw [List.mem_singleton] at hit
      subst hit
      exact ⟨⟨by decide, by decide, by decide⟩, ⟨by decide, by decide, by decide⟩⟩
  · rw [List.mem_singleton] at hit
    subst hit
    show Spec.Listed "1".toList (exRanges "dimension_indices".toList)
    rw [e2]
    refine ⟨by simp, ?_, by decide +kernel⟩
    intro it hit
    rw [List.mem_singleton] at hit
    subst hit
    exact ⟨by decide, by decide, by decide⟩

/-- The premises of `C66_options_select` are met by the bbob suite with
"function_indices: 2, 20-30 dimension_indices:1". -/
example : ∃ s1 s2, suite 4096 "bbob" [] "function_indices: 2, 20-30 dimension_indices:1".toList = .ok (some s1) ∧
    s1.dimensions = [2, 0, 0, 0, 0, 0] ∧
    s1.functions = [0, 2, 0, 0, 0, 0, 0, 0, 0, 0, 0, 0, 0, 0, 0, 0, 0, 0, 0, 20, 21, 22, 23, 24] ∧
    Suite.runN ((Suite.Spec.problems s1).length + 1) s1
      = .ok ((Suite.Spec.problems s1).map some ++ [none], s2) := by
  obtain ⟨s0, _, h0, hf, hd, hi, _⟩ := C67_default_suites 4096
    ("bbob", List.range' 1 24, [2, 3, 5, 10, 20, 40], [1, 2, 3, 4, 5] ++ List.range' 71 10)
    (by simp [Spec.documented])
  simp only at hf hd hi
  obtain ⟨s1, s2, h1, h2, h3, h4, h5⟩ := C66_options_select 4096 "bbob" [] s0 h0 _ exRanges exSelection
    (by rw [hf]; intro _; decide +kernel) (by rw [hd]; intro _; decide +kernel)
    (by intro hm; exact absurd hm (by decide +kernel))
  have e : Spec.optionText [("function_indices".toList, " 2, 20-30 ".toList), ("dimension_indices".toList, "1".toList)]
      = "function_indices: 2, 20-30 dimension_indices:1".toList := by decide +kernel
  rw [e] at h1
  refine ⟨s1, s2, h1, ?_, ?_, h5⟩
  · rw [h3, hd]; decide +kernel
  · rw [h2, hf]; decide +kernel

end Construct
