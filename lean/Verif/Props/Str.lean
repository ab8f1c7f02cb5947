import Verif.Lemmas.Str

/-!
Properties C10, C11, C13 and C16: string search, splitting, trimming and range parsing
(`/repo/src/coco_string.c`).
-/

namespace Str
open CStr

/-! ### C13 -/

/-- **C13.** For a non-empty `seq`, `coco_strfind` returns the smallest position at which `seq` occurs in
`base`, and -1 iff it occurs nowhere (strings up to 10^9 characters; longer ones can abort). No character
beyond a terminator is read. -/
theorem C13_strfind (base seq : List Char) (hseq : seq ≠ []) (hb : base.length ≤ 1000000000) :
    (strfind base seq = .ok (-1) ∧ ∀ k, ¬ Spec.OccursAt base seq k) ∨
    (∃ k : Nat, strfind base seq = .ok (k : Int) ∧ Spec.OccursAt base seq k ∧
      ∀ k', k' < k → ¬ Spec.OccursAt base seq k') := by
  unfold strfind
  by_cases h : base.length < seq.length
  · simp only [h, if_true]
    left
    refine ⟨trivial, ?_⟩
    intro k hk
    have := occursAt_le hk
    omega
  · simp only [h, if_false]
    rcases strfindFrom_spec base seq hseq hb (base.length - seq.length + 1) 0 (by omega) with ⟨e, h⟩ | ⟨k, _, e, ho, h⟩
    · left; exact ⟨e, fun k => h k (by omega)⟩
    · right; exact ⟨k, e, ho, fun k' => h k' (by omega)⟩

example : strfind "abcabd".toList "abd".toList = .ok 3 ∧ strfind "abc".toList "abd".toList = .ok (-1) ∧
    strfind "ab".toList "abd".toList = .ok (-1) := by decide

/-! ### C16 -/

/-- **C16** (splitting). `coco_string_split` returns, in order, the non-empty pieces between delimiters; it
never overruns its pointer array. -/
theorem C16_split (s : List Char) (d : Char) :
    split s d = .ok ((s.splitOn d).filter (fun p => p ≠ [])) := by
  rw [split_eq]
  congr 1
  have key : ∀ (s cur : List Char),
      strtok d cur s = (List.splitOnPPrepend (· == d) s cur).filter (fun p => p ≠ []) := by
    intro s
    induction s with
    | nil =>
      intro cur
      unfold strtok
      rw [List.splitOnPPrepend_nil]
      by_cases h : cur = [] <;> simp [h]
    | cons c cs ih =>
      intro cur
      unfold strtok
      by_cases hc : c = d
      · subst hc
        have e := ih []
        rw [List.splitOnPPrepend_nil_right] at e
        rw [List.splitOnPPrepend_cons_pos (by simp)]
        by_cases h : cur = [] <;> simp [h, e]
      · rw [List.splitOnPPrepend_cons_neg (by simpa using hc)]
        simp only [hc, if_false]
        exact ih (c :: cur)
  exact key s []

example : split ",a,,bc,".toList ',' = .ok ["a".toList, "bc".toList] := by decide

theorem allSpace_eq (s : List Char) : allSpace s = s.all isSpace := by
  induction s with
  | nil => rfl
  | cons c cs ih => unfold allSpace; by_cases h : isSpace c <;> simp [h, ih]

theorem frontPos_spec (s : List Char) (h : ¬ s.all isSpace = true) :
    ∃ c, s.drop (frontPos s) = c :: s.drop (frontPos s + 1) ∧ isSpace c = false ∧
      s.drop (frontPos s) = s.dropWhile isSpace ∧ frontPos s < s.length ∧ s[frontPos s]? = some c := by
  induction s with
  | nil => simp at h
  | cons a s ih =>
    unfold frontPos
    by_cases ha : isSpace a
    · have h' : ¬ s.all isSpace = true := by
        intro hs; apply h; simp [ha]; simpa using hs
      obtain ⟨c, h1, h2, h3, h4, h5⟩ := ih h'
      refine ⟨c, ?_, h2, ?_, ?_, ?_⟩
      · simp only [ha, if_true, List.drop_succ_cons]; exact h1
      · simp only [ha, if_true, List.drop_succ_cons]; rw [h3]; simp [ha]
      · simp [ha, h4]
      · simp [ha, h5]
    · refine ⟨a, by simp [ha], by simpa using ha, by simp [ha], by simp [ha], by simp [ha]⟩

theorem endPos_spec (s : List Char) (front : Nat) (c : Char) (hc : s[front]? = some c)
    (hcs : isSpace c = false) (e : Nat) (he : front < e) (hl : e ≤ s.length) :
    front ≤ endPos s front e ∧ endPos s front e < e ∧
      (∃ c', s[endPos s front e]? = some c' ∧ isSpace c' = false) ∧
      ∀ k, endPos s front e < k → k < e → ∀ x, s[k]? = some x → isSpace x = true := by
  induction e with
  | zero => omega
  | succ e ih =>
    unfold endPos
    have hlt : e < s.length := by omega
    rw [List.getElem?_eq_getElem hlt]
    simp only
    by_cases hx : (isSpace s[e] && e != front) = true
    · simp only [hx, if_true]
      simp only [Bool.and_eq_true, bne_iff_ne, ne_eq] at hx
      obtain ⟨i1, i2, i3, i4⟩ := ih (by omega) (by omega)
      refine ⟨i1, by omega, i3, ?_⟩
      intro k h1 h2 x hxk
      by_cases hke : k = e
      · subst hke
        rw [List.getElem?_eq_getElem hlt] at hxk
        rw [← Option.some.inj hxk]; exact hx.1
      · exact i4 k h1 (by omega) x hxk
    · simp only [hx]
      refine ⟨by simp; omega, by simp, ?_, ?_⟩
      · simp only [Bool.false_eq_true, if_false]
        refine ⟨s[e], List.getElem?_eq_getElem hlt, ?_⟩
        by_cases hef : e = front
        · subst hef
          rw [List.getElem?_eq_getElem hlt] at hc
          rw [Option.some.inj hc]; exact hcs
        · cases hsp : isSpace s[e] with
          | false => rfl
          | true => exfalso; apply hx; simp [hsp, hef]
      · simp only [Bool.false_eq_true, if_false]
        intro k h1 h2; omega

theorem untilNul_eq (s : List Char) (h : nul ∉ s) : untilNul s = s := by
  induction s with
  | nil => rfl
  | cons c cs ih =>
    simp only [List.mem_cons, not_or] at h
    unfold untilNul
    have : c ≠ nul := fun e => h.1 e.symm
    simp [this, ih h.2]

theorem untilNul_append (s t : List Char) (h : nul ∉ s) : untilNul (s ++ nul :: t) = s := by
  induction s with
  | nil => simp [untilNul]
  | cons c cs ih =>
    simp only [List.mem_cons, not_or] at h
    rw [List.cons_append, untilNul]
    have : c ≠ nul := fun e => h.1 e.symm
    simp [this, ih h.2]

/-- The maximal part of `s` without white space at both ends. -/
def Spec.trimmed (s : List Char) : List Char :=
  ((s.dropWhile isSpace).reverse.dropWhile isSpace).reverse

/-- **C16** (trimming). `coco_string_trim` removes exactly the maximal leading and trailing white space. -/
theorem C16_trim (s : List Char) (hnul : nul ∉ s) : trim s = Spec.trimmed s := by
  unfold trim
  by_cases h0 : s = []
  · subst h0; rfl
  simp only [h0, if_false]
  rw [allSpace_eq]
  by_cases hall : s.all isSpace = true
  · simp only [hall, if_true]
    have : s.dropWhile isSpace = [] := by
      clear hnul h0
      induction s with
      | nil => rfl
      | cons a s ih =>
        simp only [List.all_cons, Bool.and_eq_true] at hall
        rw [List.dropWhile_cons_of_pos hall.1]
        exact ih hall.2
    simp [Spec.trimmed, this]
  simp only [hall, if_false, Bool.false_eq_true]
  obtain ⟨c, f1, f2, f3, f4, f5⟩ := frontPos_spec s hall
  generalize hF : frontPos s = front at *
  have hne : s.length ≠ front := by omega
  simp only [hne, ne_eq, not_false_eq_true, if_true]
  obtain ⟨e1, e2, ⟨c', e3, e3'⟩, e4⟩ := endPos_spec s front c f5 f2 s.length f4 (Nat.le_refl _)
  generalize hE : endPos s front s.length = e at *
  -- the result in terms of take and drop
  have hdw : s.dropWhile isSpace = s.drop front := f3.symm
  have hmid : s.drop front = (s.drop front).take (e + 1 - front) ++ s.drop (e + 1) := by
    conv => lhs; rw [← List.take_append_drop (e + 1 - front) (s.drop front)]
    rw [List.drop_drop]
    congr 2; omega
  have hspec : Spec.trimmed s = (s.drop front).take (e + 1 - front) := by
    unfold Spec.trimmed
    rw [hdw, hmid, List.reverse_append, List.dropWhile_append_of_pos]
    · rw [← hmid]
      have hlast : (s.drop front).take (e + 1 - front) = (s.drop front).take (e - front) ++ [c'] := by
        rw [show e + 1 - front = (e - front) + 1 by omega, List.take_add_one, List.getElem?_drop,
          show front + (e - front) = e by omega, e3]
        rfl
      rw [hlast, List.reverse_append]
      simp only [List.reverse_cons, List.reverse_nil, List.nil_append, List.cons_append]
      rw [List.dropWhile_cons_of_neg (by simp [e3'])]
      simp
    · intro x hx
      rw [List.mem_reverse] at hx
      obtain ⟨k, hk, rfl⟩ := List.getElem_of_mem hx
      rw [List.getElem_drop]
      rw [List.length_drop] at hk
      exact e4 (e + 1 + k) (by omega) (by omega) _ (List.getElem?_eq_getElem _)
  rw [hspec]
  have hnul' : nul ∉ (s.drop front).take (e + 1 - front) := fun h =>
    hnul (List.mem_of_mem_drop (List.mem_of_mem_take h))
  by_cases hlast : s.length - 1 = e
  · have hfull : (s.drop front).take (e + 1 - front) = s.drop front := by
      rw [List.take_of_length_le]; rw [List.length_drop]; omega
    have hnd : nul ∉ s.drop front := fun h => hnul (List.mem_of_mem_drop h)
    simp only [hlast, not_true_eq_false, if_false]
    rw [hfull]
    by_cases hf0 : front = 0
    · subst hf0
      simp only [not_true_eq_false, false_and, if_false, List.drop_zero]
      exact untilNul_eq s hnul
    · simp only [hf0, not_false_eq_true, true_and, if_true]
      by_cases hef : e = front
      · simp only [hef, if_true]
        rw [List.drop_set_of_lt (by omega)]
        exact untilNul_eq _ hnd
      · simp only [hef, if_false]
        exact untilNul_eq _ hnd
  · simp only [hlast, not_false_eq_true, if_true]
    have hset : ∀ a, a ≤ e → (s.set (e + 1) nul).drop a
        = (s.drop a).take (e + 1 - a) ++ nul :: s.drop (e + 2) := by
      intro a ha
      rw [List.set_eq_take_append_cons_drop]
      have : e + 1 < s.length := by omega
      simp only [this, if_true]
      rw [List.drop_append_of_le_length (by rw [List.length_take]; omega), List.drop_take]
    by_cases hf0 : front = 0
    · subst hf0
      simp only [not_true_eq_false, if_false]
      have := hset 0 (by omega)
      rw [List.drop_zero] at this
      rw [this]
      exact untilNul_append _ _ hnul'
    · simp only [hf0, not_false_eq_true, if_true]
      rw [hset front e1]
      exact untilNul_append _ _ hnul'

example : nul ∉ "  a b ".toList ∧ trim "  a b ".toList = "a b".toList ∧ trim " a".toList = "a".toList ∧
    trim "   ".toList = [] := by decide

/-! ### C10 and C11 -/

/-- An item of a range list; the numbers are given by their digits. -/
inductive Spec.Item
  | num (n : List Char)
  | range (a b : List Char)
  | upTo (b : List Char)
  | fromOn (a : List Char)
  | any

/-- A number: digits, at least one, representable as a `long`. -/
def Spec.Number (ds : List Char) : Prop := ds ≠ [] ∧ (∀ c ∈ ds, isDigit c = true) ∧ decimal ds < 2 ^ 63

def Spec.Item.Ok : Spec.Item → Prop
  | .num n => Spec.Number n
  | .range a b => Spec.Number a ∧ Spec.Number b
  | .upTo b => Spec.Number b
  | .fromOn a => Spec.Number a
  | .any => True

/-- How an item is written. -/
def Spec.Item.text : Spec.Item → List Char
  | .num n => n
  | .range a b => a ++ '-' :: b
  | .upTo b => '-' :: b
  | .fromOn a => a ++ ['-']
  | .any => ['-']

/-- The numbers from `lo` to `hi` that are allowed by the bounds (a bound 0 means "no bound"). -/
def Spec.clipped (min max lo hi : Nat) : List Nat :=
  (List.range (hi + 1)).filter fun x => decide (lo ≤ x ∧ min ≤ x ∧ (max = 0 ∨ x ≤ max))

/-- The numbers an item denotes; open ends need the corresponding bound. -/
def Spec.Item.numbers (min max : Nat) : Spec.Item → List Nat
  | .num n => Spec.clipped min max (decimal n) (decimal n)
  | .range a b => Spec.clipped min max (decimal a) (decimal b)
  | .upTo b => if min = 0 then [] else Spec.clipped min max min (decimal b)
  | .fromOn a => if max = 0 then [] else Spec.clipped min max (decimal a) max
  | .any => if min = 0 ∨ max = 0 then [] else Spec.clipped min max min max

/-- The documented result: "if there is a problem with one of the ranges, the parsing stops and the current
result is returned". -/
def Spec.expected (min max : Nat) : List Spec.Item → List Nat
  | [] => []
  | it :: its => if it.numbers min max = [] then [] else it.numbers min max ++ Spec.expected min max its

theorem digit_ne {c : Char} (h : isDigit c = true) : c ≠ '-' ∧ c ≠ ',' := by
  constructor <;>
  · rintro rfl
    revert h; decide

theorem number_dash {ds : List Char} (h : Spec.Number ds) : '-' ∉ ds ∧ ',' ∉ ds :=
  ⟨fun hm => (digit_ne (h.2.1 _ hm)).1 rfl, fun hm => (digit_ne (h.2.1 _ hm)).2 rfl⟩

theorem strtol_number {ds : List Char} (h : Spec.Number ds) : strtol ds = decimal ds := by
  unfold strtol
  have := h.2.2
  omega

theorem filter_dash {ds : List Char} (h : '-' ∉ ds) : ds.filter (· == '-') = [] := by
  rw [List.filter_eq_nil_iff]
  intro a ha e
  simp at e
  exact h (e ▸ ha)

theorem strtok_single (d : Char) (l : List Char) (h1 : l ≠ []) (h2 : d ∉ l) : strtok d [] l = [l] := by
  have := strtok_intercalate d [l] (by simpa using ⟨h1, h2⟩)
  simpa [List.intercalate] using this

/-- The bounds of an item before clipping, as in `pieceBounds`. -/
theorem pieceBounds_text (min max : Nat) (it : Spec.Item) (hok : it.Ok) :
    pieceBounds min max it.text = .ok (match it with
      | .num n => some (decimal n, decimal n)
      | .range a b => some (decimal a, decimal b)
      | .upTo b => if min = 0 then none else some (min, decimal b)
      | .fromOn a => if max = 0 then none else some (decimal a, max)
      | .any => if min = 0 ∨ max = 0 then none else some (min, max)) := by
  cases it with
  | num n =>
    have hn : Spec.Number n := hok
    simp [pieceBounds, Spec.Item.text, filter_dash (number_dash hn).1, strtol_number hn]
  | range a b =>
    obtain ⟨ha, hb⟩ : Spec.Number a ∧ Spec.Number b := hok
    have hs : split (a ++ '-' :: b) '-' = .ok [a, b] := by
      rw [split_eq]
      have := strtok_intercalate '-' [a, b] (by
        intro p hp
        simp only [List.mem_cons, List.not_mem_nil, or_false] at hp
        rcases hp with rfl | rfl
        · exact ⟨ha.1, (number_dash ha).1⟩
        · exact ⟨hb.1, (number_dash hb).1⟩)
      simpa [List.intercalate] using this
    simp [pieceBounds, Spec.Item.text, filter_dash (number_dash ha).1, filter_dash (number_dash hb).1, hs,
      strtol_number ha, strtol_number hb]
  | upTo b =>
    have hb : Spec.Number b := hok
    have hs : split ('-' :: b) '-' = .ok [b] := by
      rw [split_eq, strtok]
      simp [strtok_single '-' b hb.1 (number_dash hb).1]
    simp only [pieceBounds, Spec.Item.text, hs]
    simp [filter_dash (number_dash hb).1, strtol_number hb]
    split <;> rfl
  | fromOn a =>
    have ha : Spec.Number a := hok
    have hs : split (a ++ ['-']) '-' = .ok [a] := by
      rw [split_eq, strtok_append '-' a [] ['-'] (number_dash ha).1]
      simp [strtok, ha.1]
    have hidx : (a ++ ['-']).idxOf '-' ≠ 0 := by
      cases a with
      | nil => exact absurd rfl ha.1
      | cons c cs =>
        have : c ≠ '-' := (digit_ne (ha.2.1 c (by simp))).1
        have hb : (c == '-') = false := by simpa using this
        simp [List.idxOf_cons, hb]
    simp only [pieceBounds, Spec.Item.text, hs]
    simp only [Res.ok_bind, hidx, if_false]
    simp [filter_dash (number_dash ha).1, strtol_number ha]
    split <;> rfl
  | any =>
    have hs : split ['-'] '-' = .ok [] := by decide
    simp only [pieceBounds, Spec.Item.text, hs]
    simp
    split <;> rfl

theorem clipped_eq (min max n0 n1 : Nat) :
    Spec.clipped min max n0 n1 =
      List.range' (if min > 0 ∧ n0 < min then min else n0)
        ((if max > 0 ∧ n1 > max then max else n1) + 1 - (if min > 0 ∧ n0 < min then min else n0)) := by
  have h1 : (if min > 0 ∧ n0 < min then min else n0) = Max.max n0 min := by
    split <;> omega
  rw [h1]
  generalize hlo : Max.max n0 min = lo
  generalize hhi : (if max > 0 ∧ n1 > max then max else n1) = hi
  have hlo' : ∀ x, lo ≤ x ↔ n0 ≤ x ∧ min ≤ x := by
    intro x; omega
  have hhi' : ∀ x, x ≤ hi ↔ x ≤ n1 ∧ (max = 0 ∨ x ≤ max) := by
    intro x; rw [← hhi]; split <;> omega
  have hhin : hi ≤ n1 := ((hhi' hi).1 (Nat.le_refl _)).1
  unfold Spec.clipped
  have e : (fun x => decide (n0 ≤ x ∧ min ≤ x ∧ (max = 0 ∨ x ≤ max)))
      = fun x => decide (lo ≤ x ∧ (max = 0 ∨ x ≤ max)) := by
    funext x; simp only [hlo' x, and_assoc]
  rw [e]
  -- both sides are sorted lists with the same members
  have s1 : ((List.range (n1 + 1)).filter fun x => decide (lo ≤ x ∧ (max = 0 ∨ x ≤ max))).Pairwise (· < ·) :=
    List.Pairwise.filter _ List.pairwise_lt_range
  have s2 : (List.range' lo (hi + 1 - lo)).Pairwise (· < ·) := List.pairwise_lt_range'
  apply List.Perm.eq_of_pairwise (le := (· < ·)) _ s1 s2
  · rw [List.perm_ext_iff_of_nodup (s1.imp Nat.ne_of_lt) (s2.imp Nat.ne_of_lt)]
    intro x
    simp only [List.mem_filter, List.mem_range, decide_eq_true_eq, List.mem_range'_1]
    have := hhi' x
    constructor
    · rintro ⟨a1, a2, a3⟩
      have := this.2 ⟨by omega, a3⟩
      omega
    · rintro ⟨a1, a2⟩
      obtain ⟨b1, b2⟩ := this.1 (by omega)
      exact ⟨by omega, a1, b2⟩
  · intro a b _ _ h1 h2; omega

theorem parsePieces_expected (min max maxCount : Nat) (hmc : 0 < maxCount) (items : List Spec.Item)
    (hok : ∀ it ∈ items, it.Ok) (acc : List Nat) (hacc : acc.length ≤ maxCount) :
    parsePieces min max maxCount (items.map Spec.Item.text) acc
      = .ok ((acc ++ Spec.expected min max items).take maxCount) := by
  induction items generalizing acc with
  | nil => simp [parsePieces, Spec.expected, List.take_of_length_le hacc]
  | cons it items ih =>
    have hit := hok it (by simp)
    have hits := fun i hi => hok i (List.mem_cons_of_mem _ hi)
    rw [List.map_cons, parsePieces, pieceBounds_text min max it hit]
    -- the common continuation once the bounds are known
    have step : ∀ n0 n1, it.numbers min max = Spec.clipped min max n0 n1 →
        (if (if min > 0 ∧ n0 < min then min else n0) > (if max > 0 ∧ n1 > max then max else n1) then
            (Res.ok acc : Res (List Nat))
          else (writeNumbers maxCount ((if max > 0 ∧ n1 > max then max else n1) + 1
              - (if min > 0 ∧ n0 < min then min else n0)) (if min > 0 ∧ n0 < min then min else n0) acc).bind
              fun acc => parsePieces min max maxCount (items.map Spec.Item.text) acc)
        = .ok ((acc ++ Spec.expected min max (it :: items)).take maxCount) := by
      intro n0 n1 hnum
      rw [clipped_eq] at hnum
      generalize (if min > 0 ∧ n0 < min then min else n0) = lo at *
      generalize (if max > 0 ∧ n1 > max then max else n1) = hi at *
      unfold Spec.expected
      by_cases hgt : lo > hi
      · have : it.numbers min max = [] := by rw [hnum, show hi + 1 - lo = 0 by omega]; rfl
        simp only [hgt, if_true, this, List.append_nil]
        rw [List.take_of_length_le hacc]
      · have hne : it.numbers min max ≠ [] := by
          rw [hnum]; intro h
          have := congrArg List.length h
          simp at this; omega
        simp only [hgt, if_false, hne]
        rw [writeNumbers_eq maxCount hmc _ _ _ hacc, Res.ok_bind,
          ih hits _ (by rw [List.length_take]; omega), ← hnum, ← List.append_assoc]
        congr 1
        generalize acc ++ it.numbers min max = l
        generalize Spec.expected min max items = r
        rw [List.take_append, List.take_append, List.take_take, Nat.min_self]
        by_cases hl : l.length ≤ maxCount
        · rw [List.take_of_length_le hl]
        · have h1 : maxCount - l.length = 0 := by omega
          have h2 : maxCount - (l.take maxCount).length = 0 := by rw [List.length_take]; omega
          rw [h1, h2]
    have stop : it.numbers min max = [] →
        (Res.ok acc : Res (List Nat)) = .ok ((acc ++ Spec.expected min max (it :: items)).take maxCount) := by
      intro h
      unfold Spec.expected
      simp [h, List.take_of_length_le hacc]
    cases it with
    | num n => exact step _ _ rfl
    | range a b => exact step _ _ rfl
    | upTo b =>
      by_cases h : min = 0
      · simpa [h] using stop (by simp [Spec.Item.numbers, h])
      · simp only [h, if_false, Res.ok_bind]
        exact step _ _ (by simp [Spec.Item.numbers, h])
    | fromOn a =>
      by_cases h : max = 0
      · simpa [h] using stop (by simp [Spec.Item.numbers, h])
      · simp only [h, if_false, Res.ok_bind]
        exact step _ _ (by simp [Spec.Item.numbers, h])
    | any =>
      by_cases h : min = 0 ∨ max = 0
      · simpa [h] using stop (by simp [Spec.Item.numbers, h])
      · simp only [h, if_false, Res.ok_bind]
        exact step _ _ (by simp [Spec.Item.numbers, h])

theorem text_ok (it : Spec.Item) (hok : it.Ok) :
    it.text ≠ [] ∧ ',' ∉ it.text ∧ ∀ c ∈ it.text, c = '-' ∨ isDigit c = true := by
  cases it with
  | num n =>
    have h : Spec.Number n := hok
    exact ⟨h.1, (number_dash h).2, fun c hc => .inr (h.2.1 c hc)⟩
  | range a b =>
    obtain ⟨ha, hb⟩ : Spec.Number a ∧ Spec.Number b := hok
    refine ⟨by simp [Spec.Item.text], ?_, ?_⟩
    · simp [Spec.Item.text, (number_dash ha).2, (number_dash hb).2]
    · intro c hc
      simp only [Spec.Item.text, List.mem_append, List.mem_cons] at hc
      rcases hc with h | h | h
      · exact .inr (ha.2.1 c h)
      · exact .inl h
      · exact .inr (hb.2.1 c h)
  | upTo b =>
    have h : Spec.Number b := hok
    refine ⟨by simp [Spec.Item.text], by simp [Spec.Item.text, (number_dash h).2], ?_⟩
    intro c hc
    simp only [Spec.Item.text, List.mem_cons] at hc
    rcases hc with h' | h'
    · exact .inl h'
    · exact .inr (h.2.1 c h')
  | fromOn a =>
    have h : Spec.Number a := hok
    refine ⟨by simp [Spec.Item.text], by simp [Spec.Item.text, (number_dash h).2], ?_⟩
    intro c hc
    simp only [Spec.Item.text, List.mem_append, List.mem_cons, List.not_mem_nil, or_false] at hc
    rcases hc with h' | h'
    · exact .inr (h.2.1 c h')
    · exact .inl h'
  | any => simp [Spec.Item.text]

theorem mem_intercalate {d c : Char} {ps : List (List Char)} (h : c ∈ List.intercalate [d] ps) :
    c = d ∨ ∃ p ∈ ps, c ∈ p := by
  induction ps with
  | nil => simp [List.intercalate] at h
  | cons p ps ih =>
    cases ps with
    | nil =>
      right; exact ⟨p, by simp, by simpa [List.intercalate] using h⟩
    | cons q qs =>
      have e : List.intercalate [d] (p :: q :: qs) = p ++ (d :: List.intercalate [d] (q :: qs)) := by
        simp [List.intercalate]
      rw [e] at h
      simp only [List.mem_append, List.mem_cons] at h
      rcases h with h | h | h
      · right; exact ⟨p, by simp, h⟩
      · left; exact h
      · rcases ih h with h | ⟨r, hr, hc⟩
        · left; exact h
        · right; exact ⟨r, by simp only [List.mem_cons] at hr ⊢; right; exact hr, hc⟩

/-- **C10.** Parsing a comma-separated list of items returns the concatenation of the numbers they denote
within the bounds (at most `maxCount` of them), up to the first item that denotes no number; NULL if there
is no number at all. -/
theorem C10_parse_ranges (min max maxCount : Nat) (hmc : 0 < maxCount) (hb : max = 0 ∨ min ≤ max)
    (items : List Spec.Item) (hne : items ≠ []) (hok : ∀ it ∈ items, it.Ok) :
    parseRanges (List.intercalate [','] (items.map Spec.Item.text)) min max maxCount
      = .ok (if Spec.expected min max items = [] then none
             else some ((Spec.expected min max items).take maxCount)) := by
  have hpieces : ∀ p ∈ items.map Spec.Item.text, p ≠ [] ∧ ',' ∉ p := by
    intro p hp
    rw [List.mem_map] at hp
    obtain ⟨it, hit, rfl⟩ := hp
    exact ⟨(text_ok it (hok it hit)).1, (text_ok it (hok it hit)).2.1⟩
  have htok := strtok_intercalate ',' (items.map Spec.Item.text) hpieces
  have h1 : List.intercalate [','] (items.map Spec.Item.text) ≠ [] := by
    intro h
    rw [h] at htok
    simp [strtok] at htok
    exact hne htok
  have h2 : (List.intercalate [','] (items.map Spec.Item.text)).any
      (fun c => c != '-' && c != ',' && !isDigit c) = false := by
    rw [List.any_eq_false]
    intro c hc
    rcases mem_intercalate hc with h | ⟨l, h, hcl⟩
    · simp [h]
    · rw [List.mem_map] at h
      obtain ⟨it, hit, rfl⟩ := h
      rcases (text_ok it (hok it hit)).2.2 c hcl with h | h <;> simp [h]
  unfold parseRanges
  have h3 : ¬ (max > 0 ∧ min > max) := by omega
  rw [split_eq, htok]
  simp only [h1, h2, h3, if_false, Res.ok_bind, Bool.false_eq_true]
  rw [parsePieces_expected min max maxCount hmc items hok [] (by simp)]
  simp only [Res.ok_bind, List.nil_append]
  by_cases he : Spec.expected min max items = []
  · simp [he]
  · have hl : (Spec.expected min max items).length ≠ 0 := by
      rw [ne_eq, List.length_eq_zero_iff]; exact he
    have h4 : ((Spec.expected min max items).take maxCount).length ≠ 0 := by
      rw [List.length_take]; omega
    have h5 : ((Spec.expected min max items).take maxCount).length < maxCount + 1 := by
      rw [List.length_take]; omega
    simp only [h4, h5, he, if_true, if_false]

/-- The items of `"5-6,8,-3,20-"` are well formed. -/
example : ∃ items : List Spec.Item, (∀ it ∈ items, it.Ok) ∧ items ≠ [] ∧
    List.intercalate [','] (items.map Spec.Item.text) = "5-6,8,-3,20-".toList ∧
    Spec.expected 2 22 items = [5, 6, 8, 2, 3, 20, 21, 22] := by
  refine ⟨[.range ['5'] ['6'], .num ['8'], .upTo ['3'], .fromOn ['2', '0']], ?_, by simp, by decide, by decide⟩
  intro it hit
  simp only [List.mem_cons, List.not_mem_nil, or_false] at hit
  rcases hit with rfl | rfl | rfl | rfl <;>
    simp [Spec.Item.Ok, Spec.Number, isDigit, decimal, digitVal]

/-- What parsing any list of pieces preserves: no overrun, no assertion failure, all numbers in bounds. -/
theorem parsePieces_safe (min max maxCount : Nat) (hmc : 0 < maxCount) (pieces : List (List Char))
    (acc : List Nat) (hacc : acc.length ≤ maxCount)
    (hin : ∀ x ∈ acc, min ≤ x ∧ (max = 0 ∨ x ≤ max)) :
    ∃ l, parsePieces min max maxCount pieces acc = .ok l ∧ l.length ≤ maxCount ∧
      ∀ x ∈ l, min ≤ x ∧ (max = 0 ∨ x ≤ max) := by
  induction pieces generalizing acc with
  | nil => exact ⟨acc, rfl, hacc, hin⟩
  | cons p ps ih =>
    unfold parsePieces
    have hpb : ∃ o, pieceBounds min max p = .ok o := by
      unfold pieceBounds
      have hle := strtok_length '-' p []
      simp only [split_eq, Res.ok_bind]
      split
      · exact ⟨_, rfl⟩
      · split
        · exact ⟨_, rfl⟩
        · rename_i h1 h2
          match hm : strtok '-' [] p with
          | [] => simp only; split <;> exact ⟨_, rfl⟩
          | [a] => simp only; split <;> split <;> exact ⟨_, rfl⟩
          | [a, b] => exact ⟨_, rfl⟩
          | a :: b :: c :: r =>
            exfalso
            rw [hm] at hle
            simp only [List.length_cons] at hle
            omega
    obtain ⟨o, ho⟩ := hpb
    rw [ho]
    cases o with
    | none => exact ⟨acc, rfl, hacc, hin⟩
    | some b =>
      obtain ⟨n0, n1⟩ := b
      simp only [Res.ok_bind]
      have hlo : min ≤ (if min > 0 ∧ n0 < min then min else n0) := by split <;> omega
      have hhi : max = 0 ∨ (if max > 0 ∧ n1 > max then max else n1) ≤ max := by split <;> omega
      generalize (if min > 0 ∧ n0 < min then min else n0) = lo at *
      generalize (if max > 0 ∧ n1 > max then max else n1) = hi at *
      by_cases hgt : lo > hi
      · simp only [hgt, if_true]; exact ⟨acc, rfl, hacc, hin⟩
      · simp only [hgt, if_false]
        rw [writeNumbers_eq maxCount hmc _ _ _ hacc, Res.ok_bind]
        apply ih
        · rw [List.length_take]; omega
        · intro x hx
          have := List.mem_of_mem_take hx
          rw [List.mem_append, List.mem_range'_1] at this
          rcases this with h | h
          · exact hin x h
          · exact ⟨by omega, by omega⟩

/-- **C11.** For *every* string: parsing neither overruns the result buffer nor fails an assertion; at
most `maxCount` numbers are returned, at least one if the result is not NULL, and for `min ≥ 1` the
terminating 0 is not preceded by another 0. -/
theorem C11_parse_ranges_safe (s : List Char) (min max maxCount : Nat) (hmc : 0 < maxCount) :
    parseRanges s min max maxCount = .ok none ∨
    ∃ l, parseRanges s min max maxCount = .ok (some l) ∧ 0 < l.length ∧ l.length ≤ maxCount ∧
      (1 ≤ min → 0 ∉ l) := by
  unfold parseRanges
  by_cases h1 : s = []
  · left; simp [h1]
  by_cases h2 : s.any (fun c => c != '-' && c != ',' && !isDigit c) = true
  · left; simp [h1, h2]
  by_cases h3 : max > 0 ∧ min > max
  · left; simp only [h1, h2, h3, and_self, if_true, if_false, Bool.false_eq_true]
  obtain ⟨l, e, hl, hin⟩ := parsePieces_safe min max maxCount hmc (strtok ',' [] s) [] (by simp) (by simp)
  simp only [h1, h2, h3, if_false, split_eq, Res.ok_bind, e, Bool.false_eq_true]
  by_cases h0 : l.length = 0
  · left; simp [h0]
  · right
    have : l.length < maxCount + 1 := by omega
    refine ⟨l, by simp [h0, this], by omega, hl, ?_⟩
    intro hmin h
    have := (hin 0 h).1
    omega

/-- **C10** (bounds, for every string). Every returned number lies within the bounds. -/
theorem C10_in_bounds (s : List Char) (min max maxCount : Nat) (hmc : 0 < maxCount) (l : List Nat)
    (h : parseRanges s min max maxCount = .ok (some l)) : ∀ x ∈ l, min ≤ x ∧ (max = 0 ∨ x ≤ max) := by
  unfold parseRanges at h
  by_cases h1 : s = []
  · simp [h1] at h
  by_cases h2 : s.any (fun c => c != '-' && c != ',' && !isDigit c) = true
  · simp [h1, h2] at h
  by_cases h3 : max > 0 ∧ min > max
  · simp only [h1, h2, h3, and_self, if_true, if_false, Bool.false_eq_true] at h
    simp at h
  obtain ⟨l', e, hl, hin⟩ := parsePieces_safe min max maxCount hmc (strtok ',' [] s) [] (by simp) (by simp)
  simp only [h1, h2, h3, if_false, split_eq, Res.ok_bind, e, Bool.false_eq_true] at h
  split at h
  · simp at h
  · split at h
    · simp only [Res.ok.injEq, Option.some.injEq] at h
      rw [← h]; exact hin
    · simp at h

example : parseRanges "7,2-4,x".toList 1 0 1000 = .ok none ∧
    parseRanges "7,,2-4,9-1,5".toList 1 0 1000 = .ok (some [7, 2, 3, 4]) ∧
    parseRanges "1-50".toList 1 0 3 = .ok (some [1, 2, 3]) := by decide

/-- **C11** (refutation for `maxCount = 0`). The limit test wraps around and the buffer is overrun. -/
theorem C11_zero_count_overrun : ∃ s : List Char, parseRanges s 1 0 0 = .ub := ⟨"1-3".toList, by decide⟩

end Str
