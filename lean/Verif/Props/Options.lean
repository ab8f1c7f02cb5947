import Verif.Model.Options
import Verif.Props.Str

/-!
Properties C12, C14 and C15: reading options, redundant option keys, counting numbers
(`/repo/src/coco_utilities.c`).
-/

namespace Options
open CStr Str

/-! ### Locating the value -/

/-- The text `name : value` (with optional text without colon before the colon and white space after it)
stands in `options` after `pre`, and `name` does not occur earlier. -/
structure Spec.Entry (options pre name gap sp body : List Char) : Prop where
  text : options = pre ++ (name ++ (gap ++ (':' :: (sp ++ body))))
  name_ne : name ≠ []
  name_colon : ':' ∉ name
  gap_colon : ':' ∉ gap
  sp_space : ∀ c ∈ sp, isSpace c = true
  first : ∀ k, k < pre.length → ¬ Str.Spec.OccursAt options name k
  len : options.length ≤ 1000000000

theorem strfind_first {base seq : List Char} {i : Nat} (hseq : seq ≠ []) (hb : base.length ≤ 1000000000)
    (ho : Str.Spec.OccursAt base seq i) (hfirst : ∀ k, k < i → ¬ Str.Spec.OccursAt base seq k) :
    strfind base seq = .ok (i : Int) := by
  rcases C13_strfind base seq hseq hb with ⟨_, h⟩ | ⟨k, e, h1, h2⟩
  · exact absurd ho (h i)
  · have a : ¬ k < i := fun h => hfirst k h h1
    have b : ¬ i < k := fun h => h2 i h ho
    rw [e, show k = i by omega]

theorem strfind_absent {base seq : List Char} (hseq : seq ≠ []) (hb : base.length ≤ 1000000000)
    (h : ∀ k, ¬ Str.Spec.OccursAt base seq k) : strfind base seq = .ok (-1) := by
  rcases C13_strfind base seq hseq hb with ⟨e, _⟩ | ⟨k, _, h1, _⟩
  · exact e
  · exact absurd h1 (h k)

theorem occurs_single {s : List Char} {c : Char} {k : Nat} :
    Str.Spec.OccursAt s [c] k ↔ s[k]? = some c := by
  constructor
  · rintro ⟨pre, post, rfl, rfl⟩
    simp
  · intro h
    obtain ⟨hk, e⟩ := List.getElem?_eq_some_iff.1 h
    refine ⟨s.take k, s.drop (k + 1), ?_, by rw [List.length_take]; omega⟩
    rw [List.append_assoc, ← e, List.singleton_append, ← List.drop_eq_getElem_cons hk, List.take_append_drop]

theorem strfind_colon {t r : List Char} (ht : ':' ∉ t) (hl : (t ++ ':' :: r).length ≤ 1000000000) :
    strfind (t ++ ':' :: r) [':'] = .ok (t.length : Int) := by
  apply strfind_first (by simp) hl
  · rw [occurs_single]; simp
  · intro k hk h
    rw [occurs_single, List.getElem?_append_left hk] at h
    exact ht (List.mem_of_getElem? h)

theorem Spec.Entry.strfind_name {options pre name gap sp body : List Char}
    (h : Spec.Entry options pre name gap sp body) : strfind options name = .ok (pre.length : Int) := by
  apply strfind_first h.name_ne h.len _ h.first
  exact ⟨pre, gap ++ (':' :: (sp ++ body)), by rw [h.text]; simp, rfl⟩

theorem Spec.Entry.strfind_colon' {options pre name gap sp body : List Char}
    (h : Spec.Entry options pre name gap sp body) :
    strfind (options.drop pre.length) [':'] = .ok ((name.length + gap.length : Nat) : Int) := by
  have e : options.drop pre.length = (name ++ gap) ++ ':' :: (sp ++ body) := by
    rw [h.text, List.drop_left]; simp
  have hl := h.len
  rw [e]
  have := Options.strfind_colon (t := name ++ gap) (r := sp ++ body)
    (by simp only [List.mem_append, not_or]; exact ⟨h.name_colon, h.gap_colon⟩)
    (by rw [← e, List.length_drop]; omega)
  rw [this]
  simp

theorem skipSpaces_eq (s : List Char) (i : Nat) (hi : i ≤ s.length) (sp body : List Char)
    (e : s.drop i = sp ++ body) (hsp : ∀ c ∈ sp, isSpace c = true)
    (hbody : ∀ c, body.head? = some c → isSpace c = false) : skipSpaces s i = .ok (i + sp.length) := by
  unfold skipSpaces
  simp only [hi, if_true, e]
  congr 2
  clear e
  induction sp with
  | nil =>
    cases body with
    | nil => rfl
    | cons c cs => simp [spaces, hbody c rfl]
  | cons c sp ih =>
    rw [List.cons_append, spaces, hsp c (by simp)]
    simp [ih (fun c hc => hsp c (by simp [hc]))]

/-- Where the value of an entry starts. -/
theorem valueStart_entry {options pre name gap sp body : List Char}
    (h : Spec.Entry options pre name gap sp body)
    (hbody : ∀ c, body.head? = some c → isSpace c = false) :
    ∃ i2, valueStart options name = .ok (some i2) ∧ options.drop i2 = body ∧ i2 ≤ options.length := by
  unfold valueStart
  have hne : options ≠ [] := by rw [h.text]; simp
  have hn0 : ¬ ((pre.length : Int) < 0) := by omega
  simp only [hne, if_false, h.strfind_name, Res.ok_bind, hn0, Int.toNat_natCast, h.strfind_colon']
  have hpos : ((pre.length : Int) + ((name.length + gap.length : Nat) : Int) + 1).toNat
      = pre.length + (name.length + gap.length) + 1 := by omega
  have hdrop : options.drop (pre.length + (name.length + gap.length) + 1) = sp ++ body := by
    have e : options = (pre ++ name ++ gap ++ [':']) ++ (sp ++ body) := by rw [h.text]; simp
    rw [e, List.drop_append_of_le_length (by simp; omega)]
    rw [List.drop_of_length_le (by simp; omega)]
    rfl
  have hlen : pre.length + (name.length + gap.length) + 1 ≤ options.length := by
    rw [h.text]; simp; omega
  rw [hpos, skipSpaces_eq options _ hlen sp body hdrop h.sp_space hbody]
  simp only [Res.ok_bind]
  have hgt : ¬ (((pre.length + (name.length + gap.length) + 1 + sp.length : Nat) : Int) ≤ (pre.length : Int)) := by
    omega
  simp only [hgt, if_false]
  refine ⟨_, rfl, ?_, ?_⟩
  · rw [← List.drop_drop, hdrop, List.drop_left]
  · have := congrArg List.length hdrop
    rw [List.length_drop, List.length_append] at this
    omega

theorem strAt_drop {s body : List Char} {i : Nat} (e : s.drop i = body) (hi : i ≤ s.length) :
    strAt s i = .ok (body.head?.getD nul) := by
  subst e
  unfold strAt
  rw [List.head?_drop]
  cases h : s[i]? with
  | some c => rfl
  | none =>
    rw [List.getElem?_eq_none_iff] at h
    have : i = s.length := by omega
    simp [this]

/-! ### C12 -/

theorem takeWhile_stop {p : Char → Bool} {v rest : List Char} (hv : ∀ c ∈ v, p c = true)
    (hr : ∀ c, rest.head? = some c → p c = false) : (v ++ rest).takeWhile p = v := by
  rw [List.takeWhile_append_of_pos hv]
  cases rest with
  | nil => simp
  | cons c cs => simp [hr c rfl]

/-- **C12** (strings). The value written after the first occurrence of the key is returned, up to the
next white space or the end of the options. -/
theorem C12_read_string {options pre name gap sp v rest : List Char} (cap : Nat)
    (h : Spec.Entry options pre name gap sp (v ++ rest)) (hv : v ≠ [])
    (hvs : ∀ c ∈ v, isSpace c = false) (hq : v.head? ≠ some '"')
    (hr : ∀ c, rest.head? = some c → isSpace c = true) (hcap : v.length < cap) :
    readString options name cap = .ok (1, some v) := by
  have hhead : ∀ c, (v ++ rest).head? = some c → isSpace c = false := by
    intro c hc
    cases v with
    | nil => exact absurd rfl hv
    | cons a v => simp at hc; subst hc; exact hvs a (by simp)
  obtain ⟨i2, e1, e2, e3⟩ := valueStart_entry h hhead
  unfold readString
  rw [e1, Res.ok_bind]
  simp only
  rw [strAt_drop e2 e3, Res.ok_bind]
  have hc : (v ++ rest).head?.getD nul ≠ '"' := by
    cases v with
    | nil => exact absurd rfl hv
    | cons a v =>
      simp only [List.cons_append, List.head?_cons, Option.getD_some]
      intro h; exact hq (by simp [h])
  simp only [hc, if_false]
  have hw : word (options.drop i2) = v := by
    rw [e2]; unfold word
    apply takeWhile_stop
    · intro c hc; simp [hvs c hc]
    · intro c hc; simp [hr c hc]
  rw [hw]
  have : v.length + 1 ≤ cap := by omega
  simp [hv, store, this]

/-- **C12** (quoted strings). A value in double quotes is returned without the quotes. -/
theorem C12_read_quoted {options pre name gap sp v rest : List Char} (cap : Nat)
    (h : Spec.Entry options pre name gap sp ('"' :: (v ++ '"' :: rest))) (hv : v ≠ [])
    (hvq : '"' ∉ v) (hcap : v.length < cap) :
    readString options name cap = .ok (1, some v) := by
  obtain ⟨i2, e1, e2, e3⟩ := valueStart_entry h (by intro c hc; simp at hc; subst hc; decide)
  unfold readString
  rw [e1, Res.ok_bind]
  simp only
  rw [strAt_drop e2 e3, Res.ok_bind]
  simp only [List.head?_cons, Option.getD_some, if_true]
  have ht : (options.drop (i2 + 1)).takeWhile (· != '"') = v := by
    rw [← List.drop_drop, e2, List.drop_succ_cons, List.drop_zero]
    apply takeWhile_stop
    · intro c hc; simp; rintro rfl; exact hvq hc
    · intro c hc; simp at hc; simp [hc.symm]
  rw [ht]
  have : v.length + 1 ≤ cap := by omega
  simp [hv, store, this]

/-- **C12** (non-negative numbers). -/
theorem C12_read_size_t {options pre name gap sp ds rest : List Char}
    (h : Spec.Entry options pre name gap sp (ds ++ rest)) (hd : ds ≠ [])
    (hds : ∀ c ∈ ds, isDigit c = true) (hval : decimal ds < 2 ^ 64)
    (hr : ∀ c, rest.head? = some c → isDigit c = false) :
    readSizeT options name = .ok (1, some (decimal ds)) := by
  have hdig : ∀ c, isDigit c = true → isSpace c = false ∧ c ≠ '-' ∧ c ≠ '+' := by
    intro c hc
    refine ⟨?_, ?_, ?_⟩
    · cases hs : isSpace c with
      | false => rfl
      | true =>
        simp only [isSpace, Bool.or_eq_true, beq_iff_eq] at hs
        rcases hs with ((((rfl | rfl) | rfl) | rfl) | rfl) | rfl <;> revert hc <;> decide
    · rintro rfl; revert hc; decide
    · rintro rfl; revert hc; decide
  obtain ⟨d, ds', rfl⟩ : ∃ d ds', ds = d :: ds' := by
    cases ds with
    | nil => exact absurd rfl hd
    | cons d ds' => exact ⟨d, ds', rfl⟩
  have hd0 := hdig d (hds d (by simp))
  obtain ⟨i2, e1, e2, _⟩ := valueStart_entry h (by
    intro c hc; simp at hc; subst hc; exact hd0.1)
  unfold readSizeT
  rw [e1, Res.ok_bind]
  simp only
  rw [e2]
  unfold scanULong
  have h1 : (d :: ds' ++ rest).dropWhile isSpace = d :: ds' ++ rest := by
    rw [List.cons_append, List.dropWhile_cons_of_neg (by simp [hd0.1])]
  have h2 : scanSign (d :: ds' ++ rest) = (false, d :: ds' ++ rest) := by
    rw [List.cons_append]
    unfold scanSign
    split
    · rename_i h; simp only [List.cons.injEq] at h; exact absurd h.1 hd0.2.1
    · rename_i h; simp only [List.cons.injEq] at h; exact absurd h.1 hd0.2.2
    · rfl
  simp only [h1, h2]
  have h3 : (d :: ds' ++ rest).takeWhile isDigit = d :: ds' := takeWhile_stop hds hr
  rw [h3]
  simp [hval]

theorem scanDigits_ten (ds rest : List Char) (hds : ∀ c ∈ ds, isDigit c = true)
    (hr : ∀ c, rest.head? = some c → hexVal c = none) :
    scanDigits 10 (ds ++ rest) = ds.map digitVal := by
  induction ds with
  | nil =>
    cases rest with
    | nil => rfl
    | cons c cs => simp [scanDigits, hr c rfl]
  | cons d ds ih =>
    have hd := hds d (by simp)
    have hlt : digitVal d < 10 := by
      simp only [isDigit, Bool.and_eq_true, decide_eq_true_eq, Char.le_def, UInt32.le_iff_toNat_le] at hd
      unfold digitVal
      have h1 : ('9' : Char).val.toNat = 57 := by decide
      have h2 : ('0' : Char).toNat = 48 := by decide
      have h3 : d.val.toNat = d.toNat := rfl
      omega
    simp only [List.cons_append, scanDigits, hexVal, hd, if_true, hlt, List.map_cons]
    rw [ih (fun c hc => hds c (by simp [hc]))]

/-- **C12** (integers). A decimal integer without leading zero is read exactly, with its sign. -/
theorem C12_read_int {options pre name gap sp ds rest : List Char} (neg : Bool)
    (h : Spec.Entry options pre name gap sp ((if neg then ['-'] else []) ++ (ds ++ rest)))
    (hd : ds ≠ []) (hds : ∀ c ∈ ds, isDigit c = true) (h0 : ds.head? ≠ some '0')
    (hval : decimal ds < 2 ^ 31) (hr : ∀ c, rest.head? = some c → hexVal c = none) :
    readInt options name = .ok (1, some (if neg then -(decimal ds : Int) else decimal ds)) := by
  have hdig : ∀ c, isDigit c = true → isSpace c = false ∧ c ≠ '-' ∧ c ≠ '+' := by
    intro c hc
    refine ⟨?_, ?_, ?_⟩
    · cases hs : isSpace c with
      | false => rfl
      | true =>
        simp only [isSpace, Bool.or_eq_true, beq_iff_eq] at hs
        rcases hs with ((((rfl | rfl) | rfl) | rfl) | rfl) | rfl <;> revert hc <;> decide
    · rintro rfl; revert hc; decide
    · rintro rfl; revert hc; decide
  obtain ⟨d, ds', rfl⟩ : ∃ d ds', ds = d :: ds' := by
    cases ds with
    | nil => exact absurd rfl hd
    | cons d ds' => exact ⟨d, ds', rfl⟩
  have hd0 := hdig d (hds d (by simp))
  have hdz : d ≠ '0' := by rintro rfl; exact h0 rfl
  have hhead : ∀ c, ((if neg then ['-'] else []) ++ (d :: ds' ++ rest)).head? = some c → isSpace c = false := by
    intro c hc
    cases neg with
    | true => simp at hc; subst hc; decide
    | false => simp at hc; subst hc; exact hd0.1
  obtain ⟨i2, e1, e2, _⟩ := valueStart_entry h hhead
  unfold readInt
  rw [e1, Res.ok_bind]
  simp only
  rw [e2]
  unfold scanInt
  have h1 : ((if neg then ['-'] else []) ++ (d :: ds' ++ rest)).dropWhile isSpace
      = (if neg then ['-'] else []) ++ (d :: ds' ++ rest) := by
    cases neg with
    | true => rfl
    | false =>
      simp only [Bool.false_eq_true, if_false, List.nil_append, List.cons_append]
      rw [List.dropWhile_cons_of_neg (by simp [hd0.1])]
  have hne : (if neg then ['-'] else []) ++ (d :: ds' ++ rest) ≠ [] := by simp
  have h2 : scanSign ((if neg then ['-'] else []) ++ (d :: ds' ++ rest)) = (neg, d :: ds' ++ rest) := by
    cases neg with
    | true => rfl
    | false =>
      simp only [Bool.false_eq_true, if_false, List.nil_append, List.cons_append]
      unfold scanSign
      split
      · rename_i h; simp only [List.cons.injEq] at h; exact absurd h.1 hd0.2.1
      · rename_i h; simp only [List.cons.injEq] at h; exact absurd h.1 hd0.2.2
      · rfl
  have hfold : ((d :: ds').map digitVal).foldl (fun v d => 10 * v + d) 0 = decimal (d :: ds') := by
    rw [List.foldl_map]; rfl
  simp only [h1, hne, if_false, h2]
  have h3 : scanBase (d :: ds' ++ rest) = (10, d :: ds' ++ rest) := by
    rw [List.cons_append]
    unfold scanBase
    split
    · rename_i h; simp only [List.cons.injEq] at h; exact absurd h.1 hdz
    · rename_i h; simp only [List.cons.injEq] at h; exact absurd h.1 hdz
    · rename_i h; simp only [List.cons.injEq] at h; exact absurd h.1 hdz
    · rfl
  simp only [h3]
  simp only [scanDigits_ten (d :: ds') rest hds hr, hfold]
  have hne2 : (d :: ds').map digitVal ≠ [] := by simp
  simp only [hne2, if_false]
  cases neg with
  | true =>
    have : -2 ^ 31 ≤ -(decimal (d :: ds') : Int) ∧ -(decimal (d :: ds') : Int) < 2 ^ 31 := by omega
    simp only [if_true, this, and_self]
  | false =>
    have : -2 ^ 31 ≤ (decimal (d :: ds') : Int) ∧ (decimal (d :: ds') : Int) < 2 ^ 31 := by omega
    simp only [Bool.false_eq_true, if_false, this, and_self, if_true]

/-- **C12** (lists of values). Everything between the colon and the next letter (or the end) is returned
with the white space removed. -/
theorem C12_read_values {options pre name gap body rest : List Char} (cap : Nat)
    (h : Spec.Entry options pre name gap [] (body ++ rest))
    (hb : ∀ c ∈ body, isAlpha c = false)
    (hr : ∀ c, rest.head? = some c → isAlpha c = true)
    (hcap : (body.filter fun c => !isSpace c).length < cap) :
    readValues options name cap
      = .ok (((body.filter fun c => !isSpace c).length : Int), some (body.filter fun c => !isSpace c)) := by
  unfold readValues
  have hne : options ≠ [] := by rw [h.text]; simp
  have hn0 : ¬ ((pre.length : Int) < 0) := by omega
  simp only [hne, if_false, h.strfind_name, Res.ok_bind, hn0, Int.toNat_natCast, h.strfind_colon']
  have hpos : ((pre.length : Int) + ((name.length + gap.length : Nat) : Int) + 1).toNat
      = pre.length + (name.length + gap.length) + 1 := by omega
  have hgt : ¬ ((pre.length : Int) + ((name.length + gap.length : Nat) : Int) + 1 ≤ (pre.length : Int)) := by
    omega
  simp only [hgt, if_false, hpos]
  have hdrop : options.drop (pre.length + (name.length + gap.length) + 1) = body ++ rest := by
    have e : options = (pre ++ name ++ gap ++ [':']) ++ (body ++ rest) := by rw [h.text]; simp
    rw [e, List.drop_append_of_le_length (by simp; omega)]
    rw [List.drop_of_length_le (by simp; omega)]
    rfl
  rw [hdrop]
  have key : ∀ (body acc : List Char), (∀ c ∈ body, isAlpha c = false) →
      (acc ++ body.filter fun c => !isSpace c).length < cap →
      valuesLoop cap (body ++ rest) acc = .ok (((acc ++ body.filter fun c => !isSpace c).length : Int),
        some (acc ++ body.filter fun c => !isSpace c)) := by
    intro body
    induction body with
    | nil =>
      intro acc _ hl
      simp only [List.filter_nil, List.append_nil, List.nil_append] at *
      cases rest with
      | nil => simp [valuesLoop, hl]
      | cons c cs => simp [valuesLoop, hr c rfl, hl]
    | cons c body ih =>
      intro acc hb' hl
      rw [List.cons_append, valuesLoop]
      simp only [hb' c (by simp), Bool.false_eq_true, if_false]
      by_cases hs : isSpace c = true
      · simp only [hs, if_true]
        have e : (c :: body).filter (fun c => !isSpace c) = body.filter fun c => !isSpace c := by simp [hs]
        rw [e] at hl ⊢
        exact ih acc (fun c hc => hb' c (by simp [hc])) hl
      · have e : (c :: body).filter (fun c => !isSpace c) = c :: body.filter fun c => !isSpace c := by simp [hs]
        rw [e] at hl ⊢
        have hlt : acc.length < cap := by
          simp only [List.length_append] at hl; omega
        simp only [hs, hlt, if_true, if_false, Bool.false_eq_true]
        have := ih (acc ++ [c]) (fun c hc => hb' c (by simp [hc])) (by simpa using hl)
        rw [this]; simp
  have := key body [] hb (by simpa using hcap)
  simpa using this

/-- **C12** (absent keys). A key that does not occur anywhere in the options is reported as not given. -/
theorem C12_absent (options name : List Char) (cap : Nat) (hn : name ≠ [])
    (hl : options.length ≤ 1000000000) (h : ∀ k, ¬ Str.Spec.OccursAt options name k) :
    readString options name cap = .ok (0, none) ∧ readValues options name cap = .ok (0, none) ∧
    readInt options name = .ok (0, none) ∧ readSizeT options name = .ok (0, none) := by
  have hv : valueStart options name = .ok none := by
    unfold valueStart
    by_cases h0 : options = []
    · simp [h0]
    · simp [h0, strfind_absent hn hl h]
  refine ⟨?_, ?_, ?_, ?_⟩
  · unfold readString; rw [hv]; rfl
  · unfold readValues
    by_cases h0 : options = []
    · simp [h0]
    · simp [h0, strfind_absent hn hl h]
  · unfold readInt; rw [hv]; rfl
  · unfold readSizeT; rw [hv]; rfl

/-- How a list of `key: value` items is written. -/
def Spec.render (items : List (List Char × List Char)) : List Char :=
  (items.map fun it => it.1 ++ ':' :: ' ' :: (it.2 ++ [' '])).flatten

/-- **C12** (whole option strings). In a string of `key: value` items (values without white space), reading
key `k` returns the value of the item of `k`, provided `k` does not occur in the text before its item. -/
theorem C12_items (before after : List (List Char × List Char)) (k v : List Char) (cap : Nat)
    (hk : k ≠ []) (hkc : ':' ∉ k) (hv : v ≠ []) (hvs : ∀ c ∈ v, isSpace c = false)
    (hq : v.head? ≠ some '"') (hcap : v.length < cap)
    (hl : (Spec.render (before ++ (k, v) :: after)).length ≤ 1000000000)
    (hfirst : ∀ p, p < (Spec.render before).length →
      ¬ Str.Spec.OccursAt (Spec.render (before ++ (k, v) :: after)) k p) :
    readString (Spec.render (before ++ (k, v) :: after)) k cap = .ok (1, some v) := by
  have e : Spec.render (before ++ (k, v) :: after)
      = Spec.render before ++ (k ++ ([] ++ (':' :: ([' '] ++ (v ++ (' ' :: Spec.render after)))))) := by
    simp [Spec.render]
  apply C12_read_string (pre := Spec.render before) (gap := []) (sp := [' ']) (rest := ' ' :: Spec.render after)
    cap _ hv hvs hq _ hcap
  · exact { text := e, name_ne := hk, name_colon := hkc, gap_colon := by simp
            sp_space := by intro c hc; simp at hc; subst hc; decide
            first := hfirst, len := hl }
  · intro c hc
    simp at hc; subst hc; decide

/-- The hypotheses of `C12_items` are met by an option string with three items. -/
example : let before := [("result_folder".toList, "exdata".toList)]
    let after := [("precision_x".toList, "8".toList)]
    ∀ p, p < (Spec.render before).length →
      ¬ Str.Spec.OccursAt (Spec.render (before ++ ("algorithm_name".toList, "rs-1".toList) :: after))
        "algorithm_name".toList p := by
  intro before after p hp hocc
  have h := C13_strfind (Spec.render (before ++ ("algorithm_name".toList, "rs-1".toList) :: after))
    "algorithm_name".toList (by decide) (by decide)
  have he : strfind (Spec.render (before ++ ("algorithm_name".toList, "rs-1".toList) :: after))
    "algorithm_name".toList = .ok ((Spec.render before).length : Int) := by decide +kernel
  rcases h with ⟨e, h⟩ | ⟨k, e, h1, h2⟩
  · exact h p hocc
  · rw [he] at e
    simp only [Res.ok.injEq, Int.natCast_inj] at e
    exact h2 p (by omega) hocc

/-- **C12** (refutation of the unrestricted claim). A key that occurs inside an earlier value is read from
there: the options `note: my_prefix b: 3 prefix: x` give `3` for `prefix`. -/
theorem C12_substring_misread :
    ∃ (before : List (List Char × List Char)) (k v v' : List Char), v ≠ v' ∧
      readString (Spec.render (before ++ [(k, v)])) k 100 = .ok (1, some v') := by
  refine ⟨[("note".toList, "my_prefix".toList), ("b".toList, "3".toList)], "prefix".toList, "x".toList, "3".toList,
    by decide, ?_⟩
  apply C12_read_string (pre := "note: my_".toList) (gap := " b".toList) (sp := " ".toList)
    (rest := " prefix: x ".toList) 100 _ (by decide) (by decide) (by decide) _ (by decide)
  · refine { text := by decide, name_ne := by decide, name_colon := by decide, gap_colon := by decide,
             sp_space := by decide, first := ?_, len := by decide }
    intro p hp hocc
    have h := C13_strfind (Spec.render ([("note".toList, "my_prefix".toList), ("b".toList, "3".toList)]
      ++ [("prefix".toList, "x".toList)])) "prefix".toList (by decide) (by decide)
    have he : strfind (Spec.render ([("note".toList, "my_prefix".toList), ("b".toList, "3".toList)]
      ++ [("prefix".toList, "x".toList)])) "prefix".toList = .ok (9 : Int) := by decide +kernel
    rcases h with ⟨e, h⟩ | ⟨k, e, h1, h2⟩
    · exact h p hocc
    · rw [he] at e
      have hp' : p < 9 := hp
      have : (k : Int) = 9 := by simpa using e.symm
      exact h2 p (by omega) hocc
  · intro c hc
    have : c = ' ' := by simpa using hc.symm
    subst this; decide

/-- **C12** (refutation: empty values). A key with an empty value at the end of the options is reported as
given (a count different from 0) although nothing is stored: the caller then uses an uninitialised
buffer, e.g. at `/repo/src/coco_observer.c` lines 625-627. -/
theorem C12_empty_value_counts_as_given (name : List Char) (cap : Nat) (hn : name ≠ []) (hc : ':' ∉ name)
    (hl : name.length < 1000000000) :
    readString (name ++ [':']) name cap = .ok (-1, none) := by
  have h : Spec.Entry (name ++ [':']) [] name [] [] [] :=
    { text := by simp, name_ne := hn, name_colon := hc, gap_colon := by simp, sp_space := by simp,
      first := by intro k hk; simp at hk, len := by simp; omega }
  obtain ⟨i2, e1, e2, e3⟩ := valueStart_entry h (by simp)
  unfold readString
  rw [e1, Res.ok_bind]
  simp only
  rw [strAt_drop e2 e3, Res.ok_bind]
  have : (([] : List Char).head?.getD nul) ≠ '"' := by decide
  simp only [this, if_false, e2]
  simp [word]

/-! ### C14 -/

/-- **C14.** The redundant keys are exactly the given keys that are not known, in order; NULL iff there are
none. -/
theorem C14_redundant (known given : List (List Char)) (hg : given ≠ []) :
    getRedundant known given
      = .ok (if given.filter (fun k => decide (k ∉ known)) = [] then none
             else some (given.filter fun k => decide (k ∉ known))) := by
  have key : redundantLoop known given = given.filter fun k => decide (k ∉ known) := by
    clear hg
    induction given with
    | nil => rfl
    | cons g gs ih =>
      unfold redundantLoop
      by_cases h : g ∈ known
      · have : known.any (fun k => g == k) = true := by
          rw [List.any_eq_true]; exact ⟨g, h, by simp⟩
        simp [this, h, ih]
      · have : known.any (fun k => g == k) = false := by
          rw [List.any_eq_false]; intro x hx; simp; rintro rfl; exact h hx
        simp [this, h, ih]
  unfold getRedundant
  have h0 : given.length ≠ 0 := by rw [ne_eq, List.length_eq_zero_iff]; exact hg
  simp only [h0, if_false, key, allocateKeys, List.length_eq_zero_iff]

/-- **C14** (nothing reported). -/
theorem C14_none_iff (known given : List (List Char)) (hg : given ≠ []) :
    getRedundant known given = .ok none ↔ ∀ k ∈ given, k ∈ known := by
  rw [C14_redundant known given hg]
  by_cases h : given.filter (fun k => decide (k ∉ known)) = []
  · simp only [h, if_true, true_iff]
    rw [List.filter_eq_nil_iff] at h
    intro k hk
    have := h k hk
    simpa using this
  · simp only [h, if_false, Res.ok.injEq, reduceCtorEq, false_iff]
    intro hall
    apply h
    rw [List.filter_eq_nil_iff]
    intro k hk
    simp [hall k hk]

/-- **C14** (merging). Adding keys gives the concatenation. -/
theorem C14_add (basic additional : List (List Char)) (h : basic ≠ []) :
    addKeys basic (some additional) = .ok (some (basic ++ additional)) ∧
    addKeys basic none = .ok (some basic) := by
  have : basic.length ≠ 0 := by rw [ne_eq, List.length_eq_zero_iff]; exact h
  constructor
  · simp [addKeys, allocateKeys, this]
  · rfl

example : getRedundant ["year".toList, "instances".toList] ["years".toList, "instances".toList]
    = .ok (some ["years".toList]) := by decide

/-! ### C15 -/

theorem countLoop_spec (n : Nat) (numbers : List Nat) (count : Nat) :
    (∃ k, k < n ∧ countLoop n numbers count = .ok (count + k) ∧ numbers[k]? = some 0 ∧
        ∀ j, j < k → ∃ v, numbers[j]? = some v ∧ v ≠ 0) ∨
    (countLoop n numbers count = .ok (count + n) ∧ ∀ j, j < n → ∃ v, numbers[j]? = some v ∧ v ≠ 0) ∨
    (countLoop n numbers count = .ub ∧ numbers.length < n ∧
        ∀ j, j < numbers.length → ∃ v, numbers[j]? = some v ∧ v ≠ 0) := by
  induction n generalizing numbers count with
  | zero => right; left; exact ⟨rfl, fun j h => by omega⟩
  | succ n ih =>
    unfold countLoop
    cases numbers with
    | nil => right; right; exact ⟨rfl, by simp, fun j h => by simp at h⟩
    | cons v vs =>
      by_cases hv : v = 0
      · left; exact ⟨0, by omega, by simp [hv], by simp [hv], fun j h => by omega⟩
      · simp only [ne_eq, hv, not_false_eq_true, if_true]
        have lift : ∀ m, (∀ j, j < m → ∃ w, vs[j]? = some w ∧ w ≠ 0) →
            ∀ j, j < m + 1 → ∃ w, (v :: vs)[j]? = some w ∧ w ≠ 0 := by
          intro m h j hj
          cases j with
          | zero => exact ⟨v, rfl, hv⟩
          | succ j => simpa using h j (by omega)
        rcases ih vs (count + 1) with ⟨k, h1, h2, h3, h4⟩ | ⟨h1, h2⟩ | ⟨h1, h2, h3⟩
        · left
          exact ⟨k + 1, by omega, by rw [h2]; congr 1; omega, by simpa using h3, lift k h4⟩
        · right; left
          exact ⟨by rw [h1]; congr 1; omega, lift n h2⟩
        · right; right
          exact ⟨h1, by simpa using h2, by simpa using lift vs.length h3⟩

/-- **C15.** The count is `n` iff the first 0 is at position `n` and `n < maxCount`; the function aborts
iff none of the first `maxCount` entries (all of them allocated) is 0. -/
theorem C15_count_numbers (numbers : List Nat) (maxCount n : Nat) :
    (countNumbers numbers maxCount = .ok n ↔
      n < maxCount ∧ numbers[n]? = some 0 ∧ ∀ j, j < n → ∃ v, numbers[j]? = some v ∧ v ≠ 0) ∧
    (countNumbers numbers maxCount = .error ↔
      ∀ j, j < maxCount → ∃ v, numbers[j]? = some v ∧ v ≠ 0) := by
  unfold countNumbers
  rcases countLoop_spec maxCount numbers 0 with ⟨k, h1, h2, h3, h4⟩ | ⟨h1, h2⟩ | ⟨h1, h2, h3⟩
  · have hne : k ≠ maxCount := by omega
    simp only [h2, Nat.zero_add, Res.ok_bind, hne, if_false, Res.ok.injEq]
    constructor
    · constructor
      · rintro rfl; exact ⟨h1, h3, h4⟩
      · rintro ⟨_, b, c⟩
        have p1 : ¬ k < n := by
          intro h; obtain ⟨v, e, hv⟩ := c k h
          rw [h3] at e; exact hv (Option.some.inj e).symm
        have p2 : ¬ n < k := by
          intro h; obtain ⟨v, e, hv⟩ := h4 n h
          rw [b] at e; exact hv (Option.some.inj e).symm
        omega
    · simp only [reduceCtorEq, false_iff]
      intro h
      obtain ⟨v, e, hv⟩ := h k h1
      rw [h3] at e; exact hv (Option.some.inj e).symm
  · simp only [h1, Nat.zero_add, Res.ok_bind, if_true, reduceCtorEq, false_iff, true_iff]
    refine ⟨?_, h2⟩
    rintro ⟨a, b, _⟩
    obtain ⟨v, e, hv⟩ := h2 n a
    rw [b] at e; exact hv (Option.some.inj e).symm
  · simp only [h1, Res.ub_bind, reduceCtorEq, false_iff]
    constructor
    · rintro ⟨_, b, _⟩
      have hn : n < numbers.length := (List.getElem?_eq_some_iff.1 b).1
      obtain ⟨v, e, hv⟩ := h3 n hn
      rw [b] at e; exact hv (Option.some.inj e).symm
    · intro h
      obtain ⟨v, e, _⟩ := h numbers.length h2
      simp at e

example : countNumbers [3, 5, 0, 7] 10 = .ok 2 ∧ countNumbers [3, 5, 0, 7] 2 = .error := by decide

/-- **C15** (with range parsing). If range parsing returns exactly `maxCount` numbers, counting them in the
returned array aborts: suites with `maxCount` instances cannot be created although parsing accepts them
(`/repo/src/coco_suite.c` lines 285-286 and 528-529). -/
theorem C15_exactly_max_aborts (s : List Char) (max maxCount : Nat) (hmc : 0 < maxCount) (l : List Nat)
    (h : parseRanges s 1 max maxCount = .ok (some l)) :
    (l.length < maxCount → countNumbers (l ++ [0]) maxCount = .ok l.length) ∧
    (l.length = maxCount → countNumbers (l ++ [0]) maxCount = .error) := by
  have hpos : ∀ x ∈ l, x ≠ 0 := by
    intro x hx
    have := (C10_in_bounds s 1 max maxCount hmc l h x hx).1
    omega
  have hget : ∀ j, j < l.length → ∃ v, (l ++ [0])[j]? = some v ∧ v ≠ 0 := by
    intro j hj
    rw [List.getElem?_append_left hj, List.getElem?_eq_getElem hj]
    exact ⟨l[j], rfl, hpos _ (List.getElem_mem hj)⟩
  constructor
  · intro hl
    rw [(C15_count_numbers _ _ _).1]
    exact ⟨hl, by simp, hget⟩
  · intro hl
    rw [(C15_count_numbers (l ++ [0]) maxCount 0).2]
    intro j hj
    exact hget j (by omega)

/-- The premise is met: a 1000-number range is parsed to exactly 1000 numbers. -/
example : ∃ l, parseRanges "1-1000".toList 1 0 1000 = .ok (some l) ∧ l.length = 1000 := by
  have := C10_parse_ranges 1 0 1000 (by decide) (.inl rfl) [.range ['1'] ['1', '0', '0', '0']] (by simp) (by
    intro it hit
    simp only [List.mem_cons, List.not_mem_nil, or_false] at hit
    subst hit
    simp [Str.Spec.Item.Ok, Str.Spec.Number, isDigit, decimal, digitVal])
  have e : Str.Spec.expected 1 0 [.range ['1'] ['1', '0', '0', '0']] = List.range' 1 1000 := by
    have h : Str.Spec.Item.numbers 1 0 (.range ['1'] ['1', '0', '0', '0']) = List.range' 1 1000 := by
      show Str.Spec.clipped 1 0 1 1000 = _
      rw [clipped_eq]; rfl
    have hne : List.range' 1 1000 ≠ [] := by simp
    simp only [Str.Spec.expected, h, hne, if_false, List.append_nil]
  rw [e] at this
  have hne : List.range' 1 1000 ≠ [] := by simp
  simp only [hne, if_false] at this
  exact ⟨_, this, by simp⟩

end Options
