import Mathlib.Tactic.Common
import Verif.Model.PyOptions
import Verif.Props.Options
import Verif.Lemmas.BiobjFiles

/-!
# Options of observers given as dictionaries in Python (C127)

`/repo/build/python/src/cocoex/interface.pyx` lines 464-473, `/repo/build/python/src/cocoex/utilities.py` lines 208-246.
-/

namespace PyOptions

open Options (readString readSizeT)

/-! ### Specification -/

namespace Spec

/-- A text without quotation marks, commas, braces, backslashes and line ends. -/
def Nice (s : List Char) : Prop := ∀ c ∈ s, c ∉ ['\'', '"', ',', '{', '}', '\\', '\n', '\t', '\r']

/-- The same, but double quotation marks are allowed. -/
def NiceQuoted (s : List Char) : Prop := ∀ c ∈ s, c ∉ ['\'', ',', '{', '}', '\\', '\n', '\t', '\r']

/-- A text without its last character if this is the letter u. -/
def cut (s : List Char) : List Char := if s.getLast? = some 'u' then s.dropLast else s

/-- What is to be written for a value. -/
def value : Value → List Char
  | .str s => s
  | .other r => r

/-- What is written for a value. -/
def cutValue : Value → List Char
  | .str s => cut s
  | .other r => r

/-- All keys and values have a property. -/
def All (P : List Char → Prop) (d : Dict) : Prop := ∀ e ∈ d, P e.1 ∧ P (value e.2)

/-- `key: value  key: value` -/
def text (d : List (List Char × List Char)) : List Char :=
  match d with
  | [] => []
  | [(k, v)] => k ++ (": ".toList ++ v)
  | (k, v) :: d => k ++ (": ".toList ++ (v ++ ("  ".toList ++ text d)))

/-- The keys and values of the dictionary. -/
def items (d : Dict) : List (List Char × List Char) := d.map fun e => (e.1, value e.2)

/-- The keys and values without the last letter if it is u. -/
def cutItems (d : Dict) : List (List Char × List Char) := d.map fun e => (cut e.1, cutValue e.2)

/-- No key and no text ends with the letter u. -/
def NoFinalU (d : Dict) : Prop := ∀ e ∈ d, e.1.getLast? ≠ some 'u' ∧ ∀ s, e.2 = .str s → s.getLast? ≠ some 'u'

/-- The value of a key. -/
def look (d : Dict) (k : List Char) : Option Value := (d.find? fun e => e.1 = k).map (·.2)

end Spec

open Spec

/-! ### Removal of texts -/

theorem removeFrom_single (c : Char) : ∀ s, removeFrom [c] 0 s = s.filter (· ≠ c) := by
  intro s
  induction s with
  | nil => rfl
  | cons x s ih =>
    by_cases h : x = c
    · subst h
      simp [removeFrom, List.isPrefixOf, ih]
    · have h' : ¬ c = x := fun e => h e.symm
      simp [removeFrom, List.isPrefixOf, ih, h, h']

theorem removeFrom_absent (a b : Char) : ∀ s, b ∉ s → removeFrom [a, b] 0 s = s := by
  intro s
  induction s with
  | nil => intro _; rfl
  | cons x s ih =>
    intro h
    rw [List.mem_cons, not_or] at h
    have hn : ¬ ([a, b].isPrefixOf (x :: s) = true) := by
      intro hp
      cases s with
      | nil => simp [List.isPrefixOf] at hp
      | cons y s =>
        simp [List.isPrefixOf] at hp
        exact h.2 (by simp [hp.2])
    rw [removeFrom, if_neg hn, ih h.2]

/-- A character other than u stays in the first pass. -/
theorem pass_keep {c : Char} (h : c ≠ 'u') (s : List Char) : removeFrom ['u', '\''] 0 (c :: s) = c :: removeFrom ['u', '\''] 0 s := by
  rw [removeFrom, if_neg]
  intro hp
  simp [List.isPrefixOf] at hp
  exact h hp.1.symm

theorem pass_keeps : ∀ (a s : List Char), 'u' ∉ a → removeFrom ['u', '\''] 0 (a ++ s) = a ++ removeFrom ['u', '\''] 0 s := by
  intro a
  induction a with
  | nil => intro s _; rfl
  | cons c a ih =>
    intro s h
    rw [List.mem_cons, not_or] at h
    rw [List.cons_append, pass_keep (fun e => h.1 e.symm), ih s h.2, List.cons_append]

/-- Text without single quotes, followed by something that does not start with one. -/
theorem pass_plain (c : Char) (hc : c ≠ '\'') (s : List Char) : ∀ a : List Char, '\'' ∉ a →
    removeFrom ['u', '\''] 0 (a ++ c :: s) = a ++ removeFrom ['u', '\''] 0 (c :: s) := by
  intro a
  induction a with
  | nil => intro _; rfl
  | cons x a ih =>
    intro h
    rw [List.mem_cons, not_or] at h
    rw [List.cons_append, removeFrom, if_neg, ih h.2, List.cons_append]
    intro hp
    cases a with
    | nil =>
      simp [List.isPrefixOf] at hp
      exact hc hp.2.symm
    | cons y a =>
      simp [List.isPrefixOf] at hp
      exact h.2 (by rw [hp.2]; simp)

/-- Text without single quotes before a quote loses its last letter if this is u, and then the quote too. -/
theorem pass_quote (s : List Char) : ∀ a : List Char, '\'' ∉ a → removeFrom ['u', '\''] 0 (a ++ '\'' :: s) =
    (if a.getLast? = some 'u' then a.dropLast else a ++ ['\'']) ++ removeFrom ['u', '\''] 0 s := by
  intro a
  induction a with
  | nil => intro _; simpa using pass_keep (by decide) s
  | cons x a ih =>
    intro h
    rw [List.mem_cons, not_or] at h
    cases a with
    | nil =>
      by_cases hx : x = 'u'
      · subst hx
        simp [removeFrom, List.isPrefixOf]
      · rw [List.cons_append, pass_keep hx, List.nil_append, pass_keep (by decide)]
        simp [hx]
    | cons y a =>
      rw [List.cons_append, removeFrom, if_neg, ih h.2]
      · rw [List.getLast?_cons_cons, List.dropLast_cons_cons]
        by_cases hl : (y :: a).getLast? = some 'u'
        · rw [if_pos hl, if_pos hl]; rfl
        · rw [if_neg hl, if_neg hl]; rfl
      · intro hp
        simp [List.isPrefixOf] at hp
        exact h.2 (by rw [hp.2]; simp)

/-! ### Printing -/

theorem reprStr_nice {s : List Char} (h : NiceQuoted s) : reprStr s = '\'' :: (s ++ ['\'']) := by
  have hq : '\'' ∉ s := fun hm => h _ hm (by simp)
  have hf : s.flatMap (reprChar '\'') = s := by
    clear hq
    induction s with
    | nil => rfl
    | cons c s ih =>
      have hc := h c (by simp)
      simp only [List.mem_cons, List.not_mem_nil, or_false, not_or] at hc
      rw [List.flatMap_cons, ih fun x hx => h x (by simp [hx])]
      simp [reprChar, hc]
  simp [reprStr, hq, hf]

theorem Nice_quoted {s : List Char} (h : Nice s) : NiceQuoted s := by
  intro c hc
  have := h c hc
  simp only [List.mem_cons, List.not_mem_nil, or_false, not_or] at this ⊢
  tauto

theorem noCommas_append (a b : List Char) : noCommas (a ++ b) = noCommas a ++ noCommas b := List.map_append

theorem noCommas_nice {s : List Char} (h : NiceQuoted s) : noCommas s = s := by
  unfold noCommas
  conv => rhs; rw [← List.map_id s]
  apply List.map_congr_left
  intro c hc
  have := h c hc
  simp only [List.mem_cons, List.not_mem_nil, or_false, not_or] at this
  simp [this]

/-- The single quotes and the braces are removed. -/
def sweepOut (s : List Char) : List Char := ((s.filter (· ≠ '\'')).filter (· ≠ '{')).filter (· ≠ '}')

theorem sweepOut_append (a b : List Char) : sweepOut (a ++ b) = sweepOut a ++ sweepOut b := by
  simp [sweepOut]

theorem sweepOut_nice {s : List Char} (h : NiceQuoted s) : sweepOut s = s := by
  unfold sweepOut
  rw [List.filter_filter, List.filter_filter, List.filter_eq_self]
  intro c hc
  have := h c hc
  simp only [List.mem_cons, List.not_mem_nil, or_false, not_or] at this
  simp [this]

theorem nice_dropLast {s : List Char} (h : NiceQuoted s) : NiceQuoted s.dropLast := fun c hc => h c ((List.dropLast_subset s) hc)

/-- A quoted text in the first pass and after the removals. -/
theorem clean_repr {s : List Char} (h : NiceQuoted s) (rest : List Char) :
    sweepOut (removeFrom ['u', '\''] 0 ('\'' :: (s ++ '\'' :: rest))) = cut s ++ sweepOut (removeFrom ['u', '\''] 0 rest) := by
  have hq : '\'' ∉ s := fun hm => h _ hm (by simp)
  rw [pass_keep (by decide), pass_quote rest s hq]
  have e0 : ∀ t, sweepOut ('\'' :: t) = sweepOut t := by intro t; simp [sweepOut]
  rw [e0, sweepOut_append]
  congr 1
  unfold cut
  split
  · exact sweepOut_nice (nice_dropLast h)
  · rw [sweepOut_append, sweepOut_nice h]
    simp [sweepOut]

theorem clean_value {v : Value} (h : NiceQuoted (value v)) (c : Char) (hc : c ≠ '\'') (rest : List Char) :
    sweepOut (removeFrom ['u', '\''] 0 (noCommas v.print ++ c :: rest)) =
      cutValue v ++ sweepOut (removeFrom ['u', '\''] 0 (c :: rest)) := by
  cases v with
  | str s =>
    have h : NiceQuoted s := h
    have e : noCommas (Value.str s).print = '\'' :: (s ++ ['\'']) := by
      rw [Value.print, reprStr_nice h]
      have := noCommas_nice h
      simp only [noCommas, List.map_cons, List.map_append] at this ⊢
      rw [this]
      rfl
    rw [e]
    have := clean_repr h (c :: rest)
    simpa [cutValue] using this
  | other r =>
    have h : NiceQuoted r := h
    have hq : '\'' ∉ r := fun hm => h _ hm (by simp)
    rw [Value.print, noCommas_nice h, pass_plain c hc rest r hq, sweepOut_append, sweepOut_nice h]
    rfl

theorem noCommas_repr {s : List Char} (h : NiceQuoted s) (rest : List Char) :
    noCommas (reprStr s) ++ rest = '\'' :: (s ++ '\'' :: rest) := by
  rw [reprStr_nice h]
  have := noCommas_nice h
  simp only [noCommas, List.map_cons, List.map_append] at this ⊢
  rw [this]
  simp

theorem clean_entries : ∀ d : Dict, Spec.All NiceQuoted d →
    sweepOut (removeFrom ['u', '\''] 0 (noCommas (printEntries d) ++ ['}'])) = text (cutItems d) := by
  have e1 : ": ".toList = [':', ' '] := by decide +kernel
  have e2 : ", ".toList = [',', ' '] := by decide +kernel
  have e3 : "  ".toList = [' ', ' '] := by decide +kernel
  have hcol : ∀ t, sweepOut (removeFrom ['u', '\''] 0 (':' :: ' ' :: t)) = ':' :: ' ' :: sweepOut (removeFrom ['u', '\''] 0 t) := by
    intro t
    rw [pass_keep (by decide), pass_keep (by decide)]
    simp [sweepOut]
  have hblank : ∀ t, sweepOut (removeFrom ['u', '\''] 0 (' ' :: ' ' :: t)) = ' ' :: ' ' :: sweepOut (removeFrom ['u', '\''] 0 t) := by
    intro t
    rw [pass_keep (by decide), pass_keep (by decide)]
    simp [sweepOut]
  have hend : sweepOut (removeFrom ['u', '\''] 0 ['}']) = [] := by decide
  intro d
  induction d with
  | nil => intro _; exact hend
  | cons e d ih =>
    intro h
    obtain ⟨k, v⟩ := e
    obtain ⟨hk, hv⟩ := h (k, v) (by simp)
    cases d with
    | nil =>
      rw [printEntries, noCommas_append, noCommas_append, List.append_assoc, noCommas_repr hk, clean_repr hk, e1]
      have : noCommas [':', ' '] = [':', ' '] := by decide
      rw [this]
      simp only [List.cons_append, List.nil_append]
      rw [hcol, clean_value hv '}' (by decide), hend]
      simp [text, cutItems, e1]
    | cons e' d =>
      rw [printEntries, noCommas_append, noCommas_append, noCommas_append, noCommas_append]
      · rw [List.append_assoc, noCommas_repr hk, clean_repr hk, e1, e2]
        have h1 : noCommas [':', ' '] = [':', ' '] := by decide
        have h2 : noCommas [',', ' '] = [' ', ' '] := by decide
        rw [h1, h2]
        simp only [List.cons_append, List.nil_append, List.append_assoc]
        rw [hcol, clean_value hv ' ' (by decide), hblank, ih fun x hx => h x (by simp [hx])]
        simp [text, cutItems, e1, e3]
      · rintro ⟨⟩

theorem as_string_eq (d : Dict) (h : Spec.All NiceQuoted d) : asString d = text (cutItems d) := by
  have e1 : "u'".toList = ['u', '\''] := by decide +kernel
  have e2 : "'".toList = ['\''] := by decide +kernel
  have e3 : "{".toList = ['{'] := by decide +kernel
  have e4 : "}".toList = ['}'] := by decide +kernel
  rw [asString, e1, e2, e3, e4]
  simp only [removeAll, List.foldl_cons, List.foldl_nil, removeFrom_single]
  show sweepOut (removeFrom ['u', '\''] 0 (noCommas (printDict d))) = _
  have : noCommas (printDict d) = '{' :: (noCommas (printEntries d) ++ ['}']) := by
    simp [printDict, noCommas]
  rw [this, pass_keep (by decide)]
  have e0 : ∀ t, sweepOut ('{' :: t) = sweepOut t := by intro t; simp [sweepOut]
  rw [e0, clean_entries d h]

theorem All_quoted {d : Dict} (h : Spec.All Nice d) : Spec.All NiceQuoted d := fun e he => ⟨Nice_quoted (h e he).1, Nice_quoted (h e he).2⟩

theorem mem_removeFrom (pat : List Char) (c : Char) : ∀ (s : List Char) (k : Nat), c ∈ removeFrom pat k s → c ∈ s := by
  intro s
  induction s with
  | nil => intro k h; cases k <;> simp [removeFrom] at h
  | cons x s ih =>
    intro k h
    cases k with
    | zero =>
      rw [removeFrom] at h
      split at h
      · exact List.mem_cons_of_mem _ (ih _ h)
      · rcases List.mem_cons.mp h with rfl | h
        · simp
        · exact List.mem_cons_of_mem _ (ih _ h)
    | succ k => exact List.mem_cons_of_mem _ (ih _ (by simpa [removeFrom] using h))

theorem print_no_quote : ∀ d : Dict, Spec.All Nice d → '"' ∉ noCommas (printDict d) := by
  have hrepr : ∀ s, Nice s → '"' ∉ noCommas (reprStr s) := by
    intro s h hm
    have : '"' ∉ s := fun hm => h _ hm (by simp)
    have e := noCommas_repr (Nice_quoted h) []
    rw [List.append_nil] at e
    rw [e] at hm
    simp at hm
    exact this hm
  have hval : ∀ v, Nice (value v) → '"' ∉ noCommas v.print := by
    intro v h
    cases v with
    | str s => exact hrepr s h
    | other r =>
      have h : Nice r := h
      rw [Value.print, noCommas_nice (Nice_quoted h)]
      exact fun hm => h _ hm (by simp)
  have e1 : noCommas ": ".toList = [':', ' '] := by decide +kernel
  have e2 : noCommas ", ".toList = [' ', ' '] := by decide +kernel
  have hent : ∀ d : Dict, Spec.All Nice d → '"' ∉ noCommas (printEntries d) := by
    intro d
    induction d with
    | nil => intro _; simp [printEntries, noCommas]
    | cons e d ih =>
      intro h
      obtain ⟨k, v⟩ := e
      obtain ⟨hk, hv⟩ := h (k, v) (by simp)
      cases d with
      | nil =>
        rw [printEntries, noCommas_append, noCommas_append, e1]
        simp only [List.mem_append, not_or]
        exact ⟨hrepr k hk, by decide, hval v hv⟩
      | cons e' d =>
        rw [printEntries, noCommas_append, noCommas_append, noCommas_append, noCommas_append, e1, e2]
        · simp only [List.mem_append, not_or]
          exact ⟨hrepr k hk, by decide, hval v hv, by decide, ih fun x hx => h x (by simp [hx])⟩
        · rintro ⟨⟩
  intro d h
  have : noCommas (printDict d) = '{' :: (noCommas (printEntries d) ++ ['}']) := by simp [printDict, noCommas]
  rw [this]
  simpa using hent d h

theorem observer_eq (d : Dict) (h : Spec.All Nice d) : observerText d = text (cutItems d) := by
  rw [← as_string_eq d (All_quoted h)]
  have e1 : "u'".toList = ['u', '\''] := by decide +kernel
  have e2 : "'".toList = ['\''] := by decide +kernel
  have e3 : "{".toList = ['{'] := by decide +kernel
  have e4 : "}".toList = ['}'] := by decide +kernel
  have e5 : "u\"".toList = ['u', '"'] := by decide +kernel
  have e6 : "\"".toList = ['"'] := by decide +kernel
  have hq := print_no_quote d h
  have h1 : '"' ∉ removeFrom ['u', '\''] 0 (noCommas (printDict d)) := fun hm => hq (mem_removeFrom _ _ _ _ hm)
  rw [observerText, asString, e1, e2, e3, e4, e5, e6]
  simp only [removeAll, List.foldl_cons, List.foldl_nil]
  rw [removeFrom_absent 'u' '"' _ h1]
  have h2 : removeFrom ['"'] 0 (removeFrom ['\''] 0 (removeFrom ['u', '\''] 0 (noCommas (printDict d)))) =
      removeFrom ['\''] 0 (removeFrom ['u', '\''] 0 (noCommas (printDict d))) := by
    rw [removeFrom_single, List.filter_eq_self]
    intro c hc
    simp only [decide_not, Bool.not_eq_true', decide_eq_false_iff_not]
    rintro rfl
    exact h1 (mem_removeFrom _ _ _ _ hc)
  rw [h2]

theorem cut_eq {s : List Char} (h : s.getLast? ≠ some 'u') : cut s = s := if_neg h

theorem cutItems_eq {d : Dict} (h : NoFinalU d) : cutItems d = items d := by
  apply List.map_congr_left
  intro e he
  obtain ⟨h1, h2⟩ := h e he
  rw [cut_eq h1]
  congr 1
  cases e' : e.2 with
  | str s => exact cut_eq (h2 s e')
  | other r => rfl

/-! ### Reading -/

theorem text_split (before after : List (List Char × List Char)) (k v : List Char) : ∃ pre rest,
    text (before ++ (k, v) :: after) = pre ++ (k ++ ([] ++ (':' :: ([' '] ++ (v ++ rest))))) ∧
      (∀ c, rest.head? = some c → c = ' ') ∧ pre = before.flatMap (fun e => e.1 ++ ": ".toList ++ e.2 ++ "  ".toList) := by
  have e1 : ": ".toList = [':', ' '] := by decide +kernel
  have e3 : "  ".toList = [' ', ' '] := by decide +kernel
  induction before with
  | nil =>
    cases after with
    | nil => exact ⟨[], [], by simp [text, e1], by simp, rfl⟩
    | cons e after => exact ⟨[], ' ' :: ' ' :: text (e :: after), by simp [text, e1, e3], by simp, rfl⟩
  | cons e before ih =>
    obtain ⟨pre, rest, h1, h2, h3⟩ := ih
    obtain ⟨k', v'⟩ := e
    refine ⟨k' ++ ": ".toList ++ v' ++ "  ".toList ++ pre, rest, ?_, h2, by simp [h3]⟩
    rw [List.cons_append]
    cases hb : before ++ (k, v) :: after with
    | nil => simp at hb
    | cons a b =>
      rw [text, ← hb, h1]
      · simp
      · rintro ⟨⟩

/-- The text written before an entry. -/
def Spec.preceding (d : List (List Char × List Char)) : List Char := d.flatMap fun e => e.1 ++ ": ".toList ++ e.2 ++ "  ".toList

theorem read_text (before after : List (List Char × List Char)) (k v : List Char) (cap : Nat)
    (hk : k ≠ []) (hkc : ':' ∉ k) (hv : v ≠ []) (hvs : ∀ c ∈ v, CStr.isSpace c = false) (hq : v.head? ≠ some '"') (hcap : v.length < cap)
    (hl : (text (before ++ (k, v) :: after)).length ≤ 1000000000)
    (hfirst : ∀ p, p < (Spec.preceding before).length → ¬ Str.Spec.OccursAt (text (before ++ (k, v) :: after)) k p) :
    readString (text (before ++ (k, v) :: after)) k cap = .ok (1, some v) := by
  obtain ⟨pre, rest, h1, h2, h3⟩ := text_split before after k v
  refine Options.C12_read_string (pre := pre) (gap := []) (sp := [' ']) (rest := rest) cap ?_ hv hvs hq ?_ hcap
  · exact { text := h1, name_ne := hk, name_colon := hkc, gap_colon := by simp,
            sp_space := by intro c hc; simp at hc; subst hc; decide,
            first := fun p hp => hfirst p (by rw [h3] at hp; exact hp), len := hl }
  · intro c hc
    rw [h2 c hc]
    decide

theorem read_text_quoted (before after : List (List Char × List Char)) (k v : List Char) (cap : Nat)
    (hk : k ≠ []) (hkc : ':' ∉ k) (hv : v ≠ []) (hq : '"' ∉ v) (hcap : v.length < cap)
    (hl : (text (before ++ (k, '"' :: (v ++ ['"'])) :: after)).length ≤ 1000000000)
    (hfirst : ∀ p, p < (Spec.preceding before).length → ¬ Str.Spec.OccursAt (text (before ++ (k, '"' :: (v ++ ['"'])) :: after)) k p) :
    readString (text (before ++ (k, '"' :: (v ++ ['"'])) :: after)) k cap = .ok (1, some v) := by
  obtain ⟨pre, rest, h1, h2, h3⟩ := text_split before after k ('"' :: (v ++ ['"']))
  refine Options.C12_read_quoted (pre := pre) (gap := []) (sp := [' ']) (rest := rest) cap ?_ hv hq hcap
  exact { text := by rw [h1]; simp, name_ne := hk, name_colon := hkc, gap_colon := by simp,
          sp_space := by intro c hc; simp at hc; subst hc; decide,
          first := fun p hp => hfirst p (by rw [h3] at hp; exact hp), len := hl }

theorem read_text_number (before after : List (List Char × List Char)) (k : List Char) (n : Nat) (hn : n < 2 ^ 64)
    (hk : k ≠ []) (hkc : ':' ∉ k) (hl : (text (before ++ (k, InfoFile.dec n) :: after)).length ≤ 1000000000)
    (hfirst : ∀ p, p < (Spec.preceding before).length → ¬ Str.Spec.OccursAt (text (before ++ (k, InfoFile.dec n) :: after)) k p) :
    readSizeT (text (before ++ (k, InfoFile.dec n) :: after)) k = .ok (1, some n) := by
  obtain ⟨pre, rest, h1, h2, h3⟩ := text_split before after k (InfoFile.dec n)
  have hd : CStr.decimal (InfoFile.dec n) = n := BiobjFiles.decimal_dec n
  rw [← hd] at hn
  have := Options.C12_read_size_t (options := text (before ++ (k, InfoFile.dec n) :: after)) (pre := pre) (name := k) (gap := [])
    (sp := [' ']) (ds := InfoFile.dec n) (rest := rest)
    { text := h1, name_ne := hk, name_colon := hkc, gap_colon := by simp,
      sp_space := by intro c hc; simp at hc; subst hc; decide,
      first := fun p hp => hfirst p (by rw [h3] at hp; exact hp), len := hl }
    (InfoFile.dec_ne_nil n) (fun c hc => by
      have := InfoFile.dec_digit n c hc
      simp only [Char.isDigit, Bool.and_eq_true, decide_eq_true_eq] at this
      simp only [CStr.isDigit, Bool.and_eq_true, decide_eq_true_eq]
      exact this) hn
    (fun c hc => by rw [h2 c hc]; decide)
  rw [this, hd]

/-! ### Updates -/

theorem look_set (k k' : List Char) (v : Value) : ∀ d : Dict, look (set d k v) k' = if k' = k then some v else look d k' := by
  intro d
  induction d with
  | nil =>
    by_cases h : k' = k
    · subst h; simp [set, look]
    · have h' : ¬ k = k' := fun e => h e.symm
      simp [set, look, h, h']
  | cons e d ih =>
    rw [set]
    by_cases he : e.1 = k
    · rw [if_pos he]
      by_cases h : k' = k
      · subst h; simp [look]
      · have h' : ¬ k = k' := fun e => h e.symm
        have h'' : ¬ e.1 = k' := by rw [he]; exact h'
        simp [look, h, h', h'']
    · rw [if_neg he]
      by_cases h2 : e.1 = k'
      · have h3 : ¬ k' = k := by rw [← h2]; exact he
        simp [look, h2, h3]
      · have : look (e :: set d k v) k' = look (set d k v) k' := by simp [look, h2]
        rw [this, ih]
        have : look (e :: d) k' = look d k' := by simp [look, h2]
        rw [this]

theorem look_any (d : Dict) (k : List Char) : d.any (fun x => x.1 == k) = (look d k).isSome := by
  induction d with
  | nil => rfl
  | cons e d ih =>
    by_cases h : e.1 = k
    · simp [look, h]
    · have : look (e :: d) k = look d k := by simp [look, h]
      rw [this, ← ih]
      simp [h]

theorem look_cons (e : List Char × Value) (d : Dict) (k : List Char) :
    look (e :: d) k = if e.1 = k then some e.2 else look d k := by
  by_cases h : e.1 = k <;> simp [look, h]

theorem look_none {d : Dict} {k : List Char} (h : k ∉ d.map (·.1)) : look d k = none := by
  induction d with
  | nil => rfl
  | cons e d ih =>
    rw [List.map_cons, List.mem_cons, not_or] at h
    rw [look_cons, if_neg (fun x => h.1 x.symm), ih h.2]

theorem look_append (d : Dict) (k : List Char) (v : Value) (h : look d k = none) : set d k v = d ++ [(k, v)] := by
  induction d with
  | nil => rfl
  | cons e d ih =>
    rw [look_cons] at h
    by_cases he : e.1 = k
    · simp [he] at h
    · rw [if_neg he] at h
      rw [set, if_neg he, ih h]; rfl

/-! ### C127 -/

/-- `update`: the new options win, the others stay. -/
theorem C127_update (d new : Dict) (h : (new.map (·.1)).Nodup) (k : List Char) :
    look (update d new) k = (look new k).or (look d k) := by
  unfold update
  induction new generalizing d with
  | nil => rfl
  | cons e new ih =>
    rw [List.map_cons, List.nodup_cons] at h
    rw [List.foldl_cons, ih _ h.2, look_set, look_cons]
    by_cases hk : k = e.1
    · rw [if_pos hk, if_pos hk.symm, look_none (by rw [hk]; exact h.1)]
      rfl
    · rw [if_neg hk, if_neg fun x => hk x.symm]

example : look (update [("a".toList, .other ['1']), ("b".toList, .other ['2'])] [("b".toList, .other ['3'])]) "b".toList =
    some (.other ['3']) := by decide +kernel

/-- `update_gracefully`: the options that are there win, and the new ones come behind them. -/
theorem C127_update_gracefully (d new : Dict) (k : List Char) :
    look (updateGracefully d new) k = (look d k).or (look new k) ∧ d <+: updateGracefully d new := by
  unfold updateGracefully
  induction new generalizing d with
  | nil => exact ⟨by rw [List.foldl_nil]; cases look d k <;> rfl, List.prefix_rfl⟩
  | cons e new ih =>
    rw [List.foldl_cons, look_any]
    cases he : look d e.1 with
    | some v =>
      rw [if_pos (by rfl)]
      refine ⟨?_, (ih d).2⟩
      rw [(ih d).1, look_cons]
      by_cases hk : e.1 = k
      · rw [if_pos hk, ← hk, he]; rfl
      · rw [if_neg hk]
    | none =>
      rw [if_neg (by simp)]
      refine ⟨?_, List.IsPrefix.trans ?_ (ih _).2⟩
      · rw [(ih _).1, look_set, look_cons]
        by_cases hk : e.1 = k
        · rw [if_pos hk, if_pos hk.symm, ← hk, he]; rfl
        · rw [if_neg hk, if_neg fun x => hk x.symm]
      · rw [look_append d e.1 e.2 he]
        exact List.prefix_append _ _

example : updateGracefully [("a".toList, .other ['1'])] [("a".toList, .other ['3']), ("b".toList, .other ['2'])] =
    [("a".toList, .other ['1']), ("b".toList, .other ['2'])] := by decide +kernel

/-- What `Observer` passes on for a dictionary, and what `as_string` gives: the keys and values one after the other, where a text
loses its last letter if this is u. -/
theorem C127_text (d : Dict) (h : Spec.All Nice d) : observerText d = text (cutItems d) ∧ asString d = text (cutItems d) :=
  ⟨observer_eq d h, as_string_eq d (All_quoted h)⟩

/-- A dictionary with a text, a number, and a text that ends with u. -/
def Spec.sample : Dict :=
  [("result_folder".toList, .str "RS on bbob".toList), ("precision_x".toList, .other "3".toList), ("algorithm_name".toList, .str "gnu".toList)]

example : Spec.All Nice sample ∧
    observerText sample = "result_folder: RS on bbob  precision_x: 3  algorithm_name: gn".toList := by
  refine ⟨?_, by decide +kernel⟩
  unfold Spec.All Nice
  decide +kernel

/-- `as_string` keeps double quotation marks. -/
theorem C127_as_string (d : Dict) (h : Spec.All NiceQuoted d) : asString d = text (cutItems d) := as_string_eq d h

example : asString [("algorithm_info".toList, .str "\"A SIMPLE SEARCH\"".toList)] = "algorithm_info: \"A SIMPLE SEARCH\"".toList := by
  decide +kernel

/-- A text without blanks is found under its key.
Missing: texts with blanks, quotation marks, commas, braces, and texts that end with u. -/
theorem C127_read_partial (before after : Dict) (k v : List Char) (cap : Nat) (h : Spec.All Nice (before ++ (k, .str v) :: after))
    (hu : NoFinalU (before ++ (k, .str v) :: after)) (hk : k ≠ []) (hkc : ':' ∉ k) (hv : v ≠ [])
    (hvs : ∀ c ∈ v, CStr.isSpace c = false) (hcap : v.length < cap)
    (hl : (observerText (before ++ (k, .str v) :: after)).length ≤ 1000000000)
    (hfirst : ∀ p, p < (preceding (items before)).length → ¬ Str.Spec.OccursAt (observerText (before ++ (k, .str v) :: after)) k p) :
    readString (observerText (before ++ (k, .str v) :: after)) k cap = .ok (1, some v) := by
  have e : observerText (before ++ (k, .str v) :: after) = text (items before ++ (k, v) :: items after) := by
    rw [observer_eq _ h, cutItems_eq hu]
    simp [items, value]
  rw [e] at hl hfirst ⊢
  refine read_text _ _ k v cap hk hkc hv hvs ?_ hcap hl hfirst
  intro hq
  have hm : '"' ∈ v := List.mem_of_mem_head? hq
  exact (h (k, .str v) (by simp)).2 '"' hm (by simp)

example : readString (observerText [("outer_folder".toList, .str "exdata".toList), ("result_folder".toList, .str "RS-1".toList)])
    "result_folder".toList 200 = .ok (1, some "RS-1".toList) := by decide +kernel

/-- A number is found under its key. Missing: negative numbers and the other kinds of values. -/
theorem C127_read_number_partial (before after : Dict) (k : List Char) (n : Nat) (hn : n < 2 ^ 64)
    (h : Spec.All Nice (before ++ (k, .other (InfoFile.dec n)) :: after))
    (hu : NoFinalU (before ++ (k, .other (InfoFile.dec n)) :: after)) (hk : k ≠ []) (hkc : ':' ∉ k)
    (hl : (observerText (before ++ (k, .other (InfoFile.dec n)) :: after)).length ≤ 1000000000)
    (hfirst : ∀ p, p < (preceding (items before)).length →
      ¬ Str.Spec.OccursAt (observerText (before ++ (k, .other (InfoFile.dec n)) :: after)) k p) :
    readSizeT (observerText (before ++ (k, .other (InfoFile.dec n)) :: after)) k = .ok (1, some n) := by
  have e : observerText (before ++ (k, .other (InfoFile.dec n)) :: after) = text (items before ++ (k, InfoFile.dec n) :: items after) := by
    rw [observer_eq _ h, cutItems_eq hu]
    simp [items, value]
  rw [e] at hl hfirst ⊢
  exact read_text_number _ _ k n hn hk hkc hl hfirst

example : readSizeT (observerText [("result_folder".toList, .str "RS".toList), ("number_target_triggers".toList, .other (InfoFile.dec 100))])
    "number_target_triggers".toList = .ok (1, some 100) := by decide +kernel

/-- A text in double quotation marks is found under its key, blanks included, with `as_string`.
Missing: dictionaries with commas, apostrophes, braces and backslashes, and `Observer` itself (`C127_quotes_lost`). -/
theorem C127_read_quoted_partial (before after : Dict) (k v : List Char) (cap : Nat)
    (h : Spec.All NiceQuoted (before ++ (k, .str ('"' :: (v ++ ['"']))) :: after))
    (hu : NoFinalU (before ++ (k, .str ('"' :: (v ++ ['"']))) :: after)) (hk : k ≠ []) (hkc : ':' ∉ k) (hv : v ≠ []) (hvq : '"' ∉ v)
    (hcap : v.length < cap) (hl : (asString (before ++ (k, .str ('"' :: (v ++ ['"']))) :: after)).length ≤ 1000000000)
    (hfirst : ∀ p, p < (preceding (items before)).length →
      ¬ Str.Spec.OccursAt (asString (before ++ (k, .str ('"' :: (v ++ ['"']))) :: after)) k p) :
    readString (asString (before ++ (k, .str ('"' :: (v ++ ['"']))) :: after)) k cap = .ok (1, some v) := by
  have e : asString (before ++ (k, .str ('"' :: (v ++ ['"']))) :: after) = text (items before ++ (k, '"' :: (v ++ ['"'])) :: items after) := by
    rw [as_string_eq _ h, cutItems_eq hu]
    simp [items, value]
  rw [e] at hl hfirst ⊢
  exact read_text_quoted _ _ k v cap hk hkc hv hvq hcap hl hfirst

example : readString (asString [("result_folder".toList, .str "RS".toList), ("algorithm_info".toList, .str "\"A SIMPLE menu\"".toList)])
    "algorithm_info".toList 200 = .ok (1, some "A SIMPLE menu".toList) := by decide +kernel

/-- Every text that ends with the letter u is read without it, with `Observer` and with `as_string`. -/
theorem C127_final_u (k w : List Char) (cap : Nat) (hk : Nice k) (hw : Nice w) (hku : k.getLast? ≠ some 'u') (hk0 : k ≠ [])
    (hkc : ':' ∉ k) (hw0 : w ≠ []) (hws : ∀ c ∈ w, CStr.isSpace c = false) (hcap : w.length < cap)
    (hl : k.length + w.length ≤ 999999998) :
    readString (observerText [(k, .str (w ++ ['u']))]) k cap = .ok (1, some w) ∧
      readString (asString [(k, .str (w ++ ['u']))]) k cap = .ok (1, some w) := by
  have hd : Spec.All Nice [(k, .str (w ++ ['u']))] := by
    intro e he
    rw [List.mem_singleton] at he
    subst he
    refine ⟨hk, ?_⟩
    intro c hc
    rcases List.mem_append.mp hc with hc | hc
    · exact hw c hc
    · rw [List.mem_singleton] at hc; subst hc; decide
  have e : cutItems [(k, .str (w ++ ['u']))] = [(k, w)] := by
    simp [cutItems, cutValue, cut, hku]
  obtain ⟨h1, h2⟩ := C127_text _ hd
  rw [h1, h2, e]
  have hr := read_text [] [] k w cap hk0 hkc hw0 hws (fun hq => hw '"' (List.mem_of_mem_head? hq) (by simp)) hcap
    (by
      have e1 : ": ".toList = [':', ' '] := by decide +kernel
      simp [text, e1]; omega) (by intro p hp; simp [preceding] at hp)
  exact ⟨hr, hr⟩

example : readString (observerText [("result_folder".toList, .str "menu".toList)]) "result_folder".toList 200 =
    .ok (1, some "men".toList) := (C127_final_u "result_folder".toList "men".toList 200 (by unfold Nice; decide +kernel) (by unfold Nice; decide +kernel)
      (by decide +kernel) (by decide +kernel) (by decide +kernel) (by decide +kernel) (by decide +kernel) (by decide +kernel)
      (by decide +kernel)).1

/-- With a dictionary `Observer` removes the quotation marks that `as_string` keeps: only the first word is read. -/
theorem C127_quotes_lost : ∃ d : Dict, ∃ k : List Char,
    readString (asString d) k 200 = .ok (1, some "A SIMPLE RANDOM SEARCH ALGORITHM".toList) ∧
      readString (observerText d) k 200 = .ok (1, some "A".toList) :=
  ⟨[("algorithm_info".toList, .str "\"A SIMPLE RANDOM SEARCH ALGORITHM\"".toList)], "algorithm_info".toList, by decide +kernel, by decide +kernel⟩

/-- An apostrophe becomes a backslash, and a comma becomes a blank. -/
theorem C127_apostrophe_comma : ∃ d : Dict, ∃ k : List Char,
    d = [(k, .str "\"Bob's (1,2)-ES\"".toList)] ∧ readString (asString d) k 200 = .ok (1, some "Bob\\s (1 2)-ES".toList) := by
  refine ⟨_, "algorithm_info".toList, rfl, ?_⟩
  decide +kernel

end PyOptions
